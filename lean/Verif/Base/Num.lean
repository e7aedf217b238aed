import Verif.Base.Radix
import Verif.Base.Lit
/-!
# Number texts

The number syntaxes that occur in the grammars, and Rust's `str::parse` on them.
-/

namespace Verif

/-- `d+` -/
def IsDigits (s : Str) : Prop := s ≠ [] ∧ ∀ c ∈ s, isAsciiDigit c = true

instance (s : Str) : Decidable (IsDigits s) := inferInstanceAs (Decidable (_ ∧ _))

/-- An optional sign. -/
def IsSign (s : Str) : Prop := s = [] ∨ s = ['-'] ∨ s = ['+']

/-- `[-+]? d+` -/
def IsInteger (s : Str) : Prop := ∃ sg ds, s = sg ++ ds ∧ IsSign sg ∧ IsDigits ds

/-- `[-+]? (d* . d+ | d+)` -/
def IsDecimal (s : Str) : Prop :=
  ∃ sg ds fs, s = sg ++ ds ++ fs ∧ IsSign sg ∧ (∀ c ∈ ds, isAsciiDigit c = true) ∧
    ((fs = [] ∧ ds ≠ []) ∨ ∃ d, fs = '.' :: d ∧ IsDigits d)

/-- 64-bit floats as far as texts are concerned.  `ofText` is `str::parse::<f64>`; the only fact used
about it is that it accepts every plain decimal numeral (Rust documents the accepted grammar). -/
class F64 (F : Type) where
  ofText : Str → Option F
  ofText_decimal : ∀ s, IsDecimal s → (ofText s).isSome = true

theorem IsDigits.isDecimal {s : Str} (h : IsDigits s) : IsDecimal s :=
  ⟨[], s, [], by simp, Or.inl rfl, h.2, Or.inl ⟨rfl, h.1⟩⟩

theorem IsInteger.isDecimal {s : Str} (h : IsInteger s) : IsDecimal s := by
  obtain ⟨sg, ds, rfl, h1, h2⟩ := h
  exact ⟨sg, ds, [], by simp, h1, h2.2, Or.inl ⟨rfl, h2.1⟩⟩

theorem F64.some_of_decimal {F : Type} [F64 F] {s : Str} (h : IsDecimal s) :
    ∃ x : F, F64.ofText s = some x := Option.isSome_iff_exists.1 (F64.ofText_decimal s h)

/-- `str::parse::<iN>()` with `bound` one more than the largest value: an optional sign, at least one
digit, and a value between `-bound` and `bound - 1`. -/
def parseSigned (bound : Nat) (s : Str) : Option Int :=
  match s with
  | '-' :: t =>
    if t.isEmpty then none
    else (digitsIn 10 t).bind fun n => if n ≤ bound then some (-(n : Int)) else none
  | _ => (parseUnsigned 10 bound s).map (fun n => (n : Int))

/-- The integer a numeral stands for. -/
def intValue (s : Str) : Int :=
  match s with
  | '-' :: t => -(digitsValue t : Int)
  | '+' :: t => digitsValue t
  | _ => digitsValue s

theorem toDigit_digit {c : Char} (h : isAsciiDigit c = true) : toDigit 10 c = some (c.toNat - 48) := by
  simp only [toDigit, h, if_true]
  simp only [isAsciiDigit, Bool.and_eq_true, decide_eq_true_eq] at h
  have h1 : 48 ≤ c.toNat := h.1
  have h2 : c.toNat ≤ 57 := h.2
  rw [Option.filter_some, if_pos]
  simp
  omega

theorem digitsIn_digits_aux {s : Str} (h : ∀ c ∈ s, isAsciiDigit c = true) (n : Nat) :
    s.foldl (fun acc c => acc.bind fun n => (toDigit 10 c).map (10 * n + ·)) (some n) =
      some (s.foldl (fun n c => 10 * n + (c.toNat - 48)) n) := by
  induction s generalizing n with
  | nil => rfl
  | cons c s ih =>
    simp only [List.foldl_cons, Option.bind_some, toDigit_digit (h c List.mem_cons_self), Option.map_some]
    exact ih (fun c hc => h c (List.mem_cons_of_mem _ hc)) _

theorem digitsIn_digits {s : Str} (h : ∀ c ∈ s, isAsciiDigit c = true) :
    digitsIn 10 s = some (digitsValue s) := digitsIn_digits_aux h 0

theorem isDigit_ne {c : Char} (h : isAsciiDigit c = true) {d : Char} (hd : isAsciiDigit d = false) :
    c ≠ d := by
  rintro rfl
  rw [h] at hd
  cases hd

theorem stripPlus_digits {s : Str} (h : ∀ c ∈ s, isAsciiDigit c = true) : stripPlus s = s := by
  cases s with
  | nil => rfl
  | cons c s =>
    have := isDigit_ne (h c List.mem_cons_self) (d := '+') (by decide)
    unfold stripPlus
    split
    · next heq => simp at heq; exact absurd heq.1 this
    · rfl

/-- `parse::<uN>()` of a digit string fails on overflow only. -/
theorem parseUnsigned_digits {s : Str} (h : IsDigits s) (bound : Nat) :
    parseUnsigned 10 bound s = if digitsValue s < bound then some (digitsValue s) else none := by
  unfold parseUnsigned
  rw [stripPlus_digits h.2, digitsIn_digits h.2]
  have : s.isEmpty = false := by simpa using h.1
  simp [this, Option.filter_some]

theorem parseUnsigned_plus {s : Str} (h : IsDigits s) (bound : Nat) :
    parseUnsigned 10 bound ('+' :: s) = if digitsValue s < bound then some (digitsValue s) else none := by
  unfold parseUnsigned
  have e : stripPlus ('+' :: s) = s := rfl
  rw [e, digitsIn_digits h.2]
  have : s.isEmpty = false := by simpa using h.1
  simp [this, Option.filter_some]

theorem parseUnsigned_minus (s : Str) (bound : Nat) : parseUnsigned 10 bound ('-' :: s) = none := by
  unfold parseUnsigned
  have e : stripPlus ('-' :: s) = '-' :: s := rfl
  rw [e]
  have hn : ∀ (l : Str), l.foldl (fun (acc : Option Nat) c => acc.bind fun n => (toDigit 10 c).map (10 * n + ·)) none = none := by
    intro l
    induction l with
    | nil => rfl
    | cons c l ih => simpa using ih
  have h2 : digitsIn 10 ('-' :: s) = none := by
    unfold digitsIn
    rw [List.foldl_cons]
    have : toDigit 10 '-' = none := by decide
    simp only [this, Option.bind_some, Option.map_none]
    apply hn
  rw [h2]
  simp

/-- `parse::<uN>()` of an integer text fails on a minus sign and on overflow only. -/
theorem parseUnsigned_integer {s : Str} (h : IsInteger s) (bound : Nat) :
    parseUnsigned 10 bound s =
      if s.head? ≠ some '-' ∧ intValue s < bound then some (intValue s).toNat else none := by
  obtain ⟨sg, ds, rfl, hs, hd⟩ := h
  rcases hs with rfl | rfl | rfl
  · rw [List.nil_append, parseUnsigned_digits hd]
    have hh : ds.head? ≠ some '-' := by
      intro he
      have := hd.2 '-' (List.mem_of_mem_head? he)
      revert this; decide
    have hv : intValue ds = digitsValue ds := by
      cases ds with
      | nil => rfl
      | cons c t =>
        have h1 := isDigit_ne (hd.2 c List.mem_cons_self) (d := '-') (by decide)
        have h2 := isDigit_ne (hd.2 c List.mem_cons_self) (d := '+') (by decide)
        unfold intValue
        split
        · next heq => simp at heq; exact absurd heq.1 h1
        · next heq => simp at heq; exact absurd heq.1 h2
        · rfl
    rw [hv]
    simp [hh]
  · simp [parseUnsigned_minus]
  · rw [List.singleton_append, parseUnsigned_plus hd]
    simp [intValue]

/-- `parse::<iN>()` of an integer text fails on overflow only. -/
theorem parseSigned_integer {s : Str} (h : IsInteger s) {bound : Nat} (hb0 : 0 < bound) :
    parseSigned bound s =
      if -(bound : Int) ≤ intValue s ∧ intValue s < bound then some (intValue s) else none := by
  obtain ⟨sg, ds, rfl, hs, hd⟩ := h
  rcases hs with rfl | rfl | rfl
  · have hi : IsInteger ([] ++ ds) := ⟨[], ds, rfl, Or.inl rfl, hd⟩
    rw [List.nil_append] at hi ⊢
    have hv : intValue ds = digitsValue ds ∧ parseSigned bound ds =
        (parseUnsigned 10 bound ds).map (fun n => (n : Int)) := by
      cases ds with
      | nil => exact ⟨rfl, rfl⟩
      | cons c t =>
        have h1 := isDigit_ne (hd.2 c List.mem_cons_self) (d := '-') (by decide)
        have h2 := isDigit_ne (hd.2 c List.mem_cons_self) (d := '+') (by decide)
        constructor
        · unfold intValue
          split
          · next heq => simp at heq; exact absurd heq.1 h1
          · next heq => simp at heq; exact absurd heq.1 h2
          · rfl
        · unfold parseSigned
          split
          · next heq => simp at heq; exact absurd heq.1 h1
          · rfl
    rw [hv.1, hv.2, parseUnsigned_digits hd]
    by_cases hb : digitsValue ds < bound
    · rw [if_pos hb, if_pos (by omega)]; rfl
    · rw [if_neg hb, if_neg (by omega)]; rfl
  · have : ds.isEmpty = false := by simpa using hd.1
    have e : parseSigned bound (['-'] ++ ds) =
        (digitsIn 10 ds).bind fun n => if n ≤ bound then some (-(n : Int)) else none := by
      simp [parseSigned, this]
    have e2 : intValue (['-'] ++ ds) = -(digitsValue ds : Int) := rfl
    rw [e, e2, digitsIn_digits hd.2]
    simp only [Option.bind_some]
    by_cases hb : digitsValue ds ≤ bound
    · rw [if_pos hb, if_pos (by omega)]
    · rw [if_neg hb, if_neg (by omega)]
  · have e : parseSigned bound (['+'] ++ ds) =
        (parseUnsigned 10 bound ('+' :: ds)).map (fun n => (n : Int)) := rfl
    have e2 : intValue (['+'] ++ ds) = digitsValue ds := rfl
    rw [e, e2, parseUnsigned_plus hd]
    by_cases hb : digitsValue ds < bound
    · rw [if_pos hb, if_pos (by omega)]; rfl
    · rw [if_neg hb, if_neg (by omega)]; rfl

end Verif
