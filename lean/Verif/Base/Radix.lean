import Verif.Base.Unicode
/-!
# Numbers in other bases

`{:o}`, `{:x}` with zero padding, and `from_str_radix` of the Rust standard library.
-/

namespace Verif

/-- `char::to_digit(radix)` for radix at most 16. -/
def toDigit (radix : Nat) (c : Char) : Option Nat :=
  let d : Option Nat :=
    if isAsciiDigit c then some (c.toNat - 48)
    else if isAsciiLower c then some (c.toNat - 87)
    else if isAsciiUpper c then some (c.toNat - 55)
    else none
  d.filter (· < radix)

/-- The value of a digit string, none if some character is not a digit. -/
def digitsIn (radix : Nat) (s : Str) : Option Nat :=
  s.foldl (fun acc c => acc.bind fun n => (toDigit radix c).map (radix * n + ·)) (some 0)

/-- `str::strip_prefix('+')` -/
def stripPlus : Str → Str
  | '+' :: s => s
  | s => s

/-- `uN::from_str_radix(s, radix)` where `bound` is one more than the largest value: an optional plus
sign, at least one digit, and no overflow. -/
def parseUnsigned (radix bound : Nat) (s : Str) : Option Nat :=
  if (stripPlus s).isEmpty then none else (digitsIn radix (stripPlus s)).filter (· < bound)

/-- The digit `d < 16` in lower case. -/
def radixChar (d : Nat) : Char := if d < 10 then Char.ofNat (48 + d) else Char.ofNat (87 + d)

/-- The digits of `n`, at most `fuel + 1`. -/
def showRadixAux (radix : Nat) : Nat → Nat → Str
  | 0, n => [radixChar (n % radix)]
  | fuel + 1, n =>
    if n < radix then [radixChar n]
    else showRadixAux radix fuel (n / radix) ++ [radixChar (n % radix)]

/-- `format!("{:o}")`, `format!("{:x}")` -/
def showRadix (radix n : Nat) : Str := showRadixAux radix n n

/-- Padding with zeros to a width. -/
def padZero (width : Nat) (s : Str) : Str := List.replicate (width - s.length) '0' ++ s

theorem toDigit_radixChar {radix d : Nat} (hr : radix ≤ 16) (h : d < radix) :
    toDigit radix (radixChar d) = some d := by
  have : d < 16 := by omega
  have h2 : d = 0 ∨ d = 1 ∨ d = 2 ∨ d = 3 ∨ d = 4 ∨ d = 5 ∨ d = 6 ∨ d = 7 ∨ d = 8 ∨ d = 9 ∨
    d = 10 ∨ d = 11 ∨ d = 12 ∨ d = 13 ∨ d = 14 ∨ d = 15 := by omega
  have key : ∀ d : Nat, d < 16 → toDigit 16 (radixChar d) = some d := by
    intro d hd
    have h2 : d = 0 ∨ d = 1 ∨ d = 2 ∨ d = 3 ∨ d = 4 ∨ d = 5 ∨ d = 6 ∨ d = 7 ∨ d = 8 ∨ d = 9 ∨
      d = 10 ∨ d = 11 ∨ d = 12 ∨ d = 13 ∨ d = 14 ∨ d = 15 := by omega
    rcases h2 with h | h | h | h | h | h | h | h | h | h | h | h | h | h | h | h <;> subst h <;> decide
  have k := key d this
  simp only [toDigit] at k ⊢
  rw [Option.filter_eq_some_iff] at k ⊢
  exact ⟨k.1, by simpa using h⟩

theorem digitsIn_append_one (radix : Nat) (s : Str) (c : Char) :
    digitsIn radix (s ++ [c]) =
      (digitsIn radix s).bind fun n => (toDigit radix c).map (radix * n + ·) := by
  simp [digitsIn, List.foldl_append]

theorem digitsIn_showRadixAux {radix : Nat} (h2 : 2 ≤ radix) (hr : radix ≤ 16) (fuel n : Nat)
    (h : n ≤ fuel) : digitsIn radix (showRadixAux radix fuel n) = some n := by
  induction fuel generalizing n with
  | zero =>
    have : n = 0 := by omega
    subst this
    simp [showRadixAux, digitsIn, toDigit_radixChar hr (show 0 < radix by omega)]
  | succ fuel ih =>
    unfold showRadixAux
    split
    · next hlt => simp [digitsIn, toDigit_radixChar hr hlt]
    · next hge =>
      have hd : n / radix ≤ fuel := by
        have : n / radix < n := Nat.div_lt_self (by omega) h2
        omega
      rw [digitsIn_append_one, ih _ hd, toDigit_radixChar hr (Nat.mod_lt _ (by omega))]
      simp [Nat.div_add_mod]

theorem digitsIn_showRadix {radix : Nat} (h2 : 2 ≤ radix) (hr : radix ≤ 16) (n : Nat) :
    digitsIn radix (showRadix radix n) = some n :=
  digitsIn_showRadixAux h2 hr n n (Nat.le_refl _)

theorem digitsIn_zeros {radix : Nat} (h : 0 < radix) (k : Nat) (s : Str) :
    digitsIn radix (List.replicate k '0' ++ s) = digitsIn radix s := by
  have hz : toDigit radix '0' = some 0 := by
    simp [toDigit, isAsciiDigit, h]
  induction k with
  | zero => simp
  | succ k ih =>
    rw [List.replicate_succ]
    simp only [digitsIn, List.cons_append, List.foldl_cons, hz] at ih ⊢
    simpa using ih

theorem digitsIn_padZero {radix : Nat} (h2 : 2 ≤ radix) (hr : radix ≤ 16) (w n : Nat) :
    digitsIn radix (padZero w (showRadix radix n)) = some n := by
  rw [padZero, digitsIn_zeros (by omega), digitsIn_showRadix h2 hr]

theorem padZero_showRadix_inj {radix : Nat} (h2 : 2 ≤ radix) (hr : radix ≤ 16) {w m n : Nat}
    (h : padZero w (showRadix radix m) = padZero w (showRadix radix n)) : m = n := by
  have := congrArg (digitsIn radix) h
  rw [digitsIn_padZero h2 hr, digitsIn_padZero h2 hr] at this
  exact Option.some.inj this

theorem showRadixAux_ne_nil (radix fuel n : Nat) : showRadixAux radix fuel n ≠ [] := by
  cases fuel with
  | zero => simp [showRadixAux]
  | succ f => unfold showRadixAux; split <;> simp

theorem showRadix_ne_nil (radix n : Nat) : showRadix radix n ≠ [] := showRadixAux_ne_nil radix n n

theorem showRadix_small {radix n : Nat} (h : n < radix) : showRadix radix n = [radixChar n] := by
  unfold showRadix
  cases n with
  | zero => simp [showRadixAux, Nat.mod_eq_of_lt h]
  | succ n => simp [showRadixAux, h]

theorem showRadixAux_fuel (radix : Nat) (h2 : 2 ≤ radix) {f g n : Nat} (hf : n ≤ f) (hg : n ≤ g) :
    showRadixAux radix f n = showRadixAux radix g n := by
  induction f generalizing g n with
  | zero =>
    have : n = 0 := by omega
    subst this
    cases g <;> simp [showRadixAux]
    intro h; omega
  | succ f ih =>
    cases g with
    | zero =>
      have : n = 0 := by omega
      subst this
      simp [showRadixAux]
      intro h; omega
    | succ g =>
      simp only [showRadixAux]
      split
      · rfl
      · next hge =>
        have : n / radix < n := Nat.div_lt_self (by omega) h2
        rw [ih (g := g) (by omega) (by omega)]

theorem showRadix_step {radix n : Nat} (h2 : 2 ≤ radix) (h : radix ≤ n) :
    showRadix radix n = showRadix radix (n / radix) ++ [radixChar (n % radix)] := by
  have hd : n / radix < n := Nat.div_lt_self (by omega) h2
  unfold showRadix
  cases n with
  | zero => omega
  | succ n =>
    rw [showRadixAux, if_neg (by omega), showRadixAux_fuel radix h2 (g := (n + 1) / radix)]
    · omega
    · exact Nat.le_refl _

/-- Two hexadecimal digits of a byte. -/
theorem hex_byte {n : Nat} (h : n < 256) :
    padZero 2 (showRadix 16 n) = [radixChar (n / 16), radixChar (n % 16)] := by
  by_cases hs : n < 16
  · rw [showRadix_small hs, Nat.div_eq_of_lt hs, Nat.mod_eq_of_lt hs]
    rfl
  · rw [showRadix_step (by omega) (by omega), showRadix_small (by omega)]
    rfl

example : padZero 4 (showRadix 8 0o12) = ['0', '0', '1', '2'] := by decide
example : parseUnsigned 8 65536 ['+', '1', '2'] = some 10 := by decide
example : parseUnsigned 8 65536 ['1', '8'] = none := by decide
example : parseUnsigned 8 65536 ['2', '0', '0', '0', '0', '0'] = none := by decide

end Verif
