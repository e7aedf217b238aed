import Verif.Spec.Settings
/-!
# Octal numerals: lemmas
-/

namespace Verif.Settings

theorem toDigit8 {c : Char} {d : Nat} : toDigit 8 c = some d ↔ d < 8 ∧ c = Char.ofNat (48 + d) := by
  constructor
  · intro h
    unfold toDigit at h
    rw [Option.filter_eq_some_iff] at h
    obtain ⟨h, hd⟩ := h
    simp only [decide_eq_true_eq] at hd
    have e : c = Char.ofNat c.toNat := (Char.ofNat_toNat c).symm
    split at h
    · next hdig =>
      cases h
      simp only [isAsciiDigit, Bool.and_eq_true, decide_eq_true_eq] at hdig
      have h0 : '0'.toNat = 48 := rfl
      refine ⟨hd, ?_⟩
      have : 48 + (c.toNat - 48) = c.toNat := by omega
      rw [this]; exact e
    · split at h
      · next hl =>
        cases h
        simp only [isAsciiLower, Bool.and_eq_true, decide_eq_true_eq] at hl
        have h0 : 'a'.toNat = 97 := rfl
        omega
      · split at h
        · next hu =>
          cases h
          simp only [isAsciiUpper, Bool.and_eq_true, decide_eq_true_eq] at hu
          have h0 : 'A'.toNat = 65 := rfl
          omega
        · cases h
  · rintro ⟨hd, rfl⟩
    have : d = 0 ∨ d = 1 ∨ d = 2 ∨ d = 3 ∨ d = 4 ∨ d = 5 ∨ d = 6 ∨ d = 7 := by omega
    rcases this with h | h | h | h | h | h | h | h <;> subst h <;> decide

theorem foldl_digits_none (s : Str) :
    s.foldl (fun acc c => acc.bind fun n => (toDigit 8 c).map (8 * n + ·)) none = none := by
  induction s with
  | nil => rfl
  | cons c s ih => simpa using ih

theorem digits_iff (s : Str) (m n : Nat) :
    s.foldl (fun acc c => acc.bind fun n => (toDigit 8 c).map (8 * n + ·)) (some m) = some n ↔
      ∃ ds : List (Fin 8), s = digitsText ds ∧ ds.foldl (fun n d => 8 * n + d.val) m = n := by
  induction s generalizing m with
  | nil =>
    simp only [List.foldl_nil, Option.some.injEq]
    constructor
    · intro h; exact ⟨[], rfl, h⟩
    · rintro ⟨ds, h1, h2⟩
      cases ds with
      | nil => exact h2
      | cons d ds => simp [digitsText] at h1
  | cons c s ih =>
    simp only [List.foldl_cons, Option.bind_some]
    cases hd : toDigit 8 c with
    | none =>
      simp only [Option.map_none, foldl_digits_none]
      constructor
      · intro h; cases h
      · rintro ⟨ds, h1, h2⟩
        cases ds with
        | nil => simp [digitsText] at h1
        | cons d ds =>
          simp only [digitsText, List.map_cons, List.cons.injEq] at h1
          have : toDigit 8 c = some d.val := toDigit8.2 ⟨d.isLt, h1.1⟩
          rw [hd] at this; cases this
    | some d =>
      simp only [Option.map_some]
      rw [ih]
      obtain ⟨hlt, hc⟩ := toDigit8.1 hd
      constructor
      · rintro ⟨ds, h1, h2⟩
        exact ⟨⟨d, hlt⟩ :: ds, by simp only [digitsText, List.map_cons]; rw [hc, h1]; rfl, h2⟩
      · rintro ⟨ds, h1, h2⟩
        cases ds with
        | nil => simp [digitsText] at h1
        | cons d' ds =>
          simp only [digitsText, List.map_cons, List.cons.injEq] at h1
          have h3 : toDigit 8 c = some d'.val := toDigit8.2 ⟨d'.isLt, h1.1⟩
          rw [hd] at h3
          cases h3
          exact ⟨ds, h1.2, h2⟩

theorem digitChar_ne_plus (d : Fin 8) : Char.ofNat ('0'.toNat + d.val) ≠ '+' := by
  revert d; decide

theorem digitsIn_iff (s : Str) (n : Nat) :
    digitsIn 8 s = some n ↔ ∃ ds : List (Fin 8), s = digitsText ds ∧ digitsNumber ds = n :=
  digits_iff s 0 n

theorem octalU16_iff (s : Str) (n : Nat) : octalU16 s = some n ↔ Octal s n := by
  unfold octalU16 parseUnsigned Octal
  constructor
  · intro h
    split at h
    · cases h
    · next hne =>
      rw [Option.filter_eq_some_iff, digitsIn_iff] at h
      obtain ⟨⟨ds, h1, h2⟩, hlt⟩ := h
      simp only [decide_eq_true_eq] at hlt
      refine ⟨hlt, ds, ?_, h2, ?_⟩
      · rintro rfl
        rw [h1] at hne
        exact hne rfl
      · unfold stripPlus at h1
        split at h1
        · right; rw [h1]
        · left; exact h1
  · rintro ⟨hlt, ds, hne, h2, h3⟩
    have : stripPlus s = digitsText ds := by
      rcases h3 with h3 | h3
      · subst h3
        unfold stripPlus
        split
        · next t ht =>
          cases ds with
          | nil => exact absurd rfl hne
          | cons d ds =>
            simp only [digitsText, List.map_cons, List.cons.injEq] at ht
            exact absurd ht.1 (digitChar_ne_plus d)
        · rfl
      · subst h3; rfl
    rw [this]
    have hnil : (digitsText ds).isEmpty = false := by
      cases ds with
      | nil => exact absurd rfl hne
      | cons d ds => rfl
    rw [hnil]
    simp only [Bool.false_eq_true, if_false, Option.filter_eq_some_iff, decide_eq_true_eq]
    exact ⟨(digitsIn_iff _ _).2 ⟨ds, rfl, h2⟩, hlt⟩

/-! ## The canonical form -/

theorem digitsNumber_concat (ds : List (Fin 8)) (d : Fin 8) :
    digitsNumber (ds ++ [d]) = 8 * digitsNumber ds + d.val := by
  simp [digitsNumber, List.foldl_append]

theorem digitsText_inj {ds es : List (Fin 8)} (h : digitsText ds = digitsText es) : ds = es := by
  unfold digitsText at h
  refine List.map_inj_right (fun a b hab => ?_) |>.1 h
  revert a b; decide

theorem exists_digits {ds : List (Fin 8)} (h : ds ≠ []) : ∃ es d, ds = es ++ [d] :=
  ⟨ds.dropLast, ds.getLast h, (List.dropLast_concat_getLast h).symm⟩

theorem digitsNumber_inj {ds es : List (Fin 8)} (hl : ds.length = es.length)
    (h : digitsNumber ds = digitsNumber es) : ds = es := by
  generalize hk : ds.length = k
  induction k generalizing ds es with
  | zero =>
    have he : es.length = 0 := by omega
    rw [List.length_eq_zero_iff.1 hk, List.length_eq_zero_iff.1 he]
  | succ k ih =>
    obtain ⟨ds', d, rfl⟩ := exists_digits (ds := ds) (by rintro rfl; simp at hk)
    obtain ⟨es', e, rfl⟩ := exists_digits (ds := es) (by rintro rfl; simp at hl)
    rw [digitsNumber_concat, digitsNumber_concat] at h
    have hd := d.isLt
    have he := e.isLt
    have h1 : digitsNumber ds' = digitsNumber es' := by omega
    have h2 : d.val = e.val := by omega
    rw [ih (by simpa using hl) h1 (by simpa using hk), Fin.ext h2]

theorem digitsNumber_lt (ds : List (Fin 8)) : digitsNumber ds < 8 ^ ds.length := by
  generalize hk : ds.length = k
  induction k generalizing ds with
  | zero => rw [List.length_eq_zero_iff.1 hk]; decide
  | succ k ih =>
    obtain ⟨ds', d, rfl⟩ := exists_digits (ds := ds) (by rintro rfl; simp at hk)
    have := ih ds' (by simpa using hk)
    have hd := d.isLt
    rw [digitsNumber_concat, Nat.pow_succ]
    omega

theorem le_digitsNumber (ds : List (Fin 8)) (hne : ds ≠ []) (h : ds.head? ≠ some 0) :
    8 ^ (ds.length - 1) ≤ digitsNumber ds := by
  generalize hk : ds.length = k
  induction k generalizing ds with
  | zero => exact absurd (List.length_eq_zero_iff.1 hk) hne
  | succ k ih =>
    obtain ⟨ds', d, rfl⟩ := exists_digits hne
    rw [digitsNumber_concat]
    cases k with
    | zero =>
      have : ds' = [] := List.length_eq_zero_iff.1 (by simpa using hk)
      subst this
      simp only [List.nil_append, List.head?_cons, ne_eq, Option.some.injEq] at h
      have : d.val ≠ 0 := fun h0 => h (Fin.ext h0)
      simp; omega
    | succ k =>
      have hne' : ds' ≠ [] := by rintro rfl; simp at hk
      have hh : ds'.head? ≠ some 0 := by
        cases ds' with
        | nil => exact absurd rfl hne'
        | cons a l => simpa using h
      have := ih ds' hne' hh (by simpa using hk)
      have e : k + 1 + 1 - 1 = (k + 1 - 1) + 1 := by omega
      rw [e, Nat.pow_succ]
      omega

theorem isCode_unique {k k' : Str} {n : Nat} (h : IsCode k n) (h' : IsCode k' n) : k = k' := by
  obtain ⟨ds, rfl, h1, h2, h3⟩ := h
  obtain ⟨es, rfl, h4, h5, h6⟩ := h'
  have key : ∀ ds es : List (Fin 8), digitsNumber ds = digitsNumber es → 4 ≤ es.length →
      (4 < ds.length → ds.head? ≠ some 0) → ds.length ≤ es.length := by
    intro ds es he hl hh
    by_cases h : 4 < ds.length
    · have hne : ds ≠ [] := by rintro rfl; simp at h
      have a := le_digitsNumber ds hne (hh h)
      have b := digitsNumber_lt es
      rw [← he] at b
      have : ds.length - 1 < es.length := (Nat.pow_lt_pow_iff_right (by omega)).1 (Nat.lt_of_le_of_lt a b)
      omega
    · omega
  have hlen : ds.length = es.length :=
    Nat.le_antisymm (key ds es (by omega) h5 h3) (key es ds (by omega) h2 h6)
  rw [digitsNumber_inj hlen (by omega)]

theorem showRadix_digits (n : Nat) : ∃ ds : List (Fin 8), showRadix 8 n = digitsText ds ∧
    digitsNumber ds = n ∧ ds ≠ [] ∧ (1 < ds.length → ds.head? ≠ some 0) := by
  induction n using Nat.strongRecOn with
  | ind n ih =>
    by_cases h : n < 8
    · refine ⟨[⟨n, h⟩], ?_, by simp [digitsNumber], by simp, by simp⟩
      rw [showRadix_small h]
      have : n < 10 := by omega
      simp [digitsText, radixChar, this]
    · obtain ⟨ds, h1, h2, h3, h4⟩ := ih (n / 8) (by omega)
      refine ⟨ds ++ [⟨n % 8, by omega⟩], ?_, ?_, by simp, ?_⟩
      · rw [showRadix_step (by omega) (by omega), h1]
        have : n % 8 < 10 := by omega
        simp [digitsText, radixChar, this]
      · rw [digitsNumber_concat, h2]; simp only; omega
      · intro _
        have hh : (ds ++ [(⟨n % 8, by omega⟩ : Fin 8)]).head? = ds.head? := by
          cases ds with
          | nil => exact absurd rfl h3
          | cons a l => rfl
        rw [hh]
        by_cases hl : 1 < ds.length
        · exact h4 hl
        · cases ds with
          | nil => exact absurd rfl h3
          | cons a l =>
            have : l = [] := by
              cases l with
              | nil => rfl
              | cons b l => simp at hl
            subst this
            simp only [digitsNumber, List.foldl_cons, List.foldl_nil] at h2
            simp only [List.head?_cons, ne_eq, Option.some.injEq]
            intro h0
            have : a.val = 0 := by rw [h0]; rfl
            omega

theorem digitsNumber_zeros (k : Nat) (ds : List (Fin 8)) :
    digitsNumber (List.replicate k 0 ++ ds) = digitsNumber ds := by
  induction k with
  | zero => simp
  | succ k ih => simpa [digitsNumber, List.replicate_succ] using ih

theorem octal4_isCode (n : Nat) : IsCode (octal4 n) n := by
  obtain ⟨ds, h1, h2, h3, h4⟩ := showRadix_digits n
  refine ⟨List.replicate (4 - ds.length) 0 ++ ds, ?_, ?_, ?_, ?_⟩
  · unfold octal4 padZero
    rw [h1]
    have : (digitsText ds).length = ds.length := by simp [digitsText]
    rw [this]
    simp [digitsText]
  · rw [digitsNumber_zeros, h2]
  · simp; omega
  · intro hl
    have : 4 - ds.length = 0 := by simp at hl; omega
    rw [this] at hl ⊢
    simp only [List.replicate_zero, List.nil_append] at hl ⊢
    exact h4 (by omega)

theorem octal4_iff (k : Str) (n : Nat) : k = octal4 n ↔ IsCode k n :=
  ⟨fun h => h ▸ octal4_isCode n, fun h => isCode_unique h (octal4_isCode n)⟩

theorem isCode_number {k : Str} {m n : Nat} (h : IsCode k m) (h' : IsCode k n) : m = n := by
  obtain ⟨ds, h1, h2, _⟩ := h
  obtain ⟨es, h3, h4, _⟩ := h'
  rw [h1] at h3
  rw [← h2, ← h4, digitsText_inj h3]

/-! ## Entries -/

theorem mem_inclusive {a b n : Nat} : n ∈ inclusive a b ↔ a ≤ n ∧ n ≤ b := by
  simp only [inclusive, List.mem_map, List.mem_range]
  constructor
  · rintro ⟨i, hi, rfl⟩; omega
  · intro h; exact ⟨n - a, by omega, by omega⟩

theorem covers_of {sq : SquawkDef} {e : Str × Str} :
    e ∈ squawkEntries sq ↔ e.2 = sq.message ∧ ∃ n, e.1 = octal4 n ∧ Covers sq n := by
  obtain ⟨code, range, message⟩ := sq
  obtain ⟨k, m⟩ := e
  unfold squawkEntries Covers
  cases code with
  | none =>
    cases range with
    | none => simp
    | some r =>
      obtain ⟨a, b⟩ := r
      simp only
      constructor
      · intro h
        cases ha : octalU16 a with
        | none => simp [ha] at h
        | some lo =>
          cases hb : octalU16 b with
          | none => simp [ha, hb] at h
          | some hi =>
            simp only [ha, hb, List.mem_map] at h
            obtain ⟨n, hn, he⟩ := h
            cases he
            have := mem_inclusive.1 hn
            exact ⟨rfl, n, rfl, Or.inr ⟨a, b, lo, hi, by trivial, by trivial, (octalU16_iff _ _).1 ha,
              (octalU16_iff _ _).1 hb, this.1, this.2⟩⟩
      · rintro ⟨rfl, n, rfl, h⟩
        rcases h with ⟨s, h, _⟩ | ⟨a', b', lo, hi, _, hr, ha, hb, h1, h2⟩
        · cases h
        · cases hr
          rw [(octalU16_iff _ _).2 ha, (octalU16_iff _ _).2 hb]
          exact List.mem_map.2 ⟨n, mem_inclusive.2 ⟨h1, h2⟩, rfl⟩
  | some code =>
    cases range with
    | some r => simp
    | none =>
      simp only
      constructor
      · intro h
        cases hc : octalU16 code with
        | none => simp [hc] at h
        | some n =>
          simp only [hc, List.mem_singleton, Prod.mk.injEq] at h
          exact ⟨h.2, n, h.1, Or.inl ⟨code, by trivial, by trivial, (octalU16_iff _ _).1 hc⟩⟩
      · rintro ⟨rfl, n, rfl, h⟩
        rcases h with ⟨s, hs, _, ho⟩ | ⟨a', b', lo, hi, h, _⟩
        · cases hs
          rw [(octalU16_iff _ _).2 ho]
          simp
        · cases h

theorem covers_lt {sq : SquawkDef} {n : Nat} (h : Covers sq n) : n < 65536 := by
  rcases h with ⟨_, _, _, h⟩ | ⟨_, _, lo, hi, _, _, _, hb, _, h2⟩
  · exact h.1
  · exact Nat.lt_of_le_of_lt h2 hb.1

open Classical in
theorem get?_entries (sq : SquawkDef) (l : List (Str × Str)) (hl : ∀ e ∈ l, e.2 = sq.message)
    (m : Map Str Str) (k : Str) :
    (l.foldl (fun (m : Map Str Str) e => m.insert e.1 e.2) m).get? k =
      if ∃ e ∈ l, e.1 = k then some sq.message else m.get? k := by
  induction l generalizing m with
  | nil => simp
  | cons e l ih =>
    rw [List.foldl_cons, ih (fun e he => hl e (List.mem_cons_of_mem _ he)), Map.get?_insert]
    by_cases h : ∃ e ∈ l, e.1 = k
    · have : ∃ e' ∈ e :: l, e'.1 = k := by
        obtain ⟨e', h1, h2⟩ := h; exact ⟨e', List.mem_cons_of_mem _ h1, h2⟩
      rw [if_pos h, if_pos this]
    · rw [if_neg h]
      by_cases h2 : e.1 = k
      · have : ∃ e' ∈ e :: l, e'.1 = k := ⟨e, List.mem_cons_self, h2⟩
        rw [if_pos h2, if_pos this, hl e List.mem_cons_self]
      · have : ¬ ∃ e' ∈ e :: l, e'.1 = k := by
          rintro ⟨e', h3, h4⟩
          rcases List.mem_cons.1 h3 with h5 | h5
          · exact h2 (h5 ▸ h4)
          · exact h ⟨e', h5, h4⟩
        rw [if_neg h2, if_neg this]

/-! ## Dashes -/

theorem dashes_spec {F : Type} (l : List F) :
    (dashes l).length = l.length / 2 ∧
    ∀ i (p : F × F), (dashes l)[i]? = some p ↔ l[2 * i]? = some p.1 ∧ l[2 * i + 1]? = some p.2 := by
  induction l using dashes.induct with
  | case1 a b l ih =>
    constructor
    · simp only [dashes, List.length_cons, ih.1]; omega
    · intro i p
      cases i with
      | zero =>
        simp only [dashes, List.getElem?_cons_zero, Option.some.injEq, Nat.mul_zero, Nat.zero_add,
          List.getElem?_cons_succ]
        constructor
        · rintro rfl; exact ⟨rfl, rfl⟩
        · rintro ⟨rfl, rfl⟩; rfl
      | succ i =>
        have e : 2 * (i + 1) = 2 * i + 1 + 1 := by omega
        have e2 : 2 * (i + 1) + 1 = (2 * i + 1) + 1 + 1 := by omega
        rw [e]
        simp only [dashes, List.getElem?_cons_succ]
        exact ih.2 i p
  | case2 l h =>
    have hl : l.length < 2 := by
      match l, h with
      | [], _ => simp
      | [a], _ => simp
      | a :: b :: l, h => exact absurd rfl (h a b l)
    have hd : dashes l = [] := by
      match l, h with
      | [], _ => rfl
      | [a], _ => rfl
      | a :: b :: l, h => exact absurd rfl (h a b l)
    rw [hd]
    constructor
    · simp; omega
    · intro i p
      constructor
      · intro h; simp at h
      · rintro ⟨_, h2⟩
        rw [List.getElem?_eq_none (by omega)] at h2
        cases h2

theorem pattern_spec {F : Type} (l : List F) : IsPattern l (pattern l) := by
  unfold pattern
  split
  · next h => exact ⟨h, dashes_spec l⟩
  · next h => show l.length < 2; omega

end Verif.Settings
