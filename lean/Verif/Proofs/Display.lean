import Verif.Spec.Display
/-!
# Decimal numerals and recent files: lemmas
-/

namespace Verif.Proofs.Display
open Verif.Spec.Display Verif.Display Verif.PrfPaths

theorem toDigit10 {c : Char} {d : Nat} : toDigit 10 c = some d ↔ d < 10 ∧ c = Char.ofNat (48 + d) := by
  constructor
  · intro h
    unfold toDigit at h
    rw [Option.filter_eq_some_iff] at h
    obtain ⟨h, hd⟩ := h
    simp only [decide_eq_true_eq] at hd
    have e : c = Char.ofNat c.toNat := (Char.ofNat_toNat c).symm
    split at h
    · next hdig =>
      cases h
      simp only [isAsciiDigit, Bool.and_eq_true, decide_eq_true_eq] at hdig
      have h0 : '0'.toNat = 48 := rfl
      refine ⟨hd, ?_⟩
      have : 48 + (c.toNat - 48) = c.toNat := by omega
      rw [this]; exact e
    · split at h
      · next hl =>
        cases h
        simp only [isAsciiLower, Bool.and_eq_true, decide_eq_true_eq] at hl
        have h0 : 'a'.toNat = 97 := rfl
        omega
      · split at h
        · next hu =>
          cases h
          simp only [isAsciiUpper, Bool.and_eq_true, decide_eq_true_eq] at hu
          have h0 : 'A'.toNat = 65 := rfl
          omega
        · cases h
  · rintro ⟨hd, rfl⟩
    have : d = 0 ∨ d = 1 ∨ d = 2 ∨ d = 3 ∨ d = 4 ∨ d = 5 ∨ d = 6 ∨ d = 7 ∨ d = 8 ∨ d = 9 := by omega
    rcases this with h | h | h | h | h | h | h | h | h | h <;> subst h <;> decide

theorem foldl_digits_none (s : Str) :
    s.foldl (fun acc c => acc.bind fun n => (toDigit 10 c).map (10 * n + ·)) none = none := by
  induction s with
  | nil => rfl
  | cons c s ih => simpa using ih

theorem digits_iff (s : Str) (m n : Nat) :
    s.foldl (fun acc c => acc.bind fun n => (toDigit 10 c).map (10 * n + ·)) (some m) = some n ↔
      ∃ ds : List (Fin 10), s = digitsText ds ∧ ds.foldl (fun n d => 10 * n + d.val) m = n := by
  induction s generalizing m with
  | nil =>
    simp only [List.foldl_nil, Option.some.injEq]
    constructor
    · intro h; exact ⟨[], rfl, h⟩
    · rintro ⟨ds, h1, h2⟩
      cases ds with
      | nil => exact h2
      | cons d ds => simp [digitsText] at h1
  | cons c s ih =>
    simp only [List.foldl_cons, Option.bind_some]
    cases hd : toDigit 10 c with
    | none =>
      simp only [Option.map_none, foldl_digits_none]
      constructor
      · intro h; cases h
      · rintro ⟨ds, h1, h2⟩
        cases ds with
        | nil => simp [digitsText] at h1
        | cons d ds =>
          simp only [digitsText, List.map_cons, List.cons.injEq] at h1
          have : toDigit 10 c = some d.val := toDigit10.2 ⟨d.isLt, h1.1⟩
          rw [hd] at this; cases this
    | some d =>
      simp only [Option.map_some]
      rw [ih]
      obtain ⟨hlt, hc⟩ := toDigit10.1 hd
      constructor
      · rintro ⟨ds, h1, h2⟩
        exact ⟨⟨d, hlt⟩ :: ds, by simp only [digitsText, List.map_cons]; rw [hc, h1]; rfl, h2⟩
      · rintro ⟨ds, h1, h2⟩
        cases ds with
        | nil => simp [digitsText] at h1
        | cons d' ds =>
          simp only [digitsText, List.map_cons, List.cons.injEq] at h1
          have h3 : toDigit 10 c = some d'.val := toDigit10.2 ⟨d'.isLt, h1.1⟩
          rw [hd] at h3
          cases h3
          exact ⟨ds, h1.2, h2⟩

theorem digitChar_ne_plus (d : Fin 10) : Char.ofNat ('0'.toNat + d.val) ≠ '+' := by
  revert d; decide

theorem digitsIn_iff (s : Str) (n : Nat) :
    digitsIn 10 s = some n ↔ ∃ ds : List (Fin 10), s = digitsText ds ∧ digitsNumber ds = n :=
  digits_iff s 0 n

theorem u32_iff (s : Str) (n : Nat) : parseUnsigned 10 (2 ^ 32) s = some n ↔ IsU32 s n := by
  unfold parseUnsigned IsU32
  constructor
  · intro h
    split at h
    · cases h
    · next hne =>
      rw [Option.filter_eq_some_iff, digitsIn_iff] at h
      obtain ⟨⟨ds, h1, h2⟩, hlt⟩ := h
      simp only [decide_eq_true_eq] at hlt
      refine ⟨hlt, ds, ?_, h2, ?_⟩
      · rintro rfl
        rw [h1] at hne
        exact hne rfl
      · unfold stripPlus at h1
        split at h1
        · right; rw [h1]
        · left; exact h1
  · rintro ⟨hlt, ds, hne, h2, h3⟩
    have : stripPlus s = digitsText ds := by
      rcases h3 with h3 | h3
      · subst h3
        unfold stripPlus
        split
        · next t ht =>
          cases ds with
          | nil => exact absurd rfl hne
          | cons d ds =>
            simp only [digitsText, List.map_cons, List.cons.injEq] at ht
            exact absurd ht.1 (digitChar_ne_plus d)
        · rfl
      · subst h3; rfl
    rw [this]
    have hnil : (digitsText ds).isEmpty = false := by
      cases ds with
      | nil => exact absurd rfl hne
      | cons d ds => rfl
    rw [hnil]
    simp only [Bool.false_eq_true, if_false, Option.filter_eq_some_iff, decide_eq_true_eq]
    exact ⟨(digitsIn_iff _ _).2 ⟨ds, rfl, h2⟩, hlt⟩

theorem u32_none (s : Str) : parseUnsigned 10 (2 ^ 32) s = none ↔ ∀ n, ¬ IsU32 s n := by
  cases h : parseUnsigned 10 (2 ^ 32) s with
  | none => simpa using fun n => by rw [← u32_iff, h]; simp
  | some n => simpa using ⟨n, (u32_iff s n).1 h⟩

theorem recentPaths_ok {prf : Prf} {l : List Nat} (h : ∀ i ∈ l, ∃ p, recentPath prf i = .ok p) :
    ∃ ps, recentPaths prf l = .ok ps ∧
      ps = l.filterMap fun i => match recentPath prf i with | .ok p => p | .error _ => none := by
  induction l with
  | nil => exact ⟨[], rfl, rfl⟩
  | cons i l ih =>
    obtain ⟨p, hp⟩ := h i List.mem_cons_self
    obtain ⟨ps, h1, h2⟩ := ih fun j hj => h j (List.mem_cons_of_mem _ hj)
    refine ⟨_, by unfold recentPaths; rw [hp, h1]; rfl, ?_⟩
    rw [List.filterMap_cons, hp, ← h2]
    cases p <;> rfl

end Verif.Proofs.Display
