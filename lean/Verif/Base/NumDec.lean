import Verif.Base.Num
/-!
# Deciding whether a text is a number

Used to show that the hypotheses of theorems can be met.
-/

namespace Verif

theorem isInteger_iff {s : Str} :
    IsInteger s ↔ IsDigits s ∨ ((s.head? = some '-' ∨ s.head? = some '+') ∧ IsDigits s.tail) := by
  constructor
  · rintro ⟨sg, ds, rfl, rfl | rfl | rfl, h⟩
    · exact Or.inl h
    · exact Or.inr ⟨Or.inl rfl, h⟩
    · exact Or.inr ⟨Or.inr rfl, h⟩
  · rintro (h | ⟨h, hd⟩)
    · exact ⟨[], s, rfl, Or.inl rfl, h⟩
    · cases s with
      | nil => simp at h
      | cons c t =>
        refine ⟨[c], t, rfl, ?_, hd⟩
        rcases h with h | h <;> cases h
        · exact Or.inr (Or.inl rfl)
        · exact Or.inr (Or.inr rfl)

instance (s : Str) : Decidable (IsInteger s) := decidable_of_iff _ isInteger_iff.symm

/-- A number without a sign. -/
def IsUnsigned (s : Str) : Prop := IsDigits s ∨
  ((s.dropWhile isAsciiDigit).head? = some '.' ∧ IsDigits (s.dropWhile isAsciiDigit).tail)

instance (s : Str) : Decidable (IsUnsigned s) := inferInstanceAs (Decidable (_ ∨ _))

theorem isUnsigned_decimal {sg s : Str} (hs : IsSign sg) (h : IsUnsigned s) : IsDecimal (sg ++ s) := by
  rcases h with h | ⟨h, hd⟩
  · exact ⟨sg, s, [], by simp, hs, h.2, Or.inl ⟨rfl, h.1⟩⟩
  · refine ⟨sg, s.takeWhile isAsciiDigit, s.dropWhile isAsciiDigit, by simp, hs, ?_, Or.inr ?_⟩
    · intro c hc
      have : ∀ (l : Str), c ∈ l.takeWhile isAsciiDigit → isAsciiDigit c = true := by
        intro l
        induction l with
        | nil => simp
        | cons d l ih =>
          rw [List.takeWhile_cons]
          split
          · next hd =>
            intro hm
            rcases List.mem_cons.1 hm with rfl | hm
            · exact hd
            · exact ih hm
          · simp
      exact this s hc
    · generalize s.dropWhile isAsciiDigit = u at h hd
      cases u with
      | nil => simp at h
      | cons c t => cases h; exact ⟨t, rfl, hd⟩

/-- Enough for a decimal. -/
def checkDecimal (s : Str) : Bool :=
  decide (IsUnsigned s ∨ ((s.head? = some '-' ∨ s.head? = some '+') ∧ IsUnsigned s.tail))

theorem isDecimal_of_check {s : Str} (h : checkDecimal s = true) : IsDecimal s := by
  rcases of_decide_eq_true h with h | ⟨h, hd⟩
  · exact isUnsigned_decimal (sg := []) (Or.inl rfl) h
  · cases s with
    | nil => simp at h
    | cons c t =>
      refine isUnsigned_decimal (sg := [c]) ?_ hd
      rcases h with h | h <;> cases h
      · exact Or.inr (Or.inl rfl)
      · exact Or.inr (Or.inr rfl)

end Verif
