import Verif.Base.Core
/-!
# Joining with a separator
-/

namespace Verif

/-- If the part before the first separator contains none, the split is unique. -/
theorem sep_inj {sep : Char} {a a' b b' : Str} (ha : sep ∉ a) (ha' : sep ∉ a')
    (h : a ++ sep :: b = a' ++ sep :: b') : a = a' ∧ b = b' := by
  induction a generalizing a' with
  | nil =>
    cases a' with
    | nil => simp at h; exact ⟨rfl, h⟩
    | cons c a' =>
      simp only [List.nil_append, List.cons_append, List.cons.injEq] at h
      exact absurd (by simp [h.1]) ha'
  | cons c a ih =>
    cases a' with
    | nil =>
      simp only [List.nil_append, List.cons_append, List.cons.injEq] at h
      exact absurd (by simp [h.1]) ha
    | cons c' a' =>
      simp only [List.cons_append, List.cons.injEq] at h
      have := ih (fun hm => ha (List.mem_cons_of_mem _ hm)) (fun hm => ha' (List.mem_cons_of_mem _ hm)) h.2
      exact ⟨by rw [h.1, this.1], this.2⟩

/-- `[a, b, c].join(sep)` -/
def joinSep (sep : Char) : List Str → Str
  | [] => []
  | [a] => a
  | a :: b :: l => a ++ sep :: joinSep sep (b :: l)

theorem joinSep_inj {sep : Char} {l l' : List Str} (hlen : l.length = l'.length)
    (hl : ∀ s ∈ l, sep ∉ s) (hl' : ∀ s ∈ l', sep ∉ s) (h : joinSep sep l = joinSep sep l') : l = l' := by
  induction l generalizing l' with
  | nil => cases l' with
    | nil => rfl
    | cons _ _ => simp at hlen
  | cons a l ih =>
    cases l' with
    | nil => simp at hlen
    | cons a' l' =>
      cases l with
      | nil =>
        cases l' with
        | nil => simpa [joinSep] using h
        | cons _ _ => simp at hlen
      | cons b l =>
        cases l' with
        | nil => simp at hlen
        | cons b' l' =>
          simp only [joinSep] at h
          obtain ⟨h1, h2⟩ := sep_inj (hl a List.mem_cons_self) (hl' a' List.mem_cons_self) h
          rw [h1, ih (by simpa using hlen) (fun s hs => hl s (List.mem_cons_of_mem _ hs))
            (fun s hs => hl' s (List.mem_cons_of_mem _ hs)) h2]

end Verif
