import Verif.Model.Lines
import Verif.Base.Lit
/-! # C32, C33: merging lines -/

set_option linter.unusedSectionVars false

namespace Verif.Lines
variable {L : Type} [DecidableEq L]

/-- The segments of a polyline. -/
def Spec.segments (points : List L) : List (L × L) := points.zip points.tail

/-- The coloured segments of a list of groups, in drawing order. -/
def Spec.colouredSegments (gs : List (Group L)) : List (L × L × Option Str) :=
  gs.flatMap fun g => g.lines.flatMap fun l => (segments l).map fun s => (s.1, s.2, g.colour)

/-- `b` directly follows `a` in the list. -/
def Spec.Follows {α : Type} (l : List α) (a b : α) : Prop := ∃ p q, l = p ++ a :: b :: q

open Spec

theorem snoc_induction {α : Type} {P : List α → Prop} (h0 : P [])
    (hs : ∀ l a, P l → P (l ++ [a])) (l : List α) : P l := by
  have : ∀ n (l : List α), l.length = n → P l := by
    intro n
    induction n with
    | zero => intro l hl; rw [List.length_eq_zero_iff.1 hl]; exact h0
    | succ n ih =>
      intro l hl
      have hne : l ≠ [] := by intro h; rw [h] at hl; simp at hl
      rw [← List.dropLast_concat_getLast hne]
      exact hs _ _ (ih _ (by rw [List.length_dropLast, hl]; rfl))
  exact this _ l rfl

theorem eq_snoc {α : Type} {l : List α} {a : α} (h : l.getLast? = some a) : ∃ l', l = l' ++ [a] := by
  have hne : l ≠ [] := by intro h2; rw [h2] at h; cases h
  rw [List.getLast?_eq_some_getLast hne] at h
  exact ⟨l.dropLast, by cases h; exact (List.dropLast_concat_getLast hne).symm⟩

theorem modifyLast_append {α : Type} (f : α → α) (l : List α) (a : α) :
    modifyLast f (l ++ [a]) = l ++ [f a] := by
  induction l with
  | nil => rfl
  | cons b l ih =>
    cases l with
    | nil => rfl
    | cons c l =>
      simp only [List.cons_append, modifyLast, List.cons.injEq, true_and]
      exact ih

theorem segments_snoc (p : List L) (a b : L) : segments (p ++ [a] ++ [b]) = segments (p ++ [a]) ++ [(a, b)] := by
  unfold segments
  induction p with
  | nil => rfl
  | cons x p ih =>
    cases p with
    | nil => rfl
    | cons y p => simpa using ih

theorem segments_newLine (a b : L) : segments (newLine a b) = if a ≠ b then [(a, b)] else [] := by
  unfold newLine segments
  by_cases h : a = b <;> simp [h]

/-- What one line does, in cases. -/
theorem addLine_cases (acc : List (List L)) (l : L × L) :
    (∃ p ps, acc = p ++ [ps ++ [l.1]] ∧
      addLine acc l = p ++ [if l.1 ≠ l.2 then ps ++ [l.1] ++ [l.2] else ps ++ [l.1]]) ∨
    ((∀ p ps, acc ≠ p ++ [ps ++ [l.1]]) ∧ addLine acc l = acc ++ [newLine l.1 l.2]) := by
  unfold addLine
  split
  · next h =>
    rw [Option.bind_eq_some_iff] at h
    obtain ⟨x, h1, h2⟩ := h
    obtain ⟨p, rfl⟩ := eq_snoc h1
    obtain ⟨ps, rfl⟩ := eq_snoc h2
    refine .inl ⟨p, ps, rfl, ?_⟩
    split
    · rw [modifyLast_append]
    · rfl
  · next h =>
    refine .inr ⟨?_, rfl⟩
    rintro p ps rfl
    apply h
    simp

/-- The facts about merged lines that are kept by adding a line. -/
structure Merged (acc : List (List L)) : Prop where
  nonempty : ∀ p ∈ acc, p ≠ []
  noRepeat : ∀ p ∈ acc, ∀ a b, Follows p a b → a ≠ b
  maximal : ∀ p q a, Follows acc p q → p.getLast? = some a → q.head? ≠ some a

theorem follows_snoc {α : Type} {l : List α} {x a b : α} (h : Follows (l ++ [x]) a b) :
    Follows l a b ∨ (∃ p, l = p ++ [a]) ∧ b = x := by
  obtain ⟨p, q, h⟩ := h
  cases q using snoc_induction with
  | h0 =>
    right
    have : l ++ [x] = (p ++ [a]) ++ [b] := by rw [h]; simp
    have := List.append_inj' this rfl
    simp at this
    exact ⟨⟨p, this.1⟩, this.2.symm⟩
  | hs q y _ =>
    left
    have : l ++ [x] = (p ++ a :: b :: q) ++ [y] := by rw [h]; simp
    have := List.append_inj' this rfl
    exact ⟨p, q, this.1⟩

theorem newLine_ne (a b : L) : newLine a b ≠ [] := by unfold newLine; split <;> simp

theorem newLine_noRepeat (a b x y : L) (h : Follows (newLine a b) x y) : x ≠ y := by
  obtain ⟨p, q, h⟩ := h
  unfold newLine at h
  split at h
  · have := congrArg List.length h; simp at this; omega
  · next hne =>
    match p, h with
    | [], h => simp at h; rw [← h.1, ← h.2.1]; exact hne
    | _ :: p, h =>
      have := congrArg List.length h
      simp at this
      omega

theorem merged_addLine {acc : List (List L)} (h : Merged acc) (l : L × L) : Merged (addLine acc l) := by
  rcases addLine_cases acc l with ⟨p, ps, rfl, h2⟩ | ⟨hn, h2⟩
  · rw [h2]
    by_cases hl : l.1 = l.2
    · simp only [hl, ne_eq, not_true, if_false]; rw [← hl]; exact h
    · simp only [ne_eq, hl, not_false_eq_true, if_true]
      refine ⟨?_, ?_, ?_⟩
      · intro x hx
        rcases List.mem_append.1 hx with hx | hx
        · exact h.nonempty x (List.mem_append_left _ hx)
        · simp at hx; rw [hx]; simp
      · intro x hx a b hab
        rcases List.mem_append.1 hx with hx | hx
        · exact h.noRepeat x (List.mem_append_left _ hx) a b hab
        · simp only [List.mem_cons, List.not_mem_nil, or_false] at hx
          rw [hx] at hab
          rcases follows_snoc hab with hab | ⟨⟨w, hab⟩, hb⟩
          · exact h.noRepeat (ps ++ [l.1]) (by simp) a b hab
          · have := List.append_inj' hab rfl
            simp at this
            rw [← this.2, hb]; exact hl
      · intro x y a hxy hx hy
        rcases follows_snoc hxy with hxy | ⟨⟨w, hw⟩, hyx⟩
        · have : Follows (p ++ [ps ++ [l.1]]) x y := by
            obtain ⟨u, v, e⟩ := hxy
            exact ⟨u, v ++ [ps ++ [l.1]], by rw [e]; simp⟩
          exact h.maximal x y a this hx hy
        · have : Follows (p ++ [ps ++ [l.1]]) x (ps ++ [l.1]) := ⟨w, [], by rw [hw]; simp⟩
          apply h.maximal x _ a this hx
          rw [hyx] at hy
          cases ps <;> simpa using hy
  · rw [h2]
    refine ⟨?_, ?_, ?_⟩
    · intro x hx
      rcases List.mem_append.1 hx with hx | hx
      · exact h.nonempty x hx
      · simp at hx; rw [hx]; exact newLine_ne _ _
    · intro x hx a b hab
      rcases List.mem_append.1 hx with hx | hx
      · exact h.noRepeat x hx a b hab
      · simp only [List.mem_cons, List.not_mem_nil, or_false] at hx
        rw [hx] at hab
        exact newLine_noRepeat _ _ _ _ hab
    · intro x y a hxy hx hy
      rcases follows_snoc hxy with hxy | ⟨⟨w, hw⟩, hyx⟩
      · exact h.maximal x y a hxy hx hy
      · rw [hyx] at hy
        have ha : a = l.1 := by
          unfold newLine at hy; split at hy <;> simp at hy <;> exact hy.symm
        obtain ⟨x', hx'⟩ := eq_snoc hx
        exact hn w x' (by rw [hw, hx', ha])

theorem merged_foldl (lines : List (L × L)) (acc : List (List L)) (h : Merged acc) :
    Merged (lines.foldl addLine acc) := by
  induction lines generalizing acc with
  | nil => exact h
  | cons l lines ih => exact ih _ (merged_addLine h l)

theorem merged_nil : Merged ([] : List (List L)) where
  nonempty := by simp
  noRepeat := by simp
  maximal := by rintro p q a ⟨x, y, h⟩; simp at h

theorem segments_addLine (acc : List (List L)) (l : L × L) :
    (addLine acc l).flatMap segments = acc.flatMap segments ++ if l.1 ≠ l.2 then [l] else [] := by
  rcases addLine_cases acc l with ⟨p, ps, rfl, h2⟩ | ⟨_, h2⟩
  · rw [h2]
    by_cases hl : l.1 = l.2
    · simp [hl]
    · simp only [ne_eq, hl, not_false_eq_true, if_true, List.flatMap_append, List.flatMap_cons,
        List.flatMap_nil, List.append_nil]
      rw [segments_snoc, List.append_assoc]
  · rw [h2, List.flatMap_append]
    simp only [List.flatMap_cons, List.flatMap_nil, List.append_nil, segments_newLine]

theorem points_addLine (acc : List (List L)) (l : L × L) (x : L) :
    (∃ p ∈ addLine acc l, x ∈ p) ↔ (∃ p ∈ acc, x ∈ p) ∨ x = l.1 ∨ x = l.2 := by
  rcases addLine_cases acc l with ⟨p, ps, rfl, h2⟩ | ⟨_, h2⟩
  · rw [h2]
    by_cases hl : l.1 = l.2
    · simp only [hl, ne_eq, not_true, if_false, or_self]
      constructor
      · exact .inl
      · rintro (h | h)
        · exact h
        · exact ⟨ps ++ [l.2], by simp, by simp [h]⟩
    · simp only [ne_eq, hl, not_false_eq_true, if_true, List.mem_append, List.mem_cons,
        List.not_mem_nil, or_false]
      constructor
      · rintro ⟨q, hq | hq, hx⟩
        · exact .inl ⟨q, .inl hq, hx⟩
        · subst hq
          simp only [List.mem_append, List.mem_cons, List.not_mem_nil, or_false] at hx
          rcases hx with (hx | hx) | hx
          · exact .inl ⟨_, .inr rfl, by simp [hx]⟩
          · exact .inr (.inl hx)
          · exact .inr (.inr hx)
      · rintro (⟨q, hq | hq, hx⟩ | hx | hx)
        · exact ⟨q, .inl hq, hx⟩
        · subst hq; exact ⟨_, .inr rfl, by simp at hx ⊢; rcases hx with h | h <;> simp [h]⟩
        · exact ⟨_, .inr rfl, by simp [hx]⟩
        · exact ⟨_, .inr rfl, by simp [hx]⟩
  · rw [h2]
    simp only [List.mem_append, List.mem_cons, List.not_mem_nil, or_false]
    have hnl : x ∈ newLine l.1 l.2 ↔ x = l.1 ∨ x = l.2 := by
      unfold newLine; split
      · next h => simp [h]
      · simp
    constructor
    · rintro ⟨q, hq | hq, hx⟩
      · exact .inl ⟨q, hq, hx⟩
      · subst hq; exact .inr (hnl.1 hx)
    · rintro (⟨q, hq, hx⟩ | hx)
      · exact ⟨q, .inl hq, hx⟩
      · exact ⟨_, .inr rfl, hnl.2 hx⟩

/-- C32: merging keeps the sequence of non-degenerate segments. -/
theorem C32_segments (lines : List (L × L)) :
    (mergeLines lines).flatMap segments = lines.filter fun l => l.1 ≠ l.2 := by
  have : ∀ acc : List (List L), (lines.foldl addLine acc).flatMap segments =
      acc.flatMap segments ++ lines.filter fun l => l.1 ≠ l.2 := by
    induction lines with
    | nil => simp
    | cons l lines ih =>
      intro acc
      rw [List.foldl_cons, ih, segments_addLine, List.filter_cons]
      by_cases h : l.1 = l.2 <;> simp [h]
  simpa [mergeLines] using this []

/-- C32: no polyline is empty or has two equal consecutive points, and a polyline never starts where
the one before ends. -/
theorem C32_shape (lines : List (L × L)) :
    (∀ p ∈ mergeLines lines, p ≠ [] ∧ ∀ a b, Follows p a b → a ≠ b) ∧
    ∀ p q a, Follows (mergeLines lines) p q → p.getLast? = some a → q.head? ≠ some a := by
  have h := merged_foldl lines [] merged_nil
  exact ⟨fun p hp => ⟨h.nonempty p hp, h.noRepeat p hp⟩, h.maximal⟩

/-- C32: every end of a line, degenerate lines included, is a point of some polyline, and there are
no other points. -/
theorem C32_points (lines : List (L × L)) (x : L) :
    (∃ p ∈ mergeLines lines, x ∈ p) ↔ ∃ l ∈ lines, x = l.1 ∨ x = l.2 := by
  have : ∀ acc : List (List L), (∃ p ∈ lines.foldl addLine acc, x ∈ p) ↔
      (∃ p ∈ acc, x ∈ p) ∨ ∃ l ∈ lines, x = l.1 ∨ x = l.2 := by
    induction lines with
    | nil => simp
    | cons l lines ih =>
      intro acc
      rw [List.foldl_cons, ih, points_addLine]
      simp only [List.mem_cons, exists_eq_or_imp, or_assoc]
  simpa [mergeLines] using this []

/-! ### C33 -/

theorem addColoured_cases (acc : List (Group L)) (l : ColouredLine L) :
    (∃ p ls, acc = p ++ [⟨l.colour, ls⟩] ∧
      addColoured acc l = p ++ [⟨l.colour, addLine ls (l.start, l.stop)⟩]) ∨
    ((∀ p ls, acc ≠ p ++ [⟨l.colour, ls⟩]) ∧
      addColoured acc l = acc ++ [⟨l.colour, addLine [] (l.start, l.stop)⟩]) := by
  unfold addColoured
  split
  · next h =>
    rw [Option.map_eq_some_iff] at h
    obtain ⟨⟨c, ls⟩, h1, h2⟩ := h
    obtain ⟨p, rfl⟩ := eq_snoc h1
    simp only at h2
    subst h2
    exact .inl ⟨p, ls, rfl, by rw [modifyLast_append]⟩
  · next h =>
    refine .inr ⟨?_, rfl⟩
    rintro p ls rfl
    apply h
    simp

/-- C33: grouping keeps the sequence of non-degenerate coloured segments. -/
theorem C33_segments (lines : List (ColouredLine L)) :
    colouredSegments (lineGroups lines) =
      (lines.filter fun l => l.start ≠ l.stop).map fun l => (l.start, l.stop, l.colour) := by
  have key : ∀ (ls : List (List L)) (s : L × L) (c : Option Str),
      (addLine ls s).flatMap (fun l => (segments l).map fun s => (s.1, s.2, c)) =
      ls.flatMap (fun l => (segments l).map fun s => (s.1, s.2, c)) ++
        if s.1 ≠ s.2 then [(s.1, s.2, c)] else [] := by
    intro ls s c
    have h := congrArg (List.map fun s : L × L => (s.1, s.2, c)) (segments_addLine ls s)
    rw [List.map_flatMap, List.map_append, List.map_flatMap] at h
    rw [h]
    by_cases e : s.1 = s.2 <;> simp [e]
  have step : ∀ (acc : List (Group L)) (l : ColouredLine L),
      colouredSegments (addColoured acc l) = colouredSegments acc ++
        if l.start ≠ l.stop then [(l.start, l.stop, l.colour)] else [] := by
    intro acc l
    rcases addColoured_cases acc l with ⟨p, ls, rfl, h2⟩ | ⟨_, h2⟩
    · rw [h2]
      unfold colouredSegments
      simp only [List.flatMap_append, List.flatMap_cons, List.flatMap_nil, List.append_nil, key,
        List.append_assoc]
    · rw [h2]
      unfold colouredSegments
      simp only [List.flatMap_append, List.flatMap_cons, List.flatMap_nil, List.append_nil, key,
        List.nil_append]
  have : ∀ acc : List (Group L), colouredSegments (lines.foldl addColoured acc) =
      colouredSegments acc ++
        (lines.filter fun l => l.start ≠ l.stop).map fun l => (l.start, l.stop, l.colour) := by
    induction lines with
    | nil => simp
    | cons l lines ih =>
      intro acc
      rw [List.foldl_cons, ih, step, List.filter_cons]
      by_cases h : l.start = l.stop <;> simp [h]
  simpa [lineGroups, colouredSegments] using this []

/-- C33: adjacent groups differ in colour, no group is empty, and the lines within a group are merged
as in C32. -/
theorem C33_groups (lines : List (ColouredLine L)) :
    (∀ g h, Follows (lineGroups lines) g h → g.colour ≠ h.colour) ∧
    (∀ g ∈ lineGroups lines, g.lines ≠ [] ∧
      (∀ p ∈ g.lines, p ≠ [] ∧ ∀ a b, Follows p a b → a ≠ b) ∧
      ∀ p q a, Follows g.lines p q → p.getLast? = some a → q.head? ≠ some a) := by
  have addLine_ne : ∀ (ls : List (List L)) s, addLine ls s ≠ [] := by
    intro ls s
    rcases addLine_cases ls s with ⟨p, ps, rfl, h2⟩ | ⟨_, h2⟩ <;> rw [h2] <;> simp
  have : ∀ acc : List (Group L),
      ((∀ g h, Follows acc g h → g.colour ≠ h.colour) ∧ ∀ g ∈ acc, g.lines ≠ [] ∧ Merged g.lines) →
      ((∀ g h, Follows (lines.foldl addColoured acc) g h → g.colour ≠ h.colour) ∧
        ∀ g ∈ lines.foldl addColoured acc, g.lines ≠ [] ∧ Merged g.lines) := by
    induction lines with
    | nil => exact fun acc h => h
    | cons l lines ih =>
      intro acc ⟨h1, h2⟩
      rw [List.foldl_cons]
      apply ih
      rcases addColoured_cases acc l with ⟨p, ls, rfl, e⟩ | ⟨hn, e⟩
      · rw [e]
        constructor
        · intro g h hf
          rcases follows_snoc hf with hf | ⟨⟨w, hw⟩, hh⟩
          · obtain ⟨u, v, hu⟩ := hf
            exact h1 g h ⟨u, v ++ [⟨l.colour, ls⟩], by rw [hu]; simp⟩
          · rw [hh]
            exact h1 g ⟨l.colour, ls⟩ ⟨w, [], by rw [hw]; simp⟩
        · intro g hg
          rcases List.mem_append.1 hg with hg | hg
          · exact h2 g (List.mem_append_left _ hg)
          · simp only [List.mem_cons, List.not_mem_nil, or_false] at hg
            rw [hg]
            exact ⟨addLine_ne _ _, merged_addLine (h2 ⟨l.colour, ls⟩ (by simp)).2 _⟩
      · rw [e]
        constructor
        · intro g h hf
          rcases follows_snoc hf with hf | ⟨⟨w, hw⟩, hh⟩
          · exact h1 g h hf
          · rw [hh]
            intro hc
            simp only at hc
            exact hn w g.lines (by rw [hw, ← hc])
        · intro g hg
          rcases List.mem_append.1 hg with hg | hg
          · exact h2 g hg
          · simp only [List.mem_cons, List.not_mem_nil, or_false] at hg
            rw [hg]
            exact ⟨addLine_ne [] _, merged_addLine merged_nil _⟩
  obtain ⟨r1, r2⟩ := this [] ⟨by rintro g h ⟨p, q, e⟩; simp at e, by simp⟩
  exact ⟨r1, fun g hg => ⟨(r2 g hg).1, fun p hp => ⟨(r2 g hg).2.nonempty p hp, (r2 g hg).2.noRepeat p hp⟩,
    (r2 g hg).2.maximal⟩⟩

/-! ### Examples -/

example : mergeLines [(1, 2), (2, 3), (3, 3), (5, 6), (6, 1), (7, 7)] = [[1, 2, 3], [5, 6, 1], [7]] := by
  decide

example : lineGroups [⟨1, 2, none⟩, ⟨2, 3, none⟩, ⟨3, 4, some c!"red"⟩, ⟨4, 5, some c!"red"⟩,
    ⟨9, 8, some c!"red"⟩, ⟨8, 1, none⟩] =
    [⟨none, [[1, 2, 3]]⟩, ⟨some c!"red", [[3, 4, 5], [9, 8]]⟩, ⟨none, [[8, 1]]⟩] := by decide

end Verif.Lines
