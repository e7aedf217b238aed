import Verif.Spec.SctWrite
import Verif.Model.SctWrite
import Verif.Props.Lines
/-!
# Merging the segments of merged lines gives the lines back
-/

namespace Verif.Proofs.SctWrite
open Verif.Lines Verif.Spec.SctWrite Verif.Model.SctWrite

section
variable {L : Type}

theorem next_tail {a b c : L} {l : List L} (h : Next l a b) : Next (c :: l) a b := by
  obtain ⟨p, q, rfl⟩ := h
  exact ⟨c :: p, q, rfl⟩

theorem next_head (a b : L) (l : List L) : Next (a :: b :: l) a b := ⟨[], l, rfl⟩

variable [DecidableEq L]

/-- Points are added to the last line. -/
theorem fold_points (ls : List (List L)) (p : List L) (x : L) (r : List L) (h : ∀ a b, Next (x :: r) a b → a ≠ b) :
    (windows (x :: r)).foldl addLine (ls ++ [p ++ [x]]) = ls ++ [p ++ x :: r] := by
  induction r generalizing p x with
  | nil => rfl
  | cons y r ih =>
    have e : addLine (ls ++ [p ++ [x]]) (x, y) = ls ++ [(p ++ [x]) ++ [y]] := by
      unfold addLine
      have : ((ls ++ [p ++ [x]]).getLast?.bind (·.getLast?)) = some x := by simp
      rw [if_pos this, if_pos (h x y (next_head ..)), modifyLast_append]
    show ((windows (y :: r)).foldl addLine (addLine _ (x, y))) = _
    rw [e, ih (p ++ [x]) y fun a b h' => h a b (next_tail h')]
    simp

/-- A line that does not continue the last one is added. -/
theorem fold_line (ls : List (List L)) {l : List L} (h2 : 2 ≤ l.length) (h : ∀ a b, Next l a b → a ≠ b)
    (hl : ∀ k, ls.getLast? = some k → k.getLast? ≠ l.head?) : (windows l).foldl addLine ls = ls ++ [l] := by
  match l, h2 with
  | a :: b :: r, _ =>
    have e : addLine ls (a, b) = ls ++ [[a] ++ [b]] := by
      unfold addLine
      rw [if_neg, newLine, if_neg (h a b (next_head ..))]
      · rfl
      · intro h'
        rw [Option.bind_eq_some_iff] at h'
        obtain ⟨k, h1, h3⟩ := h'
        exact hl k h1 h3
    show ((windows (b :: r)).foldl addLine (addLine _ (a, b))) = _
    rw [e, fold_points ls [a] b r fun x y h' => h x y (next_tail h')]
    rfl

theorem fold_lines (acc ls : List (List L)) (h2 : ∀ l ∈ ls, 2 ≤ l.length) (h : ∀ l ∈ ls, ∀ a b, Next l a b → a ≠ b)
    (hn : ∀ a b, Next ls a b → a.getLast? ≠ b.head?) (hl : ∀ k l, acc.getLast? = some k → ls.head? = some l → k.getLast? ≠ l.head?) :
    (ls.flatMap windows).foldl addLine acc = acc ++ ls := by
  induction ls generalizing acc with
  | nil => simp
  | cons l ls ih =>
    rw [List.flatMap_cons, List.foldl_append, fold_line acc (h2 l List.mem_cons_self) (h l List.mem_cons_self) (fun k hk => hl k l hk rfl),
      ih (acc ++ [l]) (fun k hk => h2 k (List.mem_cons_of_mem _ hk)) (fun k hk => h k (List.mem_cons_of_mem _ hk))
        (fun a b h' => hn a b (next_tail h'))]
    · simp
    · intro k l' hk hl'
      rw [List.getLast?_concat] at hk
      cases hk
      cases ls with
      | nil => cases hl'
      | cons b ls =>
        cases hl'
        exact hn _ _ (next_head ..)

/-- The segments of a group. -/
def groupSegs (g : Group L) : List (ColouredLine L) := (g.lines.flatMap windows).map fun s => ⟨s.1, s.2, g.colour⟩

theorem fold_coloured (acc : List (Group L)) (c : Option Str) (ls : List (List L)) (ss : List (L × L)) :
    (ss.map fun s => (⟨s.1, s.2, c⟩ : ColouredLine L)).foldl addColoured (acc ++ [⟨c, ls⟩]) = acc ++ [⟨c, ss.foldl addLine ls⟩] := by
  induction ss generalizing ls with
  | nil => rfl
  | cons s ss ih =>
    rw [List.map_cons, List.foldl_cons, List.foldl_cons, ← ih]
    congr 1
    unfold addColoured
    rw [if_pos (by simp), modifyLast_append]

theorem addLine_nil (s : L × L) : addLine ([] : List (List L)) s = [newLine s.1 s.2] := by
  unfold addLine
  rw [if_neg (by simp)]
  rfl

theorem fold_group (acc : List (Group L)) {g : Group L} (h0 : g.lines ≠ []) (h2 : ∀ l ∈ g.lines, 2 ≤ l.length)
    (h : ∀ l ∈ g.lines, ∀ a b, Next l a b → a ≠ b) (hn : ∀ a b, Next g.lines a b → a.getLast? ≠ b.head?)
    (hl : ∀ k, acc.getLast? = some k → k.colour ≠ g.colour) : (groupSegs g).foldl addColoured acc = acc ++ [g] := by
  have key := fold_lines [] g.lines h2 h hn (fun k l hk => by cases hk)
  obtain ⟨c, ls⟩ := g
  unfold groupSegs
  cases hs : ls.flatMap windows with
  | nil =>
    exfalso
    cases ls with
    | nil => exact h0 rfl
    | cons l ls =>
      match l, h2 l List.mem_cons_self with
      | a :: b :: r, _ => cases hs
  | cons s ss =>
    simp only at key
    rw [hs, List.foldl_cons, addLine_nil] at key
    have e : addColoured acc ⟨s.1, s.2, c⟩ = acc ++ [⟨c, [newLine s.1 s.2]⟩] := by
      unfold addColoured
      rw [if_neg]
      intro h'
      rw [Option.map_eq_some_iff] at h'
      obtain ⟨k, h1, h3⟩ := h'
      exact hl k h1 h3
    rw [List.map_cons, List.foldl_cons, e, fold_coloured, key]
    rfl

theorem fold_groups (acc gs : List (Group L)) (h0 : ∀ g ∈ gs, g.lines ≠ []) (h2 : ∀ g ∈ gs, ∀ l ∈ g.lines, 2 ≤ l.length)
    (h : ∀ g ∈ gs, ∀ l ∈ g.lines, ∀ a b, Next l a b → a ≠ b) (hn : ∀ g ∈ gs, ∀ a b, Next g.lines a b → a.getLast? ≠ b.head?)
    (hc : ∀ g g', Next gs g g' → g.colour ≠ g'.colour) (hl : ∀ k g, acc.getLast? = some k → gs.head? = some g → k.colour ≠ g.colour) :
    (gs.flatMap groupSegs).foldl addColoured acc = acc ++ gs := by
  induction gs generalizing acc with
  | nil => simp
  | cons g gs ih =>
    have m := @List.mem_cons_self _ g gs
    rw [List.flatMap_cons, List.foldl_append, fold_group acc (h0 g m) (h2 g m) (h g m) (hn g m) (fun k hk => hl k g hk rfl),
      ih (acc ++ [g]) (fun k hk => h0 k (List.mem_cons_of_mem _ hk)) (fun k hk => h2 k (List.mem_cons_of_mem _ hk))
        (fun k hk => h k (List.mem_cons_of_mem _ hk)) (fun k hk => hn k (List.mem_cons_of_mem _ hk)) (fun a b h' => hc a b (next_tail h'))]
    · simp
    · intro k l' hk hl'
      rw [List.getLast?_concat] at hk
      cases hk
      cases gs with
      | nil => cases hl'
      | cons b ls =>
        cases hl'
        exact hc _ _ (next_head ..)
end

/-- Reading the segments of a merged drawing gives the drawing. -/
theorem groups_back {F : Type} [DecidableEq F] {d : Parse.Sct.Drawing F} (hd : IsDrawing d) (hm : Merged d) :
    lineGroups (d.lineGroups.flatMap groupSegs) = d.lineGroups := by
  unfold lineGroups
  rw [fold_groups [] d.lineGroups (fun g hg => (hd.group g hg).lines) (fun g hg => (hd.group g hg).points) hm.points hm.lines hm.groups
    (fun k g hk => by cases hk)]
  rfl

end Verif.Proofs.SctWrite
