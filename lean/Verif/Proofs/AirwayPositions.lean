import Verif.Proofs.AirwayGraph
import Verif.Spec.AirwayPositions
/-!
# The positions of fixes on airways (helper lemmas)
-/

namespace Verif.AirwayGraph
set_option linter.unusedSectionVars false
open Spec
variable {P : Type} [Quantize P]

/-- The positions in the graph are those of the first mentions. -/
structure Posd (g : Graph P) (ms : List (Str × P)) : Prop where
  first : ∀ (i : Nat) (p : P) (n : Str), (g.fixes.map (·.position))[i]? = some p → g.fixNameById[i]? = some n →
    firstPosition ms (n, quantize p) = some p
  all : ∀ m ∈ ms, ∃ (i : Nat) (p : P), (g.fixes.map (·.position))[i]? = some p ∧ g.fixNameById[i]? = some m.1 ∧ quantize p = quantize m.2

theorem Posd.same {g g' : Graph P} {ms : List (Str × P)} (h : Posd g ms) (h1 : g'.fixes.map (·.position) = g.fixes.map (·.position))
    (h2 : g'.fixNameById = g.fixNameById) : Posd g' ms :=
  ⟨fun i p n => by rw [h1, h2]; exact h.first i p n, fun m hm => by rw [h1, h2]; exact h.all m hm⟩

theorem firstPosition_append (l l' : List (Str × P)) (k : Key) :
    firstPosition (l ++ l') k = (firstPosition l k).or (firstPosition l' k) := by
  unfold firstPosition
  rw [List.find?_append]
  cases l.find? _ <;> rfl

theorem posd_get {g g' : Graph P} {reps extra} (I : Inv g reps extra) {ms : List (Str × P)} (h : Posd g ms) {pos : P} {name : Str} {id : Nat}
    (hg : g.getOrInsertFixId pos name = .ok (g', id)) : Posd g' (ms ++ [(name, pos)]) := by
  have node : ∀ i k, IsNode g i k ↔ ∃ p, (g.fixes.map (·.position))[i]? = some p ∧ g.fixNameById[i]? = some k.1 ∧ quantize p = k.2 := by
    intro i k
    simp [IsNode, FixAt, List.getElem?_map]
    grind
  -- a fix that is found
  have old : (∃ i, IsNode g i (name, quantize pos)) → Posd g (ms ++ [(name, pos)]) := by
    rintro ⟨i, hi⟩
    refine ⟨fun j p n h1 h2 => ?_, fun m hm => ?_⟩
    · rw [firstPosition_append, h.first j p n h1 h2]; rfl
    · rcases List.mem_append.1 hm with hm | hm
      · exact h.all m hm
      · rw [List.mem_singleton.1 hm]
        exact ⟨i, (node _ _).1 hi⟩
  -- a fix that is added
  have new : (∀ i, ¬ IsNode g i (name, quantize pos)) → Posd (g.addFixRaw pos name).1 (ms ++ [(name, pos)]) := by
    intro hn
    have none : firstPosition ms (name, quantize pos) = none := by
      unfold firstPosition
      rw [Option.map_eq_none_iff, List.find?_eq_none]
      intro m hm hk
      simp only [decide_eq_true_eq] at hk
      obtain ⟨i, p, h1, h2, h3⟩ := h.all m hm
      exact hn i ((node _ _).2 ⟨p, h1, by rw [h2, hk.1], by rw [h3, hk.2]⟩)
    have len : g.fixNameById.length = (g.fixes.map (·.position)).length := by rw [I.len, List.length_map]
    refine ⟨fun j p n h1 h2 => ?_, fun m hm => ?_⟩
    · simp only [Graph.addFixRaw, List.map_append, List.map_cons, List.map_nil] at h1 h2
      rw [List.getElem?_append] at h1 h2
      rw [firstPosition_append]
      split at h1
      · rw [if_pos (by omega)] at h2
        rw [h.first j p n h1 h2]; rfl
      · rw [if_neg (by omega)] at h2
        rw [List.getElem?_singleton] at h1 h2
        split at h1 <;> split at h2 <;> simp at h1 h2
        subst h1 h2
        rw [none]
        simp [firstPosition]
    · simp only [Graph.addFixRaw, List.map_append, List.map_cons, List.map_nil]
      rcases List.mem_append.1 hm with hm | hm
      · obtain ⟨i, p, h1, h2, h3⟩ := h.all m hm
        have l1 : i < (g.fixes.map (·.position)).length := (List.getElem?_eq_some_iff.1 h1).1
        have l2 : i < g.fixNameById.length := (List.getElem?_eq_some_iff.1 h2).1
        exact ⟨i, p, by rw [List.getElem?_append_left l1]; exact h1, by rw [List.getElem?_append_left l2]; exact h2, h3⟩
      · rw [List.mem_singleton.1 hm]
        refine ⟨g.fixNameById.length, pos, ?_, ?_, rfl⟩
        · rw [List.getElem?_append_right (by omega), len]; simp
        · simp
  unfold Graph.getOrInsertFixId at hg
  cases hids : g.fixIdByName.get? name with
  | none =>
    rw [hids] at hg
    simp only [Except.ok.injEq] at hg
    rw [show g' = (g.addFixRaw pos name).1 by rw [hg]]
    refine new ?_
    rintro i ⟨f, h1, h2, h3⟩
    obtain ⟨ids, h4, h5⟩ := I.ids_complete i _ h2
    simp [hids] at h4
  | some ids =>
    rw [hids] at hg
    simp only at hg
    have hv : ∀ i ∈ ids, ∃ f, g.fixes[i]? = some f := fun i hi => I.exists_fix (I.ids_ok _ _ hids i hi)
    rcases findAt_spec g pos ids hv with ⟨i, hi, f, h1, h2, h3⟩ | ⟨h1, h2⟩
    · rw [h1] at hg
      cases hg
      exact old ⟨id, f, h2, I.ids_ok _ _ hids id hi, h3⟩
    · rw [h1] at hg
      simp only [bind, Except.bind, Except.ok.injEq] at hg
      rw [show g' = (g.addFixRaw pos name).1 by rw [hg]]
      refine new ?_
      rintro i ⟨f, h4, h5, h6⟩
      obtain ⟨ids', h7, h8⟩ := I.ids_complete i _ h5
      simp only at h7
      rw [hids] at h7; cases h7
      exact h2 i h8 f h4 h6

theorem posd_airway {g : Graph P} {ms : List (Str × P)} (h : Posd g ms) (w : Str) : Posd (g.getOrInsertAirwayId w).1 ms := by
  unfold Graph.getOrInsertAirwayId
  cases g.airwayIdByName.get? w <;> exact h.same rfl rfl

theorem posd_edge {g g' : Graph P} {ms : List (Str × P)} (h : Posd g ms) {i a : Nat} {e : AirwayEdge} (hg : g.insertOrUpdateEdge i a e = .ok g') :
    Posd g' ms := by
  unfold Graph.insertOrUpdateEdge Graph.fixAt unwrap at hg
  cases hf : g.fixes[i]? with
  | none => rw [hf] at hg; cases hg
  | some f =>
    rw [hf] at hg
    cases hg
    refine h.same ?_ rfl
    rw [List.map_set]
    apply List.ext_getElem?
    intro j
    rw [List.getElem?_set]
    split
    · subst_vars
      split
      · rw [List.getElem?_map, hf]; rfl
      · rw [eq_comm, List.getElem?_eq_none_iff]; omega
    · rfl

theorem posd_segment {g g' : Graph P} {reps} (I : Inv g reps []) {ms : List (Str × P)} (h : Posd g ms) {s : Segment P}
    (hg : g.insertOrUpdateSegment s = .ok g') : Posd g' (ms ++ mentions [s]) := by
  obtain ⟨g₁, i, e₁, I₁, _⟩ := getOrInsertFixId_spec I s.fromPos s.fromName
  obtain ⟨g₂, j, e₂, _⟩ := getOrInsertFixId_spec I₁ s.segment.fix.coordinate s.segment.fix.designator
  have h2 := posd_airway (posd_get I₁ (posd_get I h e₁) e₂) s.airway
  unfold Graph.insertOrUpdateSegment at hg
  rw [e₁] at hg
  simp only [bind, Except.bind] at hg
  rw [e₂] at hg
  simp only at hg
  split at hg
  · cases hg
  · rename_i g₃ e₃
    simpa [mentions] using posd_edge (posd_edge h2 e₃) hg

theorem posd_fold {g g' : Graph P} {reps} (I : Inv g reps []) {ms : List (Str × P)} (h : Posd g ms) (segs : List (Segment P))
    (hg : segs.foldlM (fun g s => g.insertOrUpdateSegment s) g = Except.ok (ε := Fault) g') : Posd g' (ms ++ mentions segs) := by
  induction segs generalizing g reps ms with
  | nil => cases hg; simpa [mentions] using h
  | cons s segs ih =>
    obtain ⟨g₁, e₁, I₁⟩ := insertOrUpdateSegment_spec I s
    rw [List.foldlM_cons, e₁] at hg
    have := ih I₁ (posd_segment I h e₁) hg
    simpa [mentions] using this

theorem build_posd {segs : List (Segment P)} {g : Graph P} (h : build segs = .ok g) : Posd g (mentions segs) := by
  have := posd_fold (inv_empty (P := P)) (ms := []) ⟨by intro i p n h; simp [Graph.empty] at h, by simp⟩ segs h
  simpa using this

theorem described {g : Graph P} {ms : List (Str × P)} (h : Posd g ms) {isInternal : Str → P → Bool} {e : Nat × Bool × Option Nat}
    {x : AirwayFix P × Bool} (hx : g.describe isInternal e = .ok x) : firstPosition ms (keyOf x.1) = some x.1.fix.coordinate := by
  unfold Graph.describe Graph.fixAt unwrap at hx
  cases hn : g.fixNameById[e.1]? with
  | none => rw [hn] at hx; cases hx
  | some n =>
    rw [hn] at hx
    simp only [bind, Except.bind] at hx
    cases hf : g.fixes[e.1]? with
    | none => rw [hf] at hx; cases hx
    | some f =>
      rw [hf] at hx
      cases hx
      exact h.first e.1 f.position n (by rw [List.getElem?_map, hf]; rfl) hn

theorem mapM_all {α β : Type} {f : α → Run β} {Q : β → Prop} (hQ : ∀ a b, f a = .ok b → Q b) {l : List α} {l' : List β}
    (h : l.mapM f = .ok l') : ∀ b ∈ l', Q b := by
  induction l generalizing l' with
  | nil => cases h; simp
  | cons a l ih =>
    rw [List.mapM_cons] at h
    cases ha : f a with
    | error e => rw [ha] at h; cases h
    | ok b =>
      rw [ha] at h
      simp only [bind, Except.bind] at h
      cases hl : l.mapM f with
      | error e => rw [hl] at h; cases h
      | ok bs =>
        rw [hl] at h
        cases h
        intro c hc
        rcases List.mem_cons.1 hc with rfl | hc
        · exact hQ _ _ ha
        · exact ih hl c hc

theorem tryEdges_positions {g : Graph P} {ms : List (Str × P)} (h : Posd g ms) {isInternal : Str → P → Bool} {i j a : Nat} {es : List AirwayEdge}
    {out : List (AirwayFix P × Bool)} (hx : g.tryEdges isInternal i j a es = .ok (some out)) :
    ∀ x ∈ out, firstPosition ms (keyOf x.1) = some x.1.fix.coordinate := by
  induction es with
  | nil => cases hx
  | cons e es ih =>
    unfold Graph.tryEdges at hx
    cases ht : g.traverse j a g.fixes.length i e with
    | error e => rw [ht] at hx; cases hx
    | ok r =>
      rw [ht] at hx
      simp only [bind, Except.bind] at hx
      cases r with
      | none => exact ih hx
      | some ids =>
        simp only at hx
        cases hm : ids.mapM (g.describe isInternal) with
        | error e => rw [hm] at hx; cases hx
        | ok o =>
          rw [hm] at hx
          cases hx
          exact mapM_all (fun _ _ => described h) hm

end Verif.AirwayGraph
