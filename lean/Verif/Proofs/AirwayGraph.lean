import Verif.Spec.AirwayGraph
/-!
# Invariant of the airway graph (helper lemmas)
-/

namespace Verif.AirwayGraph
set_option linter.unusedSectionVars false
open Spec
variable {P : Type} [Quantize P]

/-- One directed report: what a single `insert_or_update_edge` call contributes. -/
structure Rep where
  w : Str
  a : Key
  b : Key
  valid : Bool
  min : Option Nat

abbrev IsNode (g : Graph P) (i : Nat) (k : Key) : Prop := FixAt g i k

def EdgeIn (g : Graph P) (i a : Nat) (e : AirwayEdge) : Prop :=
  ∃ f es, g.fixes[i]? = some f ∧ f.edges.get? a = some es ∧ e ∈ es

/-- Reports for one directed leg. -/
def RepFor (reps : List Rep) (w : Str) (a b : Key) (r : Rep) : Prop :=
  r ∈ reps ∧ r.w = w ∧ r.a = a ∧ r.b = b

structure EdgeAgrees (reps : List Rep) (w : Str) (a b : Key) (e : AirwayEdge) : Prop where
  ex : ∃ r, RepFor reps w a b r
  valid : e.validDirection = true ↔ ∃ r, RepFor reps w a b r ∧ r.valid = true
  min : IsLeast e.minimumLevel (fun n => ∃ r, RepFor reps w a b r ∧ r.min = some n)

structure Inv (g : Graph P) (reps : List Rep) (extra : List Key) : Prop where
  len : g.fixNameById.length = g.fixes.length
  ids_ok : ∀ n ids, g.fixIdByName.get? n = some ids → ∀ i ∈ ids, g.fixNameById[i]? = some n
  ids_nodup : ∀ n ids, g.fixIdByName.get? n = some ids → ids.Nodup
  ids_complete : ∀ i n, g.fixNameById[i]? = some n →
    ∃ ids, g.fixIdByName.get? n = some ids ∧ i ∈ ids
  node_inj : ∀ i j k, IsNode g i k → IsNode g j k → i = j
  awy : ∀ w a, g.airwayIdByName.get? w = some a ↔ g.airwayNameById[a]? = some w
  edges_ok : ∀ (i : Nat) (f : GraphFix P) (a : Nat) (es : List AirwayEdge), g.fixes[i]? = some f → f.edges.get? a = some es →
    es ≠ [] ∧ (es.map (·.to)).Nodup ∧ (∀ e ∈ es, e.to < g.fixes.length) ∧
      a < g.airwayNameById.length
  sound : ∀ i a e w ka kb, EdgeIn g i a e → g.airwayNameById[a]? = some w →
    IsNode g i ka → IsNode g e.to kb → EdgeAgrees reps w ka kb e
  complete : ∀ r ∈ reps, ∃ i a e, g.airwayIdByName.get? r.w = some a ∧ IsNode g i r.a ∧
    IsNode g e.to r.b ∧ EdgeIn g i a e
  nodes : ∀ i k, IsNode g i k → k ∈ extra ∨ ∃ r ∈ reps, r.a = k

theorem inv_empty : Inv (Graph.empty : Graph P) [] [] where
  len := rfl
  ids_ok := by intro n ids h; simp [Graph.empty] at h
  ids_nodup := by intro n ids h; simp [Graph.empty] at h
  ids_complete := by intro i n h; simp [Graph.empty] at h
  node_inj := by rintro i j k ⟨f, h, _⟩; simp [Graph.empty] at h
  awy := by intro w a; simp [Graph.empty]
  edges_ok := by intro i f a es h; simp [Graph.empty] at h
  sound := by rintro i a e w ka kb ⟨f, es, h, _⟩; simp [Graph.empty] at h
  complete := by intro r h; simp at h
  nodes := by rintro i k ⟨f, h, _⟩; simp [Graph.empty] at h

theorem Inv.exists_fix {g : Graph P} {reps extra} (h : Inv g reps extra) {i : Nat} {n : Str}
    (hi : g.fixNameById[i]? = some n) : ∃ f, g.fixes[i]? = some f := by
  have : i < g.fixNameById.length := by
    rcases Nat.lt_or_ge i g.fixNameById.length with h1 | h1
    · exact h1
    · rw [List.getElem?_eq_none h1] at hi; cases hi
  rw [h.len] at this
  exact ⟨_, List.getElem?_eq_getElem this⟩

theorem Inv.exists_node {g : Graph P} {reps extra} (h : Inv g reps extra) {i : Nat}
    (hi : i < g.fixes.length) : ∃ k, IsNode g i k := by
  have h2 : i < g.fixNameById.length := by rw [h.len]; exact hi
  exact ⟨(g.fixNameById[i], quantize (g.fixes[i]).position), g.fixes[i],
    List.getElem?_eq_getElem hi, List.getElem?_eq_getElem h2, rfl⟩

theorem Spec.FixAt.unique {g : Graph P} {i : Nat} {k k' : Key} (h : IsNode g i k)
    (h' : IsNode g i k') : k = k' := by
  obtain ⟨f, h1, h2, h3⟩ := h
  obtain ⟨f', h1', h2', h3'⟩ := h'
  rw [h1] at h1'; cases h1'
  rw [h2] at h2'
  have := Option.some.inj h2'
  exact Prod.ext this (h3.symm.trans h3')

theorem Spec.FixAt.lt {g : Graph P} {i : Nat} {k : Key} (h : IsNode g i k) : i < g.fixes.length := by
  obtain ⟨f, h1, _⟩ := h
  rcases Nat.lt_or_ge i g.fixes.length with h2 | h2
  · exact h2
  · rw [List.getElem?_eq_none h2] at h1; cases h1

/-! ### Lookup of a position in an id list -/

theorem findAt_spec (g : Graph P) (pos : P) (ids : List Nat)
    (hv : ∀ i ∈ ids, ∃ f, g.fixes[i]? = some f) :
    (∃ i ∈ ids, ∃ f, g.findAt pos ids = .ok (some i) ∧ g.fixes[i]? = some f ∧
        quantize f.position = quantize pos) ∨
    (g.findAt pos ids = .ok none ∧
      ∀ i ∈ ids, ∀ f, g.fixes[i]? = some f → quantize f.position ≠ quantize pos) := by
  induction ids with
  | nil => right; simp [Graph.findAt]
  | cons id ids ih =>
    obtain ⟨f, hf⟩ := hv id (by simp)
    by_cases hq : quantize f.position = quantize pos
    · left
      refine ⟨id, by simp, f, ?_, hf, hq⟩
      simp [Graph.findAt, Graph.fixAt, hf, samePosition, hq]
    · have hstep : g.findAt pos (id :: ids) = g.findAt pos ids := by
        simp [Graph.findAt, Graph.fixAt, hf, samePosition, hq]
      rw [hstep]
      rcases ih (fun i hi => hv i (by simp [hi])) with ⟨i, hi, f', h1, h2, h3⟩ | ⟨h1, h2⟩
      · left; exact ⟨i, by simp [hi], f', h1, h2, h3⟩
      · right
        refine ⟨h1, ?_⟩
        intro i hi f' hf'
        rcases List.mem_cons.1 hi with rfl | hi
        · rw [hf] at hf'; cases hf'; exact hq
        · exact h2 i hi f' hf'

/-! ### Adding a fix -/

theorem isNode_addFixRaw {g : Graph P} (hlen : g.fixNameById.length = g.fixes.length)
    (pos : P) (name : Str) (i : Nat) (k : Key) :
    IsNode (g.addFixRaw pos name).1 i k ↔
      IsNode g i k ∨ (i = g.fixes.length ∧ k = (name, quantize pos)) := by
  unfold IsNode FixAt Graph.addFixRaw
  simp only
  rcases Nat.lt_trichotomy i g.fixes.length with h | h | h
  · rw [List.getElem?_append_left h, List.getElem?_append_left (by omega)]
    constructor
    · intro h2; exact Or.inl h2
    · rintro (h2 | h2)
      · exact h2
      · omega
  · subst h
    rw [List.getElem?_append_right (by omega), List.getElem?_append_right (by omega)]
    rw [show g.fixes.length - g.fixNameById.length = 0 by omega, Nat.sub_self]
    simp only [List.getElem?_cons_zero]
    constructor
    · rintro ⟨f, h1, h2, h3⟩
      cases h1; right
      exact ⟨by trivial, Prod.ext (Option.some.inj h2).symm h3.symm⟩
    · rintro (⟨f, h1, _⟩ | ⟨_, h2⟩)
      · rw [List.getElem?_eq_none (by omega)] at h1; cases h1
      · subst h2; simp
  · rw [List.getElem?_eq_none (by simp; omega), List.getElem?_eq_none (by simp; omega)]
    have hn : g.fixes[i]? = none := List.getElem?_eq_none (by omega)
    constructor
    · rintro ⟨f, h1, _⟩; cases h1
    · rintro (⟨f, h1, _⟩ | h1)
      · rw [hn] at h1; cases h1
      · omega

theorem edgeIn_addFixRaw {g : Graph P} (pos : P) (name : Str) (i a : Nat) (e : AirwayEdge) :
    EdgeIn (g.addFixRaw pos name).1 i a e ↔ EdgeIn g i a e := by
  unfold EdgeIn Graph.addFixRaw
  simp only
  rcases Nat.lt_trichotomy i g.fixes.length with h | h | h
  · rw [List.getElem?_append_left h]
  · subst h
    rw [List.getElem?_append_right (by omega), Nat.sub_self]
    simp only [List.getElem?_cons_zero, List.getElem?_eq_none (Nat.le_refl _)]
    constructor
    · rintro ⟨f, es, h1, h2, _⟩; cases h1; simp [Map.get?] at h2
    · rintro ⟨f, es, h1, _⟩; cases h1
  · rw [List.getElem?_eq_none (by simp; omega), List.getElem?_eq_none (by omega)]

theorem inv_addFixRaw {g : Graph P} {reps extra} (h : Inv g reps extra) (pos : P) (name : Str)
    (hnew : ∀ i, ¬ IsNode g i (name, quantize pos)) :
    Inv (g.addFixRaw pos name).1 reps ((name, quantize pos) :: extra) := by
  have hN := isNode_addFixRaw h.len pos name
  have hE := fun i a e => edgeIn_addFixRaw (g := g) pos name i a e
  have hnames : ∀ i n, (g.addFixRaw pos name).1.fixNameById[i]? = some n ↔
      (g.fixNameById[i]? = some n ∨ (i = g.fixes.length ∧ n = name)) := by
    intro i n
    simp only [Graph.addFixRaw]
    rcases Nat.lt_trichotomy i g.fixNameById.length with h2 | h2 | h2
    · rw [List.getElem?_append_left h2]
      constructor
      · exact Or.inl
      · rintro (h3 | h3)
        · exact h3
        · have := h.len; omega
    · subst h2
      have hl := h.len
      simp [hl, eq_comm]
    · rw [List.getElem?_eq_none (by simp; omega), List.getElem?_eq_none (by omega)]
      have := h.len
      constructor
      · intro h3; cases h3
      · rintro (h3 | h3)
        · cases h3
        · omega
  have hget : ∀ n, (g.addFixRaw pos name).1.fixIdByName.get? n =
      if name = n then some (((g.fixIdByName.get? name).getD []) ++ [g.fixes.length])
      else g.fixIdByName.get? n := by
    intro n; simp [Graph.addFixRaw, Map.get?_insert]
  refine ⟨?_, ?_, ?_, ?_, ?_, ?_, ?_, ?_, ?_, ?_⟩
  · simp [Graph.addFixRaw, h.len]
  · intro n ids hids i hi
    rw [hget] at hids
    rw [hnames]
    split at hids
    · next hn =>
      subst hn; cases hids
      rcases List.mem_append.1 hi with h2 | h2
      · left
        cases h3 : g.fixIdByName.get? name with
        | none => simp [h3] at h2
        | some l => rw [h3] at h2; exact h.ids_ok _ _ h3 i h2
      · right; simp at h2; exact ⟨h2, rfl⟩
    · left; exact h.ids_ok _ _ hids i hi
  · intro n ids hids
    rw [hget] at hids
    split at hids
    · next hn =>
      subst hn; cases hids
      rw [List.nodup_append]
      cases h3 : g.fixIdByName.get? name with
      | none => simp
      | some l =>
        refine ⟨h.ids_nodup _ _ h3, by simp, ?_⟩
        intro a ha b hb
        simp at hb ha; subst hb
        intro hab; subst hab
        have h4 := h.ids_ok _ _ h3 _ ha
        rw [← h.len, List.getElem?_eq_none (Nat.le_refl _)] at h4; cases h4
    · exact h.ids_nodup _ _ hids
  · intro i n hi
    rw [hnames] at hi
    rw [hget]
    rcases hi with hi | ⟨rfl, rfl⟩
    · obtain ⟨ids, h1, h2⟩ := h.ids_complete i n hi
      split
      · next hn => subst hn; exact ⟨_, rfl, by simp [h1, h2]⟩
      · exact ⟨ids, h1, h2⟩
    · exact ⟨((g.fixIdByName.get? n).getD []) ++ [g.fixes.length], by simp, by simp⟩
  · intro i j k hi hj
    rw [hN] at hi hj
    rcases hi with hi | ⟨rfl, rfl⟩
    · rcases hj with hj | ⟨rfl, rfl⟩
      · exact h.node_inj i j k hi hj
      · exact absurd hi (hnew i)
    · rcases hj with hj | ⟨rfl, _⟩
      · exact absurd hj (hnew j)
      · rfl
  · exact h.awy
  · intro i f a es hf hes
    simp only [Graph.addFixRaw] at hf ⊢
    rcases Nat.lt_trichotomy i g.fixes.length with h2 | h2 | h2
    · rw [List.getElem?_append_left h2] at hf
      obtain ⟨h3, h4, h5, h6⟩ := h.edges_ok i f a es hf hes
      refine ⟨h3, h4, ?_, h6⟩
      intro e he; have := h5 e he; simp; omega
    · subst h2; simp at hf; subst hf; simp [Map.get?] at hes
    · rw [List.getElem?_eq_none (by simp; omega)] at hf; cases hf
  · intro i a e w ka kb he hw hka hkb
    rw [hE] at he
    rw [hN] at hka hkb
    obtain ⟨f, es, h1, h2, h3⟩ := he
    have hto := (h.edges_ok i f a es h1 h2).2.2.1 e h3
    have hi : i < g.fixes.length := by
      rcases Nat.lt_or_ge i g.fixes.length with h4 | h4
      · exact h4
      · rw [List.getElem?_eq_none h4] at h1; cases h1
    rcases hka with hka | ⟨h4, _⟩
    · rcases hkb with hkb | ⟨h4, _⟩
      · exact h.sound i a e w ka kb ⟨f, es, h1, h2, h3⟩ hw hka hkb
      · omega
    · omega
  · intro r hr
    obtain ⟨i, a, e, h1, h2, h3, h4⟩ := h.complete r hr
    exact ⟨i, a, e, h1, (hN _ _).2 (Or.inl h2), (hN _ _).2 (Or.inl h3), (hE _ _ _).2 h4⟩
  · intro i k hi
    rw [hN] at hi
    rcases hi with hi | ⟨_, rfl⟩
    · rcases h.nodes i k hi with h2 | h2
      · left; simp [h2]
      · right; exact h2
    · left; simp

theorem getOrInsertFixId_spec {g : Graph P} {reps extra} (h : Inv g reps extra) (pos : P)
    (name : Str) :
    ∃ g' id, g.getOrInsertFixId pos name = .ok (g', id) ∧
      Inv g' reps ((name, quantize pos) :: extra) ∧ IsNode g' id (name, quantize pos) ∧
      (∀ i k, IsNode g i k → IsNode g' i k) ∧
      g'.airwayIdByName = g.airwayIdByName ∧ g'.airwayNameById = g.airwayNameById := by
  have weaken : Inv g reps ((name, quantize pos) :: extra) :=
    { h with
      nodes := fun i k hk => by
        rcases h.nodes i k hk with h2 | h2
        · left; simp [h2]
        · right; exact h2 }
  have hadd : (∀ i, ¬ IsNode g i (name, quantize pos)) →
      Inv (g.addFixRaw pos name).1 reps ((name, quantize pos) :: extra) ∧
      IsNode (g.addFixRaw pos name).1 (g.addFixRaw pos name).2 (name, quantize pos) ∧
      (∀ i k, IsNode g i k → IsNode (g.addFixRaw pos name).1 i k) ∧
      (g.addFixRaw pos name).1.airwayIdByName = g.airwayIdByName ∧
      (g.addFixRaw pos name).1.airwayNameById = g.airwayNameById := by
    intro hnew
    refine ⟨inv_addFixRaw h pos name hnew, ?_, ?_, rfl, rfl⟩
    · rw [isNode_addFixRaw h.len]; right; exact ⟨rfl, rfl⟩
    · intro i k hk; rw [isNode_addFixRaw h.len]; left; exact hk
  unfold Graph.getOrInsertFixId
  cases hids : g.fixIdByName.get? name with
  | none =>
    refine ⟨_, _, rfl, hadd ?_⟩
    rintro i ⟨f, h1, h2, h3⟩
    obtain ⟨ids, h4, h5⟩ := h.ids_complete i _ h2
    simp [hids] at h4
  | some ids =>
    simp only
    have hv : ∀ i ∈ ids, ∃ f, g.fixes[i]? = some f := fun i hi =>
      h.exists_fix (h.ids_ok _ _ hids i hi)
    rcases findAt_spec g pos ids hv with ⟨i, hi, f, h1, h2, h3⟩ | ⟨h1, h2⟩
    · rw [h1]
      exact ⟨g, i, rfl, weaken, ⟨f, h2, h.ids_ok _ _ hids i hi, h3⟩, fun _ _ hk => hk, rfl, rfl⟩
    · rw [h1]
      refine ⟨_, _, rfl, hadd ?_⟩
      rintro i ⟨f, h4, h5, h6⟩
      obtain ⟨ids', h7, h8⟩ := h.ids_complete i _ h5
      simp only at h7
      rw [hids] at h7; cases h7
      exact h2 i h8 f h4 h6

theorem getOrInsertAirwayId_spec {g : Graph P} {reps extra} (h : Inv g reps extra) (w : Str) :
    Inv (g.getOrInsertAirwayId w).1 reps extra ∧
      (g.getOrInsertAirwayId w).1.airwayNameById[(g.getOrInsertAirwayId w).2]? = some w ∧
      (∀ i k, IsNode g i k → IsNode (g.getOrInsertAirwayId w).1 i k) := by
  unfold Graph.getOrInsertAirwayId
  cases hw : g.airwayIdByName.get? w with
  | some id => exact ⟨h, (h.awy w id).1 hw, fun _ _ hk => hk⟩
  | none =>
    simp only
    have hnm : ∀ (a : Nat) (v : Str), (g.airwayNameById ++ [w])[a]? = some v ↔
        g.airwayNameById[a]? = some v ∨ (a = g.airwayNameById.length ∧ v = w) := by
      intro a v
      rcases Nat.lt_trichotomy a g.airwayNameById.length with h2 | h2 | h2
      · rw [List.getElem?_append_left h2]
        constructor
        · exact Or.inl
        · rintro (h3 | h3)
          · exact h3
          · omega
      · subst h2; simp [eq_comm]
      · rw [List.getElem?_eq_none (by simp; omega), List.getElem?_eq_none (by omega)]
        constructor
        · intro h3; cases h3
        · rintro (h3 | h3)
          · cases h3
          · omega
    refine ⟨?_, by simp, fun _ _ hk => hk⟩
    refine { h with awy := ?_, edges_ok := ?_, sound := ?_, complete := ?_ }
    · intro v a
      simp only
      rw [Map.get?_insert, hnm]
      split
      · next hv =>
        subst hv
        constructor
        · intro h2; cases h2; right; exact ⟨rfl, rfl⟩
        · rintro (h2 | ⟨h2, _⟩)
          · rw [← h.awy, hw] at h2; cases h2
          · rw [h2]
      · next hv =>
        rw [h.awy]
        constructor
        · exact Or.inl
        · rintro (h2 | ⟨_, h2⟩)
          · exact h2
          · exact absurd h2.symm hv
    · intro i f a es hf hes
      obtain ⟨h3, h4, h5, h6⟩ := h.edges_ok i f a es hf hes
      refine ⟨h3, h4, h5, ?_⟩
      simp; omega
    · intro i a e v ka kb he hv hka hkb
      obtain ⟨f, es, h1, h2, h3⟩ := he
      have h6 := (h.edges_ok i f a es h1 h2).2.2.2
      rw [hnm] at hv
      rcases hv with hv | ⟨hv, _⟩
      · exact h.sound i a e v ka kb ⟨f, es, h1, h2, h3⟩ hv hka hkb
      · omega
    · intro r hr
      obtain ⟨i, a, e, h1, h2, h3, h4⟩ := h.complete r hr
      refine ⟨i, a, e, ?_, h2, h3, h4⟩
      simp only
      rw [Map.get?_insert]
      split
      · next hv => subst hv; rw [hw] at h1; cases h1
      · exact h1

/-! ### Merging an edge -/

theorem upsertEdge_ne_nil (es : List AirwayEdge) (n : AirwayEdge) : upsertEdge es n ≠ [] := by
  cases es with
  | nil => simp [upsertEdge]
  | cons e es => unfold upsertEdge; split <;> simp

theorem mergeEdge_to (e n : AirwayEdge) : (mergeEdge e n).to = e.to := rfl

theorem upsertEdge_to (es : List AirwayEdge) (n : AirwayEdge) :
    (upsertEdge es n).map (·.to) =
      if n.to ∈ es.map (·.to) then es.map (·.to) else es.map (·.to) ++ [n.to] := by
  induction es with
  | nil => simp [upsertEdge]
  | cons e es ih =>
    unfold upsertEdge
    by_cases h : e.to = n.to
    · simp [h, mergeEdge_to]
    · have h' : ¬ n.to = e.to := fun h2 => h h2.symm
      simp only [h, if_false, List.map_cons, List.mem_cons, h', false_or, ih]
      split <;> simp

theorem upsertEdge_nodup {es : List AirwayEdge} (h : (es.map (·.to)).Nodup) (n : AirwayEdge) :
    ((upsertEdge es n).map (·.to)).Nodup := by
  rw [upsertEdge_to]
  split
  · exact h
  · next h2 =>
    rw [List.nodup_append]
    refine ⟨h, by simp, ?_⟩
    intro a ha b hb hab
    simp only [List.mem_singleton] at hb
    rw [hab, hb] at ha; exact h2 ha

theorem mem_upsertEdge {es : List AirwayEdge} (h : (es.map (·.to)).Nodup) {n e : AirwayEdge}
    (he : e ∈ upsertEdge es n) :
    (e ∈ es ∧ e.to ≠ n.to) ∨
    (∃ e₀ ∈ es, e₀.to = n.to ∧ e = mergeEdge e₀ n) ∨
    ((∀ e₀ ∈ es, e₀.to ≠ n.to) ∧ e = n) := by
  induction es with
  | nil => right; right; simpa [upsertEdge] using he
  | cons e₁ es ih =>
    unfold upsertEdge at he
    simp only [List.map_cons, List.nodup_cons] at h
    split at he
    · next h1 =>
      rcases List.mem_cons.1 he with h2 | h2
      · right; left; exact ⟨e₁, by simp, h1, h2⟩
      · left
        refine ⟨by simp [h2], ?_⟩
        intro h3
        apply h.1
        rw [h1, ← h3]
        exact List.mem_map.2 ⟨e, h2, rfl⟩
    · next h1 =>
      rcases List.mem_cons.1 he with h2 | h2
      · left; subst h2; exact ⟨by simp, h1⟩
      · rcases ih h.2 h2 with ⟨h3, h4⟩ | ⟨e₀, h3, h4⟩ | ⟨h3, h4⟩
        · left; exact ⟨by simp [h3], h4⟩
        · right; left; exact ⟨e₀, by simp [h3], h4⟩
        · right; right
          refine ⟨?_, h4⟩
          intro e₀ he₀
          rcases List.mem_cons.1 he₀ with h5 | h5
          · subst h5; exact h1
          · exact h3 e₀ h5

theorem isLeast_congr {o : Option Nat} {p q : Nat → Prop} (h : IsLeast o p)
    (hpq : ∀ n, p n ↔ q n) : IsLeast o q := by
  unfold IsLeast at *
  split at h
  · intro n hn; exact h n ((hpq n).2 hn)
  · exact ⟨(hpq _).1 h.1, fun n hn => h.2 n ((hpq n).2 hn)⟩

theorem isLeast_mergeMin {o x : Option Nat} {p : Nat → Prop} (h : IsLeast o p) :
    IsLeast (mergeMin o x) (fun n => p n ∨ x = some n) := by
  cases o with
  | none =>
    cases x with
    | none => simpa [mergeMin, IsLeast] using h
    | some b =>
      simp only [IsLeast, mergeMin] at *
      refine ⟨Or.inr (by trivial), ?_⟩
      rintro n (hn | hn)
      · exact absurd hn (h n)
      · cases hn; exact Nat.le_refl _
  | some a =>
    cases x with
    | none => simpa [mergeMin, IsLeast] using h
    | some b =>
      simp only [IsLeast, mergeMin] at *
      refine ⟨?_, ?_⟩
      · by_cases hab : a ≤ b
        · left; rw [Nat.min_eq_left hab]; exact h.1
        · right; rw [Nat.min_eq_right (by omega)]
      · rintro n (hn | hn)
        · have := h.2 n hn; omega
        · cases hn; exact Nat.min_le_right _ _

theorem repFor_append (reps : List Rep) (r₀ : Rep) (w : Str) (a b : Key) (r : Rep) :
    RepFor (reps ++ [r₀]) w a b r ↔
      RepFor reps w a b r ∨ (r = r₀ ∧ r₀.w = w ∧ r₀.a = a ∧ r₀.b = b) := by
  unfold RepFor
  rw [List.mem_append, List.mem_singleton]
  constructor
  · rintro ⟨h1 | h1, h2⟩
    · exact Or.inl ⟨h1, h2⟩
    · subst h1; exact Or.inr ⟨rfl, h2⟩
  · rintro (⟨h1, h2⟩ | ⟨h1, h2⟩)
    · exact ⟨Or.inl h1, h2⟩
    · subst h1; exact ⟨Or.inr rfl, h2⟩

theorem EdgeAgrees.append_other {reps : List Rep} {w a b e} (h : EdgeAgrees reps w a b e)
    (r₀ : Rep) (hne : ¬ (r₀.w = w ∧ r₀.a = a ∧ r₀.b = b)) :
    EdgeAgrees (reps ++ [r₀]) w a b e := by
  have hR : ∀ r, RepFor (reps ++ [r₀]) w a b r ↔ RepFor reps w a b r := by
    intro r; rw [repFor_append]
    constructor
    · rintro (h1 | h1)
      · exact h1
      · exact absurd h1.2 hne
    · exact Or.inl
  refine ⟨?_, ?_, ?_⟩
  · obtain ⟨r, hr⟩ := h.ex; exact ⟨r, (hR r).2 hr⟩
  · rw [h.valid]; exact exists_congr fun r => by rw [hR]
  · exact isLeast_congr h.min fun n => exists_congr fun r => by rw [hR]

theorem EdgeAgrees.append_merge {reps : List Rep} {w a b e} (h : EdgeAgrees reps w a b e)
    (n : AirwayEdge) :
    EdgeAgrees (reps ++ [⟨w, a, b, n.validDirection, n.minimumLevel⟩]) w a b (mergeEdge e n) := by
  refine ⟨?_, ?_, ?_⟩
  · obtain ⟨r, hr⟩ := h.ex; exact ⟨r, (repFor_append ..).2 (Or.inl hr)⟩
  · simp only [mergeEdge, Bool.or_eq_true, h.valid]
    constructor
    · rintro (⟨r, h1, h2⟩ | h1)
      · exact ⟨r, (repFor_append ..).2 (Or.inl h1), h2⟩
      · exact ⟨_, (repFor_append ..).2 (Or.inr ⟨rfl, rfl, rfl, rfl⟩), h1⟩
    · rintro ⟨r, h1, h2⟩
      rcases (repFor_append ..).1 h1 with h1 | ⟨rfl, _⟩
      · exact Or.inl ⟨r, h1, h2⟩
      · exact Or.inr h2
  · refine isLeast_congr (isLeast_mergeMin (x := n.minimumLevel) h.min) ?_
    intro m
    constructor
    · rintro (⟨r, h1, h2⟩ | h1)
      · exact ⟨r, (repFor_append ..).2 (Or.inl h1), h2⟩
      · exact ⟨_, (repFor_append ..).2 (Or.inr ⟨rfl, rfl, rfl, rfl⟩), h1⟩
    · rintro ⟨r, h1, h2⟩
      rcases (repFor_append ..).1 h1 with h1 | ⟨rfl, _⟩
      · exact Or.inl ⟨r, h1, h2⟩
      · exact Or.inr h2

theorem edgeAgrees_first {reps : List Rep} {w a b} (h : ∀ r, ¬ RepFor reps w a b r)
    (n : AirwayEdge) :
    EdgeAgrees (reps ++ [⟨w, a, b, n.validDirection, n.minimumLevel⟩]) w a b n := by
  have hR : ∀ r, RepFor (reps ++ [⟨w, a, b, n.validDirection, n.minimumLevel⟩]) w a b r ↔
      r = ⟨w, a, b, n.validDirection, n.minimumLevel⟩ := by
    intro r; rw [repFor_append]
    constructor
    · rintro (h1 | h1)
      · exact absurd h1 (h r)
      · exact h1.1
    · intro h1; exact Or.inr ⟨h1, rfl, rfl, rfl⟩
  refine ⟨⟨_, (hR _).2 rfl⟩, ?_, ?_⟩
  · constructor
    · intro h1; exact ⟨_, (hR _).2 rfl, h1⟩
    · rintro ⟨r, h1, h2⟩; rw [(hR r).1 h1] at h2; exact h2
  · cases hm : n.minimumLevel with
    | none =>
      simp only [IsLeast]
      rintro m ⟨r, h1, h2⟩
      rw [← hm, hR] at h1
      subst h1; simp [hm] at h2
    | some m =>
      simp only [IsLeast]
      rw [← hm]
      refine ⟨⟨_, (hR _).2 rfl, rfl⟩, ?_⟩
      rintro m' ⟨r, h1, h2⟩
      rw [hR] at h1
      subst h1; simp only [hm] at h2; cases h2; exact Nat.le_refl _

theorem insertOrUpdateEdge_spec {g : Graph P} {reps extra} (h : Inv g reps extra)
    {i a : Nat} {n : AirwayEdge} {w : Str} {ka kb : Key} (hi : IsNode g i ka)
    (hto : IsNode g n.to kb) (ha : g.airwayNameById[a]? = some w) :
    ∃ g', g.insertOrUpdateEdge i a n = .ok g' ∧
      Inv g' (reps ++ [⟨w, ka, kb, n.validDirection, n.minimumLevel⟩]) extra ∧
      (∀ j k, IsNode g j k → IsNode g' j k) ∧
      g'.airwayNameById = g.airwayNameById := by
  obtain ⟨f, hf, hname, hpos⟩ := id hi
  have hilt := hi.lt
  let es := (f.edges.get? a).getD []
  let f' : GraphFix P := { f with edges := f.edges.insert a (upsertEdge es n) }
  let g' : Graph P := { g with fixes := g.fixes.set i f' }
  have hrun : g.insertOrUpdateEdge i a n = .ok g' := by
    simp [Graph.insertOrUpdateEdge, Graph.fixAt, hf, g', f', es]
  have hfix : ∀ j, g'.fixes[j]? = if i = j then some f' else g.fixes[j]? := by
    intro j
    simp only [g', List.getElem?_set]
    split
    · next h1 => subst h1; simp
    · rfl
  have hN : ∀ j k, IsNode g' j k ↔ IsNode g j k := by
    intro j k
    unfold IsNode FixAt
    rw [hfix]
    split
    · next h1 =>
      subst h1
      constructor
      · rintro ⟨x, h2, h3, h4⟩; cases h2; exact ⟨f, hf, h3, h4⟩
      · rintro ⟨x, h2, h3, h4⟩
        rw [hf] at h2; cases h2
        exact ⟨f', rfl, h3, h4⟩
    · exact Iff.rfl
  have hesnd : (es.map (·.to)).Nodup := by
    simp only [es]
    cases hes : f.edges.get? a with
    | none => simp
    | some l => simpa using (h.edges_ok i f a l hf hes).2.1
  have hesIn : ∀ e ∈ es, EdgeIn g i a e := by
    intro e he
    simp only [es] at he
    cases hes : f.edges.get? a with
    | none => simp [hes] at he
    | some l => simp only [hes, Option.getD_some] at he; exact ⟨f, l, hf, hes, he⟩
  have hEdge : ∀ j b e, EdgeIn g' j b e ↔
      if j = i ∧ b = a then e ∈ upsertEdge es n else EdgeIn g j b e := by
    intro j b e
    unfold EdgeIn
    rw [hfix]
    by_cases hj : i = j
    · subst hj
      simp only [if_true, true_and]
      by_cases hb : b = a
      · subst hb
        simp only [if_true]
        constructor
        · rintro ⟨x, l, h1, h2, h3⟩
          cases h1; simp [f'] at h2; subst h2; exact h3
        · intro h1; exact ⟨f', _, rfl, by simp [f'], h1⟩
      · have hb' : a ≠ b := fun h1 => hb h1.symm
        simp only [hb, if_false]
        constructor
        · rintro ⟨x, l, h1, h2, h3⟩
          cases h1
          rw [show f'.edges.get? b = f.edges.get? b from Map.get?_insert_ne _ _ hb'] at h2
          exact ⟨f, l, hf, h2, h3⟩
        · rintro ⟨x, l, h1, h2, h3⟩
          rw [hf] at h1; cases h1
          exact ⟨f', l, rfl, by rw [← h2]; exact Map.get?_insert_ne _ _ hb', h3⟩
    · have : ¬ j = i := fun h1 => hj h1.symm
      simp [hj, this]
  have haid : g.airwayIdByName.get? w = some a := (h.awy w a).2 ha
  refine ⟨g', hrun, ?_, fun j k hk => (hN j k).2 hk, rfl⟩
  refine ⟨?_, h.ids_ok, h.ids_nodup, h.ids_complete, ?_, h.awy, ?_, ?_, ?_, ?_⟩
  · simp [g', h.len]
  · intro x y k hx hy; rw [hN] at hx hy; exact h.node_inj x y k hx hy
  · intro j x b l hj hl
    have hlen : g'.fixes.length = g.fixes.length := by simp [g']
    rw [hfix] at hj
    rw [hlen]
    split at hj
    · next h1 =>
      subst h1; cases hj
      simp only [f', Map.get?_insert] at hl
      split at hl
      · next hb =>
        subst hb; cases hl
        refine ⟨upsertEdge_ne_nil _ _, upsertEdge_nodup hesnd _, ?_, ?_⟩
        · intro e he
          rcases mem_upsertEdge hesnd he with ⟨h2, _⟩ | ⟨e₀, h2, h3, h4⟩ | ⟨_, h2⟩
          · obtain ⟨x, l, h3, h4, h5⟩ := hesIn e h2
            exact (h.edges_ok _ _ _ _ h3 h4).2.2.1 e h5
          · subst h4; rw [mergeEdge_to, h3]; exact hto.lt
          · subst h2; exact hto.lt
        · rcases Nat.lt_or_ge a g.airwayNameById.length with h2 | h2
          · exact h2
          · rw [List.getElem?_eq_none h2] at ha; cases ha
      · exact h.edges_ok i f b l hf hl
    · exact h.edges_ok j x b l hj hl
  · intro j b e v kj kt he hv hkj hkt
    rw [hN] at hkj hkt
    rw [hEdge] at he
    split at he
    · next h1 =>
      obtain ⟨rfl, rfl⟩ := h1
      have hkeq := hkj.unique hi
      have hveq : v = w := by
        have : some v = some w := hv.symm.trans ha
        exact Option.some.inj this
      subst hkeq; subst hveq
      rcases mem_upsertEdge hesnd he with ⟨h2, h3⟩ | ⟨e₀, h2, h3, h4⟩ | ⟨h2, h3⟩
      · refine (h.sound _ _ e v kj kt (hesIn e h2) ha hkj hkt).append_other _ ?_
        rintro ⟨_, _, h4⟩
        simp only at h4; subst h4
        exact h3 (h.node_inj _ _ _ hkt hto)
      · subst h4
        rw [mergeEdge_to, h3] at hkt
        have := hkt.unique hto; subst this
        exact (h.sound _ _ e₀ v kj kt (hesIn e₀ h2) ha hkj (by rw [h3]; exact hto)).append_merge n
      · subst h3
        have := hkt.unique hto; subst this
        refine edgeAgrees_first ?_ e
        rintro r ⟨hr, rfl, hra, hrb⟩
        obtain ⟨j', a', e', h4, h5, h6, h7⟩ := h.complete r hr
        rw [haid] at h4; cases h4
        have hj' : j' = j := h.node_inj _ _ _ h5 (hra ▸ hi)
        subst hj'
        obtain ⟨x, l, h8, h9, h10⟩ := h7
        rw [hf] at h8; cases h8
        refine h2 e' (by simp [es, h9, h10]) ?_
        exact h.node_inj _ _ _ h6 (hrb ▸ hto)
    · next h1 =>
      refine (h.sound _ _ e v kj kt he hv hkj hkt).append_other _ ?_
      rintro ⟨h2, h3, _⟩
      simp only at h2 h3
      subst h2; subst h3
      apply h1
      refine ⟨h.node_inj _ _ _ hkj hi, ?_⟩
      have h4 := (h.awy w b).2 hv
      rw [haid] at h4; exact (Option.some.inj h4).symm
  · intro r hr
    have newEdge : ∃ e, e ∈ upsertEdge es n ∧ e.to = n.to := by
      have : n.to ∈ (upsertEdge es n).map (·.to) := by
        rw [upsertEdge_to]; split
        · assumption
        · simp
      obtain ⟨e, h1, h2⟩ := List.mem_map.1 this
      exact ⟨e, h1, h2⟩
    rcases List.mem_append.1 hr with hr | hr
    · obtain ⟨j, b, e, h1, h2, h3, h4⟩ := h.complete r hr
      by_cases hjb : j = i ∧ b = a
      · obtain ⟨rfl, rfl⟩ := hjb
        by_cases hetn : e.to = n.to
        · obtain ⟨e', h5, h6⟩ := newEdge
          refine ⟨_, _, e', h1, (hN _ _).2 h2, ?_, ?_⟩
          · rw [hN, h6, ← hetn]; exact h3
          · rw [hEdge]; simp [h5]
        · have : e ∈ es := by
            obtain ⟨x, l, h5, h6, h7⟩ := h4
            rw [hf] at h5; cases h5; simp [es, h6, h7]
          have : e.to ∈ (upsertEdge es n).map (·.to) := by
            rw [upsertEdge_to]
            have h8 : e.to ∈ es.map (·.to) := List.mem_map.2 ⟨e, this, rfl⟩
            split
            · exact h8
            · simp only [List.mem_append]; exact Or.inl h8
          obtain ⟨e', h5, h6⟩ := List.mem_map.1 this
          refine ⟨_, _, e', h1, (hN _ _).2 h2, ?_, ?_⟩
          · rw [hN, h6]; exact h3
          · rw [hEdge]; simp [h5]
      · exact ⟨j, b, e, h1, (hN _ _).2 h2, (hN _ _).2 h3, by rw [hEdge]; simp [hjb, h4]⟩
    · simp only [List.mem_singleton] at hr
      subst hr
      obtain ⟨e', h5, h6⟩ := newEdge
      refine ⟨i, a, e', haid, (hN _ _).2 hi, ?_, ?_⟩
      · rw [hN, h6]; exact hto
      · rw [hEdge]; simp [h5]
  · intro j k hk
    rw [hN] at hk
    rcases h.nodes j k hk with h2 | ⟨r, h2, h3⟩
    · exact Or.inl h2
    · exact Or.inr ⟨r, by simp [h2], h3⟩

/-- The two directed reports of a segment. -/
def repsOf (s : Segment P) : List Rep :=
  [⟨s.airway, src s, dst s, s.segment.validDirection, s.segment.minimumLevel⟩,
   ⟨s.airway, dst s, src s, false, s.segment.minimumLevel⟩]

theorem insertOrUpdateSegment_spec {g : Graph P} {reps} (h : Inv g reps []) (s : Segment P) :
    ∃ g', g.insertOrUpdateSegment s = .ok g' ∧ Inv g' (reps ++ repsOf s) [] := by
  obtain ⟨g₁, i, e₁, I₁, n₁, _, _, _⟩ := getOrInsertFixId_spec h s.fromPos s.fromName
  obtain ⟨g₂, j, e₂, I₂, n₂, p₂, _, _⟩ :=
    getOrInsertFixId_spec I₁ s.segment.fix.coordinate s.segment.fix.designator
  have n₁' := p₂ _ _ n₁
  obtain ⟨I₃, w₃, p₃⟩ := getOrInsertAirwayId_spec I₂ s.airway
  have m₁ := p₃ _ _ n₁'
  have m₂ := p₃ _ _ n₂
  obtain ⟨g₄, e₄, I₄, p₄, q₄⟩ := insertOrUpdateEdge_spec I₃ (i := i)
    (a := (g₂.getOrInsertAirwayId s.airway).2)
    (n := ⟨j, s.segment.validDirection, s.segment.minimumLevel, none, s.airwayType⟩) m₁ m₂ w₃
  obtain ⟨g₅, e₅, I₅, _, _⟩ := insertOrUpdateEdge_spec I₄ (i := j)
    (a := (g₂.getOrInsertAirwayId s.airway).2)
    (n := ⟨i, false, s.segment.minimumLevel, none, s.airwayType⟩)
    (p₄ _ _ m₂) (p₄ _ _ m₁) (by rw [q₄]; exact w₃)
  refine ⟨g₅, ?_, ?_⟩
  · unfold Graph.insertOrUpdateSegment
    rw [e₁]; simp only [run_ok_bind]
    rw [e₂]; simp only [run_ok_bind]
    rw [e₄]; simp only [run_ok_bind]
    exact e₅
  · have hreps : reps ++ repsOf s = reps ++
        [⟨s.airway, src s, dst s, s.segment.validDirection, s.segment.minimumLevel⟩] ++
        [⟨s.airway, dst s, src s, false, s.segment.minimumLevel⟩] := by simp [repsOf]
    rw [hreps]
    refine { I₅ with nodes := ?_ }
    intro x k hk
    rcases I₅.nodes x k hk with h2 | h2
    · right
      simp only [List.mem_cons, List.not_mem_nil, or_false] at h2
      rcases h2 with h2 | h2
      · subst h2
        exact ⟨⟨s.airway, dst s, src s, false, s.segment.minimumLevel⟩, by simp, rfl⟩
      · subst h2
        exact ⟨⟨s.airway, src s, dst s, s.segment.validDirection, s.segment.minimumLevel⟩,
          by simp, rfl⟩
    · exact Or.inr h2

theorem foldlM_spec {g : Graph P} {reps} (h : Inv g reps []) (segs : List (Segment P)) :
    ∃ g', segs.foldlM (fun g s => g.insertOrUpdateSegment s) g = Except.ok (ε := Fault) g' ∧
      Inv g' (reps ++ segs.flatMap repsOf) [] := by
  induction segs generalizing g reps with
  | nil => exact ⟨g, rfl, by simpa using h⟩
  | cons s segs ih =>
    obtain ⟨g₁, e₁, I₁⟩ := insertOrUpdateSegment_spec h s
    obtain ⟨g₂, e₂, I₂⟩ := ih I₁
    refine ⟨g₂, ?_, ?_⟩
    · simp only [List.foldlM_cons, e₁, run_ok_bind, e₂]
    · simpa [List.append_assoc] using I₂

theorem build_spec (segs : List (Segment P)) :
    ∃ g, build segs = .ok g ∧ Inv g (segs.flatMap repsOf) [] := by
  simpa [build] using foldlM_spec (inv_empty (P := P)) segs

theorem build_inv {segs : List (Segment P)} {g : Graph P} (h : build segs = .ok g) :
    Inv g (segs.flatMap repsOf) [] := by
  obtain ⟨g', h1, h2⟩ := build_spec segs
  rw [h] at h1; cases h1; exact h2

/-! ### From reports back to segments -/

theorem repFor_iff (segs : List (Segment P)) (w : Str) (a b : Key) (r : Rep) :
    RepFor (segs.flatMap repsOf) w a b r ↔
      ∃ s ∈ segs, (Reports s w a b ∧ r = ⟨w, a, b, s.segment.validDirection, s.segment.minimumLevel⟩)
        ∨ (Reports s w b a ∧ r = ⟨w, a, b, false, s.segment.minimumLevel⟩) := by
  unfold RepFor
  rw [List.mem_flatMap]
  constructor
  · rintro ⟨⟨s, hs, hr⟩, rfl, rfl, rfl⟩
    refine ⟨s, hs, ?_⟩
    simp only [repsOf, List.mem_cons, List.not_mem_nil, or_false] at hr
    rcases hr with hr | hr
    · left; subst hr; exact ⟨⟨rfl, rfl, rfl⟩, rfl⟩
    · right; subst hr; exact ⟨⟨rfl, rfl, rfl⟩, rfl⟩
  · rintro ⟨s, hs, ⟨⟨rfl, rfl, rfl⟩, rfl⟩ | ⟨⟨rfl, rfl, rfl⟩, rfl⟩⟩
    · exact ⟨⟨s, hs, by simp [repsOf]⟩, rfl, rfl, rfl⟩
    · exact ⟨⟨s, hs, by simp [repsOf]⟩, rfl, rfl, rfl⟩

theorem exists_repFor_iff (segs : List (Segment P)) (w : Str) (a b : Key) :
    (∃ r, RepFor (segs.flatMap repsOf) w a b r) ↔ Adjacent segs w a b := by
  constructor
  · rintro ⟨r, hr⟩
    obtain ⟨s, hs, h | h⟩ := (repFor_iff ..).1 hr
    · exact ⟨s, hs, Or.inl h.1⟩
    · exact ⟨s, hs, Or.inr h.1⟩
  · rintro ⟨s, hs, h | h⟩
    · exact ⟨_, (repFor_iff ..).2 ⟨s, hs, Or.inl ⟨h, rfl⟩⟩⟩
    · exact ⟨_, (repFor_iff ..).2 ⟨s, hs, Or.inr ⟨h, rfl⟩⟩⟩

theorem edgeAgrees_iff (segs : List (Segment P)) (w : Str) (a b : Key) (e : AirwayEdge)
    (h : EdgeAgrees (segs.flatMap repsOf) w a b e) :
    Adjacent segs w a b ∧ (e.validDirection = true ↔ Flyable segs w a b) ∧
      IsLeast e.minimumLevel (LevelReported segs w a b) := by
  refine ⟨(exists_repFor_iff ..).1 h.ex, ?_, ?_⟩
  · rw [h.valid]
    constructor
    · rintro ⟨r, hr, hv⟩
      obtain ⟨s, hs, h1 | h1⟩ := (repFor_iff ..).1 hr
      · exact ⟨s, hs, h1.1, by rw [h1.2] at hv; exact hv⟩
      · rw [h1.2] at hv; cases hv
    · rintro ⟨s, hs, h1, hv⟩
      exact ⟨_, (repFor_iff ..).2 ⟨s, hs, Or.inl ⟨h1, rfl⟩⟩, hv⟩
  · refine isLeast_congr h.min ?_
    intro n
    constructor
    · rintro ⟨r, hr, hv⟩
      obtain ⟨s, hs, h1 | h1⟩ := (repFor_iff ..).1 hr
      · exact ⟨s, hs, Or.inl h1.1, by rw [h1.2] at hv; exact hv⟩
      · exact ⟨s, hs, Or.inr h1.1, by rw [h1.2] at hv; exact hv⟩
    · rintro ⟨s, hs, h1 | h1, hv⟩
      · exact ⟨_, (repFor_iff ..).2 ⟨s, hs, Or.inl ⟨h1, rfl⟩⟩, hv⟩
      · exact ⟨_, (repFor_iff ..).2 ⟨s, hs, Or.inr ⟨h1, rfl⟩⟩, hv⟩

theorem adjacent_symm {segs : List (Segment P)} {w : Str} {a b : Key}
    (h : Adjacent segs w a b) : Adjacent segs w b a := by
  obtain ⟨s, hs, h⟩ := h; exact ⟨s, hs, h.symm⟩

end Verif.AirwayGraph
