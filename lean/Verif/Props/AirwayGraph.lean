import Verif.Proofs.AirwayChain
import Verif.Base.Lit
/-!
# Property theorems: airway graph (C09 - C14)

`build segs` is the graph after the insertions `segs`; see `Verif/Spec/AirwayGraph.lean` for the
vocabulary (`Adjacent`, `Flyable`, `LevelReported`, `PathFrom`, …), which only mentions the inserted
segments.
-/

namespace Verif.AirwayGraph
set_option linter.unusedSectionVars false
open Spec
variable {P : Type} [Quantize P]

/-- C09: inserting segments never panics. -/
theorem C09_build_total (segs : List (Segment P)) : ∃ g, build segs = .ok g := by
  obtain ⟨g, h, _⟩ := build_spec segs
  exact ⟨g, h⟩

/-- C09: ids, names and positions are consistent after any sequence of insertions. -/
theorem C09_consistent (segs : List (Segment P)) (g : Graph P) (h : build segs = .ok g) :
    -- one name per fix
    g.fixNameById.length = g.fixes.length ∧
    -- ids listed under a name are distinct, valid and carry the name
    (∀ n ids, g.fixIdByName.get? n = some ids →
      ids.Nodup ∧ ∀ i ∈ ids, i < g.fixes.length ∧ g.fixNameById[i]? = some n) ∧
    -- every fix is listed under its name
    (∀ i n, g.fixNameById[i]? = some n → ∃ ids, g.fixIdByName.get? n = some ids ∧ i ∈ ids) ∧
    -- no two fixes share name and quantised position
    (∀ i j k, FixAt g i k → FixAt g j k → i = j) ∧
    -- airway names and ids correspond
    (∀ w a, g.airwayIdByName.get? w = some a ↔ g.airwayNameById[a]? = some w) ∧
    -- edges: valid airway, valid targets, one edge per target
    (∀ (i : Nat) (f : GraphFix P) (a : Nat) (es : List AirwayEdge),
      g.fixes[i]? = some f → f.edges.get? a = some es →
        a < g.airwayNameById.length ∧ (es.map (·.to)).Nodup ∧ ∀ e ∈ es, e.to < g.fixes.length) ∧
    -- the fixes are exactly the end points of the inserted segments
    (∀ k, (∃ i, FixAt g i k) ↔ ∃ s ∈ segs, src s = k ∨ dst s = k) := by
  have R := build_rel h
  refine ⟨Inv.len R, ?_, Inv.ids_complete R, Inv.node_inj R, Inv.awy R, ?_, ?_⟩
  · intro n ids hids
    refine ⟨Inv.ids_nodup R n ids hids, ?_⟩
    intro i hi
    have hn := Inv.ids_ok R n ids hids i hi
    refine ⟨?_, hn⟩
    obtain ⟨f, hf⟩ := Inv.exists_fix R hn
    exact (show FixAt g i (n, quantize f.position) from ⟨f, hf, hn, rfl⟩).lt
  · intro i f a es hf hes
    obtain ⟨_, h2, h3, h4⟩ := Inv.edges_ok R i f a es hf hes
    exact ⟨h4, h2, h3⟩
  · intro k
    rw [← known_iff R k]
    constructor
    · rintro ⟨w, b, s, hs, ⟨_, h1, _⟩ | ⟨_, _, h1⟩⟩
      · exact ⟨s, hs, Or.inl h1⟩
      · exact ⟨s, hs, Or.inr h1⟩
    · rintro ⟨s, hs, rfl | rfl⟩
      · exact ⟨s.airway, dst s, s, hs, Or.inl ⟨rfl, rfl, rfl⟩⟩
      · exact ⟨s.airway, src s, s, hs, Or.inr ⟨rfl, rfl, rfl⟩⟩

/-- C10: two fixes are joined by an edge of an airway exactly if some inserted segment joined them
on that airway, in either direction. -/
theorem C10_edge_iff (segs : List (Segment P)) (g : Graph P) (h : build segs = .ok g)
    (w : Str) (a b : Key) : (∃ e, HasEdge g w a b e) ↔ Adjacent segs w a b := by
  have R := build_rel h
  constructor
  · rintro ⟨e, i, f, awy, es, h1, h2, h3, h4, h5, h6⟩
    exact (edge_leg R ⟨f, es, h2, h4, h5⟩ ((Inv.awy R w awy).1 h3) h1 h6).1
  · intro hadj
    obtain ⟨r, hr⟩ := (exists_repFor_iff segs w a b).2 hadj
    obtain ⟨i, awy, e, h1, h2, h3, f, es, h4, h5, h6⟩ := Inv.complete R r hr.1
    rw [hr.2.1] at h1
    rw [hr.2.2.1] at h2
    rw [hr.2.2.2] at h3
    exact ⟨e, i, f, awy, es, h2, h4, h1, h5, h6, h3⟩

/-- C10: there is at most one edge between two fixes per airway and direction. -/
theorem C10_edge_unique (segs : List (Segment P)) (g : Graph P) (h : build segs = .ok g)
    (w : Str) (a b : Key) (e e' : AirwayEdge) (he : HasEdge g w a b e) (he' : HasEdge g w a b e') :
    e = e' := by
  have R := build_rel h
  obtain ⟨i, f, awy, es, h1, h2, h3, h4, h5, h6⟩ := he
  obtain ⟨i', f', awy', es', h1', h2', h3', h4', h5', h6'⟩ := he'
  have hi : i' = i := Inv.node_inj R _ _ _ h1' h1
  subst hi
  rw [h2] at h2'; cases h2'
  rw [h3] at h3'; cases h3'
  rw [h4] at h4'; cases h4'
  have hto : e.to = e'.to := Inv.node_inj R _ _ _ h6 h6'
  have hnd := (Inv.edges_ok R _ f awy es h2 h4).2.1
  clear h4 h6 h6' h1 h1' h2
  induction es with
  | nil => simp at h5
  | cons x es ih =>
    simp only [List.map_cons, List.nodup_cons] at hnd
    rcases List.mem_cons.1 h5 with rfl | hm
    · rcases List.mem_cons.1 h5' with hm' | hm'
      · exact hm'.symm
      · exact absurd (List.mem_map.2 ⟨e', hm', hto.symm⟩) hnd.1
    · rcases List.mem_cons.1 h5' with rfl | hm'
      · exact absurd (List.mem_map.2 ⟨e, hm, hto⟩ : e'.to ∈ es.map (·.to)) hnd.1
      · exact ih hm hm' hnd.2

/-- C11: an edge is flyable exactly if some segment reported in its direction was, and its minimum
level is the least one reported for the pair in either direction. -/
theorem C11_aggregate (segs : List (Segment P)) (g : Graph P) (h : build segs = .ok g)
    (w : Str) (a b : Key) (e : AirwayEdge) (he : HasEdge g w a b e) :
    (e.validDirection = true ↔ Flyable segs w a b) ∧
      IsLeast e.minimumLevel (LevelReported segs w a b) := by
  have R := build_rel h
  obtain ⟨i, f, awy, es, h1, h2, h3, h4, h5, h6⟩ := he
  exact (edge_leg R ⟨f, es, h2, h4, h5⟩ ((Inv.awy R w awy).1 h3) h1 h6).2

/-- What `expand` does, as a case distinction (helper). -/
theorem expand_cases {segs : List (Segment P)} {g : Graph P} (R : Rel segs g) (start : Fix P)
    (endName w : Str) (isInternal : Str → P → Bool) :
    g.expand start endName w isInternal = .ok none ∨
    ∃ awy startId ks endId ke f es, g.airwayNameById[awy]? = some w ∧
      FixAt g startId ks ∧ StartResolves segs w start ks ∧
      FixAt g endId ke ∧ ke.1 = endName ∧ OnAirway segs w ke ∧
      g.fixes[startId]? = some f ∧ f.edges.get? awy = some es ∧
      g.expand start endName w isInternal = g.tryEdges isInternal startId endId awy es := by
  unfold Graph.expand
  cases haw : g.airwayIdByName.get? w with
  | none => left; rfl
  | some awy =>
    have hw := (Inv.awy R w awy).1 haw
    simp only
    have hres : (∃ startId ks, FixAt g startId ks ∧ ks.1 = start.designator ∧
        (ks.2 = quantize start.coordinate ∨
          ¬ Known segs (start.designator, quantize start.coordinate)) ∧
        g.resolveStart start awy =
          .ok (some startId)) ∨
        g.resolveStart start awy = .ok none := by
      rcases findFixId_spec R start with ⟨i, h1, h2⟩ | ⟨h1, h2⟩
      · left; exact ⟨i, _, h2, rfl, Or.inl rfl, by simp [Graph.resolveStart, h1]⟩
      · rcases findFixOnAirway_spec R hw start.designator with ⟨i, k, h3, h4, h5, _⟩ | ⟨h3, _⟩
        · left; exact ⟨i, k, h4, h5, Or.inr h2, by simp [Graph.resolveStart, h1, h3]⟩
        · right; simp [Graph.resolveStart, h1, h3]
    rcases hres with ⟨startId, ks, hs, hs1, hs2, hrun⟩ | hrun
    · rw [hrun]
      simp only [run_ok_bind]
      obtain ⟨f, hf, _, _⟩ := id hs
      have hon : g.isFixIdOnAirway startId awy = .ok (f.edges.contains awy) := by
        simp [Graph.isFixIdOnAirway, Graph.fixAt, hf]
      rw [hon]
      simp only [run_ok_bind]
      cases hc : f.edges.contains awy with
      | false => left; simp
      | true =>
        have hons := (onAirway_iff R hw hs).2 ((contains_iff R hf).1 hc)
        simp only [Bool.not_true, Bool.false_eq_true, if_false]
        rcases findFixOnAirway_spec R hw endName with ⟨j, ke, h3, h4, h5, h6⟩ | ⟨h3, _⟩
        · rw [h3]
          simp only [run_ok_bind, Graph.fixAt, hf, unwrap_some]
          cases hes : f.edges.get? awy with
          | none => left; rfl
          | some es =>
            simp only
            by_cases hlen : es.length > 2
            · left; simp [hlen]
            · right
              exact ⟨awy, startId, ks, j, ke, f, es, hw, hs, ⟨hons, hs1, hs2⟩, h4, h5, h6, hf, hes,
                by simp [hlen]⟩
        · rw [h3]; left; rfl
    · rw [hrun]; left; rfl

/-- C14: expansion returns (it neither panics nor loops) on every graph and for every query. -/
theorem C14_expand_total (segs : List (Segment P)) (g : Graph P) (h : build segs = .ok g)
    (start : Fix P) (endName w : Str) (isInternal : Str → P → Bool) :
    ∃ r, g.expand start endName w isInternal = .ok r := by
  have R := build_rel h
  rcases expand_cases R start endName w isInternal with h1 |
    ⟨awy, i, ks, j, ke, f, es, hw, hs, _, hend, _, _, hf, hes, hrun⟩
  · exact ⟨_, h1⟩
  · rw [hrun]
    rcases tryEdges_spec R isInternal hw hs hend es
      (fun e he => ⟨f, es, hf, hes, he⟩) with h2 | ⟨out, h2, _⟩
    · exact ⟨_, h2⟩
    · exact ⟨_, h2⟩

/-- C12: a returned expansion is a real path along the airway. -/
theorem C12_expand_sound (segs : List (Segment P)) (g : Graph P) (h : build segs = .ok g)
    (start : Fix P) (endName w : Str) (isInternal : Str → P → Bool)
    (out : List (AirwayFix P × Bool))
    (hrun : g.expand start endName w isInternal = .ok (some out)) :
    ∃ k, StartResolves segs w start k ∧
      -- consecutive fixes are neighbours; direction flag and level are those of the leg
      PathFrom segs w k (out.map (·.1)) ∧
      -- it ends at a fix of the requested name
      (∃ x, out.getLast? = some x ∧ x.1.fix.designator = endName) ∧
      -- it never turns straight back
      NoTurnBack (k :: out.map (fun x => keyOf x.1)) ∧
      -- it visits at most as many fixes as there are
      out.length ≤ g.fixes.length ∧
      -- the flag of each element says whether the fix is a nav element of the data base
      (∀ x ∈ out, x.2 = isInternal x.1.fix.designator x.1.fix.coordinate) := by
  have R := build_rel h
  rcases expand_cases R start endName w isInternal with h1 |
    ⟨awy, i, ks, j, ke, f, es, hw, hs, hres, hend, hke, _, hf, hes, hrun'⟩
  · rw [h1] at hrun; cases hrun
  · rw [hrun'] at hrun
    rcases tryEdges_spec R isInternal hw hs hend es
      (fun e he => ⟨f, es, hf, hes, he⟩) with h2 | ⟨out', h2, h3, h4, h5, h6, h7, h8⟩
    · rw [h2] at hrun; cases hrun
    · rw [h2] at hrun; cases hrun
      refine ⟨ks, hres, h5, ?_, h7, h4, h8⟩
      rw [List.getLast?_map] at h6
      cases hl : out.getLast? with
      | none => rw [hl] at h6; simp at h6
      | some x =>
        rw [hl] at h6
        simp only [Option.map_some, Option.some.injEq] at h6
        refine ⟨x, rfl, ?_⟩
        rw [← hke, ← h6]; rfl

/-- C13: on an airway that is a simple chain of fixes, expanding from one fix to another (in either
direction along the chain) succeeds and returns exactly the fixes in between, ending with the
requested one.

`hstart`: the start resolves to `a`.  `hend`: `b` is the only fix of the requested name on the
airway. -/
theorem C13_expand_chain (segs : List (Segment P)) (g : Graph P) (h : build segs = .ok g)
    (w : Str) (l₁ p l₂ : List Key) (a b : Key) (l : List Key)
    (hl : l = l₁ ++ a :: (p ++ b :: l₂) ∨ l.reverse = l₁ ++ a :: (p ++ b :: l₂))
    (hc : IsChain segs w l)
    (start : Fix P) (endName : Str) (isInternal : Str → P → Bool)
    (hstart : ∀ k, StartResolves segs w start k ↔ k = a)
    (hendn : b.1 = endName) (hend : ∀ k, OnAirway segs w k → k.1 = endName → k = b) :
    ∃ out, g.expand start endName w isInternal = .ok (some out) ∧
      out.map (fun x => keyOf x.1) = p ++ [b] := by
  have R := build_rel h
  -- without loss of generality the chain runs from `a` to `b`
  have hc' : IsChain segs w (l₁ ++ a :: (p ++ b :: l₂)) := by
    rcases hl with hl | hl
    · rw [← hl]; exact hc
    · rw [← hl]; exact isChain_reverse hc
  clear hc hl l
  have hbcons : ∃ x, Adjacent segs w b x := by
    cases hp : p.getLast? with
    | none =>
      have : p = [] := by simpa using hp
      subst this
      exact ⟨a, (hc'.adjacent_iff _ _).2 (Or.inr ⟨l₁, l₂, rfl⟩)⟩
    | some x =>
      obtain ⟨p', rfl⟩ := List.getLast?_eq_some_iff.1 hp
      exact ⟨x, (hc'.adjacent_iff _ _).2 (Or.inr ⟨l₁ ++ a :: p', l₂, by simp⟩)⟩
  have hbOn : OnAirway segs w b := hbcons
  have haRes := (hstart a).2 rfl
  have haOn : OnAirway segs w a := haRes.1
  obtain ⟨awy, haw⟩ : ∃ awy, g.airwayIdByName.get? w = some awy := by
    obtain ⟨x, hx⟩ := haOn
    obtain ⟨r, hr⟩ := (exists_repFor_iff segs w a x).2 hx
    obtain ⟨i, awy, e, h1, _⟩ := Inv.complete R r hr.1
    rw [hr.2.1] at h1; exact ⟨awy, h1⟩
  have hw := (Inv.awy R w awy).1 haw
  -- the end
  obtain ⟨endId, hendRun, hendNode⟩ :
      ∃ j, g.findFixOnAirway endName awy = .ok (some j) ∧ FixAt g j b := by
    rcases findFixOnAirway_spec R hw endName with ⟨j, ke, h3, h4, h5, h6⟩ | ⟨_, h4⟩
    · have := hend ke h6 h5; subst this; exact ⟨j, h3, h4⟩
    · exact absurd hendn (h4 b hbOn)
  -- the start
  obtain ⟨startId, hsRun, hsNode⟩ : ∃ i, g.resolveStart start awy = .ok (some i) ∧
      FixAt g i a := by
    rcases findFixId_spec R start with ⟨i, h1, h2⟩ | ⟨h1, h2⟩
    · refine ⟨i, by simp [Graph.resolveStart, h1], ?_⟩
      rcases haRes.2.2 with h3 | h3
      · have : a = (start.designator, quantize start.coordinate) := Prod.ext haRes.2.1 h3
        rw [this]; exact h2
      · exact absurd ((known_iff R _).2 ⟨i, h2⟩) h3
    · rcases findFixOnAirway_spec R hw start.designator with ⟨i, k, h3, h4, h5, h6⟩ | ⟨_, h3⟩
      · have := (hstart k).1 ⟨h6, h5, Or.inr h2⟩
        subst this
        exact ⟨i, by simp [Graph.resolveStart, h1, h3], h4⟩
      · exact absurd haRes.2.1 (h3 a haOn)
  obtain ⟨f, es, hf, hes, hnd, hmem⟩ := node_edges R hw hsNode haOn
  have hesIn : ∀ e ∈ es, EdgeIn g startId awy e := fun e he => ⟨f, es, hf, hes, he⟩
  -- the neighbours of the start
  have hnb : ∀ e ∈ es, ∃ x, FixAt g e.to x ∧
      ((p ++ b :: l₂).head? = some x ∨ l₁.getLast? = some x) := by
    intro e he
    obtain ⟨x, hx1, hx2⟩ := (hmem e.to).1 (List.mem_map.2 ⟨e, he, rfl⟩)
    refine ⟨x, hx1, ?_⟩
    have := (hc'.adjacent_iff a x).1 hx2
    cases hl : l₁.getLast? with
    | none =>
      have hl' : l₁ = [] := by simpa using hl
      subst hl'
      left
      exact (head_nbrs (by simpa using hc'.nodup) x).1 (by simpa using this)
    | some y =>
      obtain ⟨l', rfl⟩ := List.getLast?_eq_some_iff.1 hl
      have e1 : (l' ++ [y]) ++ a :: (p ++ b :: l₂) = l' ++ y :: a :: (p ++ b :: l₂) := by simp
      have hn' := hc'.nodup
      rw [e1] at this hn'
      rcases (chain_nbrs hn' x).1 this with h2 | h2
      · right; rw [h2]
      · left; exact h2
  have hlen2 : ¬ es.length > 2 := by
    classical
    intro hgt
    have hsub : es.map (·.to) ⊆
        (((p ++ b :: l₂).head?.toList ++ l₁.getLast?.toList).filterMap fun x =>
          (List.range g.fixes.length).find? fun i => decide (∃ f n, g.fixes[i]? = some f ∧
            g.fixNameById[i]? = some n ∧ (n, quantize f.position) = x)) := by
      intro j hj
      obtain ⟨e, he, rfl⟩ := List.mem_map.1 hj
      obtain ⟨x, hx1, hx2⟩ := hnb e he
      refine List.mem_filterMap.2 ⟨x, ?_, ?_⟩
      · rcases hx2 with h2 | h2 <;> simp [h2]
      · have hlt := hx1.lt
        cases hfd : (List.range g.fixes.length).find? fun i => decide (∃ f n, g.fixes[i]? = some f ∧
            g.fixNameById[i]? = some n ∧ (n, quantize f.position) = x) with
        | none =>
          rw [List.find?_eq_none] at hfd
          have := hfd e.to (List.mem_range.2 hlt)
          obtain ⟨f', h3, h4, h5⟩ := hx1
          simp only [decide_eq_true_eq] at this
          exact absurd ⟨f', x.1, h3, h4, by rw [h5]⟩ this
        | some i =>
          have := List.find?_some hfd
          simp only [decide_eq_true_eq] at this
          obtain ⟨f', n, h3, h4, h5⟩ := this
          have : i = e.to := Inv.node_inj R _ _ x ⟨f', h3, by rw [h4, ← h5], by rw [← h5]⟩ hx1
          rw [this]
    have h1 := Nat.le_trans (List.Nodup.length_le_of_subset hnd hsub) (List.length_filterMap_le _ _)
    have h3 : ((p ++ b :: l₂).head?.toList ++ l₁.getLast?.toList).length ≤ 2 := by
      cases (p ++ b :: l₂).head? <;> cases l₁.getLast? <;> simp
    simp only [List.length_map] at h1
    omega
  have hrun : g.expand start endName w isInternal =
      g.tryEdges isInternal startId endId awy es := by
    unfold Graph.expand
    simp only [haw]
    rw [hsRun]
    have hon : g.isFixIdOnAirway startId awy = .ok true := by
      simp [Graph.isFixIdOnAirway, Graph.fixAt, hf, Map.contains, hes]
    simp [hon, hendRun, Graph.fixAt, hf, hes, hlen2]
  rw [hrun]
  -- the length of the path is bounded by the number of fixes
  have hbound : p.length < g.fixes.length := by
    have hknown : ∀ k ∈ l₁ ++ a :: (p ++ b :: l₂), Known segs k := by
      intro k hk
      obtain ⟨s, t, hst⟩ := List.append_of_mem hk
      rw [hst] at hc'
      cases t with
      | cons y t => exact ⟨w, y, (hc'.adjacent_iff _ _).2 (Or.inl ⟨s, t, rfl⟩)⟩
      | nil =>
        cases hs : s.getLast? with
        | none =>
          have : s = [] := by simpa using hs
          subst this
          have := congrArg List.length hst
          simp at this; omega
        | some y =>
          obtain ⟨s', rfl⟩ := List.getLast?_eq_some_iff.1 hs
          exact ⟨w, y, (hc'.adjacent_iff _ _).2 (Or.inr ⟨s', [], by simp⟩)⟩
    have := nodup_known_length R hc'.nodup hknown
    simp at this; omega
  -- every edge either leads to the end or fails; one of them leads to the end
  have hgood : ∀ e ∈ es, (∃ x, FixAt g e.to x ∧ (p ++ b :: l₂).head? = some x) →
      ∃ ids, g.traverse endId awy g.fixes.length startId e = .ok (some ids) ∧
        AllNodes g (ids.map (·.1)) (p ++ [b]) := by
    rintro e he ⟨x, hx1, hx2⟩
    exact traverse_chain_some R hw hendNode p l₂ l₁ a hc' _ _ e hsNode (hesIn e he) ⟨x, hx2, hx1⟩
      hbound
  have hbad : ∀ e ∈ es, (∃ x, FixAt g e.to x ∧ l₁.getLast? = some x) →
      g.traverse endId awy g.fixes.length startId e = .ok none := by
    rintro e he ⟨x, hx1, hx2⟩
    obtain ⟨l', rfl⟩ := List.getLast?_eq_some_iff.1 hx2
    have hcr := isChain_reverse hc'
    have e1 : (l' ++ [x] ++ a :: (p ++ b :: l₂)).reverse =
        (p ++ b :: l₂).reverse ++ a :: x :: l'.reverse := by simp
    rw [e1] at hcr
    refine traverse_chain_none R hw hendNode l'.reverse _ a x hcr ?_ _ _ e hsNode (hesIn e he) hx1
    intro hb
    have hnd' := hcr.nodup
    rw [List.nodup_append] at hnd'
    refine hnd'.2.2 b (by simp) b ?_ rfl
    exact List.mem_cons_of_mem _ hb
  have hexists : ∃ e ∈ es, ∃ x, FixAt g e.to x ∧ (p ++ b :: l₂).head? = some x := by
    obtain ⟨x, hx⟩ : ∃ x, (p ++ b :: l₂).head? = some x := by cases p <;> simp
    have hadj : Adjacent segs w a x := by
      refine (hc'.adjacent_iff _ _).2 (Or.inl ?_)
      cases hq : p ++ b :: l₂ with
      | nil => simp at hq
      | cons y t => rw [hq] at hx; simp at hx; subst hx; exact ⟨l₁, t, rfl⟩
    obtain ⟨i, e, h1, h2, h3⟩ := adjacent_edge R hw hadj
    have : i = startId := Inv.node_inj R _ _ _ h1 hsNode
    subst this
    obtain ⟨f', es', h4, h5, h6⟩ := h3
    rw [hf] at h4; cases h4
    rw [hes] at h5; cases h5
    exact ⟨e, h6, x, h2, hx⟩
  clear hmem hnd hlen2 hrun hes
  induction es with
  | nil => obtain ⟨e, he, _⟩ := hexists; simp at he
  | cons e es ih =>
    obtain ⟨x, hx1, hx2⟩ := hnb e (by simp)
    by_cases hfwd : (p ++ b :: l₂).head? = some x
    · obtain ⟨ids, h1, h2⟩ := hgood e (by simp) ⟨x, hx1, hfwd⟩
      obtain hsp | ⟨ids', hsp, _, _, hwalk, _⟩ :=
        traverse_spec R endId awy g.fixes.length startId e (hesIn e (by simp))
      · rw [h1] at hsp; cases hsp
      · rw [h1] at hsp
        have heq := Option.some.inj (Except.ok.inj hsp)
        obtain ⟨out, o1, o2, o3, o4, o5⟩ := describe_walk R isInternal hw _ _ _ hsNode hwalk
        rw [← heq] at o1 o4
        refine ⟨out, ?_, allNodes_unique R _ _ _ o4 h2⟩
        simp only [Graph.tryEdges, h1, run_ok_bind, o1]
    · have hback : l₁.getLast? = some x := hx2.resolve_left hfwd
      have h1 := hbad e (by simp) ⟨x, hx1, hback⟩
      have h2 : g.tryEdges isInternal startId endId awy (e :: es) =
          g.tryEdges isInternal startId endId awy es := by simp [Graph.tryEdges, h1]
      rw [h2]
      refine ih (fun e' he' => hesIn e' (by simp [he'])) (fun e' he' => hnb e' (by simp [he']))
        (fun e' he' => hgood e' (by simp [he'])) (fun e' he' => hbad e' (by simp [he'])) ?_
      obtain ⟨e', he', x', hx1', hx2'⟩ := hexists
      rcases List.mem_cons.1 he' with rfl | he'
      · exact absurd (by rw [hx1.unique hx1']; exact hx2') hfwd
      · exact ⟨e', he', x', hx1', hx2'⟩

/-! ### Concrete cases: the hypotheses above are met -/

section Examples

local instance : Quantize (Int × Int) := ⟨id⟩

/-- `A - B - C` on airway `L1`, given out of order and partly twice. -/
private def exSegs : List (Segment (Int × Int)) :=
  [⟨c!"L1", c!"B", (2, 2), ⟨⟨c!"C", (3, 3)⟩, true, some 50⟩, .both⟩,
   ⟨c!"L1", c!"B", (2, 2), ⟨⟨c!"A", (1, 1)⟩, false, some 70⟩, .both⟩,
   ⟨c!"L1", c!"A", (1, 1), ⟨⟨c!"B", (2, 2)⟩, true, some 40⟩, .both⟩]

private def exA : Key := (c!"A", (1, 1))
private def exB : Key := (c!"B", (2, 2))
private def exC : Key := (c!"C", (3, 3))

private theorem consecutive3 {α : Type} (x y z a b : α) :
    Consecutive [x, y, z] a b ↔ (a = x ∧ b = y) ∨ (a = y ∧ b = z) := by
  constructor
  · rintro ⟨l₁, l₂, h⟩
    match l₁, h with
    | [], h => simp at h; left; exact ⟨h.1.symm, h.2.1.symm⟩
    | [_], h => simp at h; right; exact ⟨h.2.1.symm, h.2.2.1.symm⟩
    | [_, _], h => simp at h
    | _ :: _ :: _ :: _, h => simp at h
  · rintro (⟨rfl, rfl⟩ | ⟨rfl, rfl⟩)
    · exact ⟨[], [z], rfl⟩
    · exact ⟨[x], [], rfl⟩

/-- The chain hypothesis of C13 is met by `exSegs`. -/
example : IsChain exSegs c!"L1" [exA, exB, exC] where
  nodup := by decide
  adjacent_iff := by
    intro a b
    rw [consecutive3, consecutive3]
    simp only [Adjacent, exSegs, List.mem_cons, List.not_mem_nil, or_false, Joins, Reports, src, dst,
      exists_eq_or_imp, exists_eq_left, true_and]
    show ((exB = a ∧ exC = b ∨ exB = b ∧ exC = a) ∨ (exB = a ∧ exA = b ∨ exB = b ∧ exA = a) ∨
      (exA = a ∧ exB = b ∨ exA = b ∧ exB = a)) ↔ _
    constructor
    · rintro ((⟨h1, h2⟩ | ⟨h1, h2⟩) | (⟨h1, h2⟩ | ⟨h1, h2⟩) | (⟨h1, h2⟩ | ⟨h1, h2⟩)) <;>
        simp [← h1, ← h2]
    · rintro ((⟨h1, h2⟩ | ⟨h1, h2⟩) | (⟨h1, h2⟩ | ⟨h1, h2⟩)) <;> simp [h1, h2]

/-- The graph of `exSegs` exists and the expansion from `A` to `C` is `B`, `C`: flyable with the least
reported levels. -/
example : (do
    let g ← build exSegs
    let r ← g.expand ⟨c!"A", (1, 1)⟩ c!"C" c!"L1" (fun _ _ => false)
    Except.ok (r.map (·.map fun x => (keyOf x.1, x.1.validDirection, x.1.minimumLevel)))
      : Run (Option (List (Key × Bool × Option Nat)))) = .ok (some [(exB, true, some 40), (exC, true, some 50)]) := by rfl

/-- … and backwards, not flyable. -/
example : (do
    let g ← build exSegs
    let r ← g.expand ⟨c!"C", (3, 3)⟩ c!"A" c!"L1" (fun _ _ => false)
    Except.ok (r.map (·.map fun x => (keyOf x.1, x.1.validDirection, x.1.minimumLevel)))
      : Run (Option (List (Key × Bool × Option Nat)))) = .ok (some [(exB, false, some 50), (exA, false, some 40)]) := by rfl

end Examples

end Verif.AirwayGraph
