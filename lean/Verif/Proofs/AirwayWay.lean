import Verif.Proofs.AirwayOrder
/-!
# What traversal of an airway finds (helper lemmas)
-/

namespace Verif.AirwayGraph
set_option linter.unusedSectionVars false
open Spec
variable {P : Type} [Quantize P]
variable {segs : List (Segment P)} {g : Graph P}

theorem nextEdge_two_of {es : List AirwayEdge} {p : Nat} {e : AirwayEdge} (hp : p ∈ es.map (·.to)) (h : nextEdge es p = some e) :
    e ∈ es ∧ e.to ≠ p ∧ ∀ j ∈ es.map (·.to), j = p ∨ j = e.to := by
  obtain ⟨h1, h2⟩ := nextEdge_mem h
  refine ⟨h1, h2, ?_⟩
  unfold nextEdge at h
  split at h
  · next e₁ =>
    simp only [List.mem_cons, List.not_mem_nil, or_false] at h1
    subst h1
    simp only [List.map_cons, List.map_nil, List.mem_cons, List.not_mem_nil, or_false] at hp
    exact absurd hp.symm h2
  · next e₁ e₂ =>
    intro j hj
    simp only [List.map_cons, List.map_nil, List.mem_cons, List.not_mem_nil, or_false] at hp hj h1
    rcases h1 with rfl | rfl
    · rcases hp with hp | hp
      · exact absurd hp.symm h2
      · rcases hj with rfl | rfl
        · exact Or.inr rfl
        · exact Or.inl hp.symm
    · rcases hp with hp | hp
      · rcases hj with rfl | rfl
        · exact Or.inl hp.symm
        · exact Or.inr rfl
      · exact absurd hp.symm h2
  · cases h

/-- One step of a way. -/
theorem way_step (R : Rel segs g) {a : Nat} {w : Str} (hw : g.airwayNameById[a]? = some w) {ip ic : Nat} {kp kc : Key}
    (hp : IsNode g ip kp) (hic : IsNode g ic kc) (hadj : Adjacent segs w kp kc) :
    ∃ f es, g.fixes[ic]? = some f ∧ f.edges.get? a = some es ∧
      (∀ e, nextEdge es ip = some e → ∃ kn, e ∈ es ∧ IsNode g e.to kn ∧ kn ≠ kp ∧ ∀ x, Adjacent segs w kc x ↔ x = kp ∨ x = kn) ∧
      (∀ kn, kn ≠ kp → (∀ x, Adjacent segs w kc x ↔ x = kp ∨ x = kn) → ∃ e ∈ es, IsNode g e.to kn ∧ nextEdge es ip = some e) := by
  have hsym := adjacent_symm hadj
  obtain ⟨f, es, h1, h2, h3, h4⟩ := node_edges R hw hic ⟨kp, hsym⟩
  refine ⟨f, es, h1, h2, ?_, ?_⟩
  · intro e he
    obtain ⟨h5, h6, h7⟩ := nextEdge_two_of ((h4 ip).2 ⟨kp, hp, hsym⟩) he
    obtain ⟨kn, hkn, hna⟩ := (h4 e.to).1 (List.mem_map.2 ⟨e, h5, rfl⟩)
    refine ⟨kn, h5, hkn, ?_, ?_⟩
    · rintro rfl; exact h6 (Inv.node_inj R _ _ _ hkn hp)
    · intro x
      constructor
      · intro hx
        obtain ⟨_, e', _, hj, _⟩ := adjacent_edge R hw hx
        rcases h7 _ ((h4 e'.to).2 ⟨x, hj, hx⟩) with h8 | h8
        · rw [h8] at hj; exact Or.inl (hj.unique hp)
        · rw [h8] at hj; exact Or.inr (hj.unique hkn)
      · rintro (rfl | rfl)
        · exact hsym
        · exact hna
  · intro kn hne hall
    have hka : Adjacent segs w kc kn := (hall _).2 (Or.inr rfl)
    obtain ⟨_, e', _, hin, _⟩ := adjacent_edge R hw hka
    have hne' : ip ≠ e'.to := by
      intro h
      rw [← h] at hin
      exact hne (hp.unique hin).symm
    obtain ⟨e, he, hto, hnext⟩ := nextEdge_two hne' (nodup_pair_of_mem h3 hne' fun j => by
      rw [h4]
      constructor
      · rintro ⟨x, hx, hxa⟩
        rcases (hall x).1 hxa with rfl | rfl
        · exact Or.inl (Inv.node_inj R _ _ _ hx hp)
        · exact Or.inr (Inv.node_inj R _ _ _ hx hin)
      · rintro (rfl | rfl)
        · exact ⟨kp, hp, hsym⟩
        · exact ⟨kn, hin, hka⟩)
    exact ⟨e, he, by rw [hto]; exact hin, hnext⟩

theorem traverse_way (R : Rel segs g) {a : Nat} {w : Str} (hw : g.airwayNameById[a]? = some w) {endId : Nat} {z : Key}
    (hz : IsNode g endId z) :
    ∀ (fuel ip : Nat) (e : AirwayEdge) (kp kc : Key), IsNode g ip kp → IsNode g e.to kc → EdgeIn g ip a e →
      ∀ ids, g.traverse endId a fuel ip e = .ok (some ids) →
        ∃ p, Way segs w z kp kc p ∧ p.length ≤ fuel ∧ AllNodes g (ids.map (·.1)) p := by
  intro fuel
  induction fuel with
  | zero => intro ip e kp kc _ _ _ ids h; cases h
  | succ fuel ih =>
    intro ip e kp kc hp hc he ids h
    unfold Graph.traverse at h
    by_cases hend : e.to = endId
    · simp only [hend, if_true, Except.ok.injEq, Option.some.injEq] at h
      subst h
      rw [hend] at hc
      have hkz := hc.unique hz
      subst hkz
      exact ⟨[kc], .arrive _, by simp, ⟨hc, trivial⟩⟩
    · simp only [hend, if_false] at h
      obtain ⟨f, es, h1, h2, h3, _⟩ := way_step R hw hp hc (edge_leg R he hw hp hc).1
      simp only [Graph.fixAt, h1, unwrap_some, run_ok_bind, h2] at h
      cases hne : nextEdge es ip with
      | none => rw [hne] at h; cases h
      | some e' =>
        rw [hne] at h
        simp only at h
        obtain ⟨kn, h4, h5, h6, h7⟩ := h3 e' hne
        cases ht : g.traverse endId a fuel e.to e' with
        | error x => rw [ht] at h; cases h
        | ok r =>
          rw [ht] at h
          cases r with
          | none => cases h
          | some rest =>
            simp only [run_ok_bind, Except.ok.injEq, Option.some.injEq] at h
            subst h
            obtain ⟨p, hp1, hp2, hp3⟩ := ih e.to e' kc kn hc h5 ⟨f, es, h1, h2, h4⟩ rest ht
            refine ⟨kc :: p, .go ?_ h6 h7 hp1, by simp; omega, ⟨hc, hp3⟩⟩
            rintro rfl
            exact hend (Inv.node_inj R _ _ _ hc hz)

theorem way_traverse (R : Rel segs g) {a : Nat} {w : Str} (hw : g.airwayNameById[a]? = some w) {endId : Nat} {z : Key}
    (hz : IsNode g endId z) {kp kc : Key} {p : List Key} (hway : Way segs w z kp kc p) :
    ∀ (fuel ip : Nat) (e : AirwayEdge), IsNode g ip kp → IsNode g e.to kc → EdgeIn g ip a e → p.length ≤ fuel →
      ∃ ids, g.traverse endId a fuel ip e = .ok (some ids) ∧ AllNodes g (ids.map (·.1)) p := by
  induction hway with
  | arrive b =>
    intro fuel ip e hp hc he hl
    cases fuel with
    | zero => simp at hl
    | succ fuel =>
      have : e.to = endId := Inv.node_inj R _ _ _ hc hz
      exact ⟨[(e.to, e.validDirection, e.minimumLevel)], by simp [Graph.traverse, this], ⟨hc, trivial⟩⟩
  | @go b c d p hne hdb hall _ ih =>
    intro fuel ip e hp hc he hl
    cases fuel with
    | zero => simp at hl
    | succ fuel =>
      have hend : e.to ≠ endId := by
        intro h; rw [h] at hc; exact hne (hc.unique hz)
      obtain ⟨f, es, h1, h2, _, h3⟩ := way_step R hw hp hc (edge_leg R he hw hp hc).1
      obtain ⟨e', h4, h5, h6⟩ := h3 d hdb hall
      obtain ⟨ids, h7, h8⟩ := ih fuel e.to e' hc h5 ⟨f, es, h1, h2, h4⟩ (by simp at hl; omega)
      exact ⟨(e.to, e.validDirection, e.minimumLevel) :: ids,
        by simp [Graph.traverse, hend, Graph.fixAt, h1, h2, h6, h7], ⟨hc, h8⟩⟩

/-! ### Ways -/

theorem way_unique {w : Str} {z a b : Key} {p q : List Key} (h : Way segs w z a b p) (h' : Way segs w z a b q) : p = q := by
  induction h generalizing q with
  | arrive a =>
    cases h' with
    | arrive => rfl
    | go h1 => exact absurd rfl h1
  | @go a b c p hne hca hall _ ih =>
    cases h' with
    | arrive => exact absurd rfl hne
    | @go _ _ c' p' _ hca' hall' hw' =>
      have : c = c' := by
        rcases (hall' c).1 ((hall c).2 (Or.inr rfl)) with h | h
        · exact absurd h hca
        · exact h
      subst this
      rw [ih hw']

/-- What edges are tried, in terms of ways. -/
theorem tryEdges_way (R : Rel segs g) (isInternal : Str → P → Bool) {a : Nat} {w : Str}
    (hw : g.airwayNameById[a]? = some w) {startId endId : Nat} {ks ke : Key}
    (hs : IsNode g startId ks) (hend : IsNode g endId ke) (p : List Key) :
    ∀ (es : List AirwayEdge) (l : List Key), (∀ e ∈ es, EdgeIn g startId a e) → AllNodes g (es.map (·.to)) l →
      ((∃ out, g.tryEdges isInternal startId endId a es = .ok (some out) ∧ out.map (fun x => keyOf x.1) = p) ↔
        ∃ l₁ b l₂, l = l₁ ++ b :: l₂ ∧ Way segs w ke ks b p ∧ p.length ≤ g.fixes.length ∧
          ∀ y ∈ l₁, ∀ q, Way segs w ke ks y q → g.fixes.length < q.length) := by
  intro es
  induction es with
  | nil =>
    intro l _ hl
    cases l with
    | cons => exact hl.elim
    | nil =>
      constructor
      · rintro ⟨out, h, _⟩; cases h
      · rintro ⟨l₁, b, l₂, h, _⟩
        cases l₁ <;> cases h
  | cons e es ih =>
    intro l hes hl
    cases l with
    | nil => exact hl.elim
    | cons k l =>
      have he := hes e (by simp)
      have ih' := ih l (fun e' h' => hes e' (by simp [h'])) hl.2
      rcases traverse_spec R endId a g.fixes.length startId e he with h | ⟨ids, h1, h2, h3, h4, h5⟩
      · have hno : ∀ q, Way segs w ke ks k q → g.fixes.length < q.length := by
          intro q hq
          rcases Nat.lt_or_ge g.fixes.length q.length with h6 | h6
          · exact h6
          · obtain ⟨ids, h7, _⟩ := way_traverse R hw hend hq _ _ _ hs hl.1 he h6
            rw [h] at h7; cases h7
        have : g.tryEdges isInternal startId endId a (e :: es) =
          g.tryEdges isInternal startId endId a es := by simp [Graph.tryEdges, h]
        rw [this, ih']
        constructor
        · rintro ⟨l₁, b, l₂, rfl, h6, h7, h8⟩
          refine ⟨k :: l₁, b, l₂, rfl, h6, h7, ?_⟩
          intro y hy
          rcases List.mem_cons.1 hy with rfl | hy
          · exact hno
          · exact h8 y hy
        · rintro ⟨l₁, b, l₂, h9, h6, h7, h8⟩
          cases l₁ with
          | nil =>
            simp only [List.nil_append, List.cons.injEq] at h9
            obtain ⟨rfl, rfl⟩ := h9
            have := hno p h6
            omega
          | cons x l₁ =>
            simp only [List.cons_append, List.cons.injEq] at h9
            obtain ⟨rfl, rfl⟩ := h9
            exact ⟨l₁, b, l₂, rfl, h6, h7, fun y hy => h8 y (by simp [hy])⟩
      · obtain ⟨out, o1, o2, o3, o4, o5⟩ := describe_walk R isInternal hw _ _ _ hs h4
        have hrun : g.tryEdges isInternal startId endId a (e :: es) = .ok (some out) := by
          simp only [Graph.tryEdges, h1, run_ok_bind, o1]
        obtain ⟨q, q1, q2, q3⟩ := traverse_way R hw hend _ _ _ _ _ hs hl.1 he _ h1
        have hq := allNodes_unique R _ _ _ o4 q3
        rw [hrun]
        constructor
        · rintro ⟨out', h6, h7⟩
          cases h6
          have : p = q := h7.symm.trans hq
          subst this
          exact ⟨[], k, l, rfl, q1, q2, by simp⟩
        · rintro ⟨l₁, b, l₂, h9, h6, h7, h8⟩
          cases l₁ with
          | nil =>
            simp only [List.nil_append, List.cons.injEq] at h9
            obtain ⟨rfl, rfl⟩ := h9
            exact ⟨out, rfl, hq.trans (way_unique q1 h6)⟩
          | cons x l₁ =>
            simp only [List.cons_append, List.cons.injEq] at h9
            obtain ⟨rfl, rfl⟩ := h9
            have := h8 k (by simp) q q1
            omega

/-! ### Lookups -/

theorem findOnAirway_first (R : Rel segs g) (a : Nat) (ids : List Nat) (hasc : ids.Pairwise (· < ·))
    (hv : ∀ i ∈ ids, ∃ f, g.fixes[i]? = some f) {i : Nat} (h : g.findOnAirway a ids = .ok (some i)) :
    ∀ j ∈ ids, j < i → ¬ ∃ e, EdgeIn g j a e := by
  induction ids with
  | nil => simp
  | cons id ids ih =>
    rw [List.pairwise_cons] at hasc
    obtain ⟨f, hf⟩ := hv id (by simp)
    have hc := contains_iff R (a := a) hf
    have hq : g.isFixIdOnAirway id a = .ok (f.edges.contains a) := by
      simp [Graph.isFixIdOnAirway, Graph.fixAt, hf]
    intro j hj hji
    cases hb : f.edges.contains a with
    | true =>
      simp [Graph.findOnAirway, hq, hb] at h
      subst h
      rcases List.mem_cons.1 hj with rfl | hj
      · omega
      · have := hasc.1 j hj; omega
    | false =>
      simp [Graph.findOnAirway, hq, hb] at h
      rcases List.mem_cons.1 hj with rfl | hj
      · intro h2; rw [hc.2 h2] at hb; cases hb
      · exact ih hasc.2 (fun i hi => hv i (by simp [hi])) h j hj hji

/-- The first fix of a name on an airway. -/
theorem findFixOnAirway_firstOn (R : Rel segs g) (o : Ord g (allFixes segs) (segs.flatMap repsOf)) {a : Nat} {w : Str}
    (hw : g.airwayNameById[a]? = some w) (name : Str) :
    (∃ i k, g.findFixOnAirway name a = .ok (some i) ∧ IsNode g i k ∧ firstOn segs w name = some k ∧ OnAirway segs w k) ∨
    (g.findFixOnAirway name a = .ok none ∧ firstOn segs w name = none) := by
  rcases findFixOnAirway_spec R hw name with ⟨i, k, h1, h2, h3, h4⟩ | ⟨h1, h2⟩
  · refine Or.inl ⟨i, k, h1, h2, ?_, h4⟩
    unfold firstOn
    have hik := (o.nodes i k).1 h2
    obtain ⟨hlt, hget⟩ := List.getElem?_eq_some_iff.1 hik
    rw [List.find?_eq_some_iff_getElem]
    refine ⟨decide_eq_true ⟨h3, (neighbours_ne_nil ..).2 h4⟩, i, hlt, hget, ?_⟩
    intro j hj
    have hjn := (o.nodes j _).2 (List.getElem?_eq_getElem (Nat.lt_trans hj hlt))
    rw [Bool.not_eq_true', decide_eq_false_iff_not]
    rintro ⟨h5, h6⟩
    have hon := (onAirway_iff R hw hjn).1 ((neighbours_ne_nil ..).1 h6)
    obtain ⟨f, hf1, hf2, hf3⟩ := id hjn
    rw [h5] at hf2
    obtain ⟨ids, h7, h8⟩ := Inv.ids_complete R j _ hf2
    unfold Graph.findFixOnAirway at h1
    rw [h7] at h1
    exact findOnAirway_first R a ids (o.asc _ _ h7) (fun i hi => Inv.exists_fix R (Inv.ids_ok R _ _ h7 i hi)) h1 j h8 hj hon
  · refine Or.inr ⟨h1, ?_⟩
    unfold firstOn
    rw [List.find?_eq_none]
    intro k hk h3
    rw [decide_eq_true_eq] at h3
    exact h2 k ((neighbours_ne_nil ..).1 h3.2) h3.1

/-- The start of a route. -/
theorem resolveStart_startOf (R : Rel segs g) (o : Ord g (allFixes segs) (segs.flatMap repsOf)) {a : Nat} {w : Str}
    (hw : g.airwayNameById[a]? = some w) (start : Fix P) :
    (∃ i k, g.resolveStart start a = .ok (some i) ∧ IsNode g i k ∧ OnAirway segs w k ∧ startOf segs w start = some k) ∨
    (∃ i k, g.resolveStart start a = .ok (some i) ∧ IsNode g i k ∧ ¬ OnAirway segs w k ∧ startOf segs w start = none) ∨
    (g.resolveStart start a = .ok none ∧ startOf segs w start = none) := by
  unfold Graph.resolveStart startOf
  rcases findFixId_spec R start with ⟨i, h1, h2⟩ | ⟨h1, h2⟩
  · have hm : ((start.designator, quantize start.coordinate) : Key) ∈ allFixes segs := List.mem_of_getElem? ((o.nodes _ _).1 h2)
    by_cases hon : OnAirway segs w (start.designator, quantize start.coordinate)
    · refine Or.inl ⟨i, _, by rw [h1]; rfl, h2, hon, ?_⟩
      have := (neighbours_ne_nil ..).2 hon
      simp [hm, this]
    · refine Or.inr (Or.inl ⟨i, _, by rw [h1]; rfl, h2, hon, ?_⟩)
      have : neighbours segs w (start.designator, quantize start.coordinate) = [] :=
        Classical.byContradiction fun h => hon ((neighbours_ne_nil ..).1 h)
      simp [hm, this]
  · have hm : ((start.designator, quantize start.coordinate) : Key) ∉ allFixes segs := by
      intro hm
      obtain ⟨i, hi⟩ := List.getElem?_of_mem hm
      exact h2 ((known_iff R _).2 ⟨i, (o.nodes _ _).2 hi⟩)
    simp only [hm, if_false]
    rw [h1]
    simp only [run_ok_bind]
    rcases findFixOnAirway_firstOn R o hw start.designator with ⟨i, k, h3, h4, h5, h6⟩ | ⟨h3, h4⟩
    · exact Or.inl ⟨i, k, h3, h4, h6, h5⟩
    · exact Or.inr (Or.inr ⟨h3, h4⟩)

theorem allFixes_length (o : Ord g (allFixes segs) (segs.flatMap repsOf)) (R : Rel segs g) :
    (allFixes segs).length = g.fixes.length := by
  rcases Nat.lt_trichotomy (allFixes segs).length g.fixes.length with h1 | h1 | h1
  · obtain ⟨k, hk⟩ := Inv.exists_node R h1
    rw [o.nodes, List.getElem?_eq_none (Nat.le_refl _)] at hk; cases hk
  · exact h1
  · have := (o.nodes _ _).2 (List.getElem?_eq_getElem h1)
    exact absurd this.lt (by omega)

/-! ### A way without segments from a fix to itself visits no fix twice -/

theorem no_return {K : Type} (adj : K → K → Prop) (irr : ∀ x, ¬ adj x x) (v : Nat → K) (m : Nat)
    (step : ∀ i, i + 1 < m → v (i + 1) ≠ v m ∧ v (i + 2) ≠ v i ∧ ∀ x, adj (v (i + 1)) x ↔ x = v i ∨ x = v (i + 2)) :
    ∀ d i, i + 1 + (d + 1) ≤ m → v (i + 1) ≠ v (i + 1 + (d + 1)) := by
  intro d
  induction d using Nat.strongRecOn with
  | _ d ih =>
    intro i hm heq
    rcases Nat.lt_or_ge (i + 1 + (d + 1)) m with hlt | hge
    · have si := step i (by omega)
      have sj := step (i + 1 + d) (by omega)
      have e1 : i + 1 + d + 1 = i + 1 + (d + 1) := by omega
      rw [e1] at sj
      have hj : v (i + 1 + d) = v i ∨ v (i + 1 + d) = v (i + 2) := by
        rw [← si.2.2, heq, sj.2.2]; exact Or.inl rfl
      rcases hj with hj | hj
      · -- the same leg again: the way never ends
        have run : ∀ k, i + 1 + (d + 1) + k ≤ m → v (i + k) = v (i + 1 + d + k) ∧ v (i + 1 + k) = v (i + 1 + (d + 1) + k) := by
          intro k
          induction k with
          | zero => intro _; exact ⟨hj.symm, heq⟩
          | succ k ihk =>
            intro hk
            obtain ⟨h1, h2⟩ := ihk (by omega)
            have s1 := step (i + k) (by omega)
            have s2 := step (i + 1 + d + k) (by omega)
            have a1 : i + k + 1 = i + 1 + k := by omega
            have a2 : i + 1 + d + k + 1 = i + 1 + (d + 1) + k := by omega
            have a3 : i + k + 2 = i + 1 + (k + 1) := by omega
            have a4 : i + 1 + d + k + 2 = i + 1 + (d + 1) + (k + 1) := by omega
            rw [a1, a3] at s1
            rw [a2, a4] at s2
            have b1 : i + (k + 1) = i + 1 + k := by omega
            have b2 : i + 1 + d + (k + 1) = i + 1 + (d + 1) + k := by omega
            rw [b1, b2]
            refine ⟨h2, ?_⟩
            have h3 : v (i + 1 + (k + 1)) = v (i + 1 + d + k) ∨ v (i + 1 + (k + 1)) = v (i + 1 + (d + 1) + (k + 1)) := by
              rw [← s2.2.2, ← h2, s1.2.2]; exact Or.inr rfl
            rcases h3 with h3 | h3
            · rw [← h1] at h3; exact absurd h3 s1.2.1
            · exact h3
        obtain ⟨k, hk⟩ : ∃ k, i + 1 + (d + 1) + k = m := ⟨m - (i + 1 + (d + 1)), by omega⟩
        have h4 := (run k (by omega)).2
        rw [hk] at h4
        have := (step (i + k) (by omega)).1
        have e2 : i + k + 1 = i + 1 + k := by omega
        rw [e2] at this
        exact this h4
      · -- the way turned round
        match d, ih, heq, hj, hm, hlt with
        | 0, _, heq, _, _, _ =>
          have := (si.2.2 (v (i + 2))).2 (Or.inr rfl)
          rw [heq] at this
          exact irr _ this
        | 1, _, heq, _, _, _ =>
          have := step (i + 1) (by omega)
          exact this.2.1 heq.symm
        | d + 2, ih, _, hj, hm, _ =>
          have := ih d (by omega) (i + 1) (by omega)
          have e2 : i + 1 + 1 + (d + 1) = i + 1 + (d + 2) := by omega
          rw [e2] at this
          exact this hj.symm
    · have hmm : i + 1 + (d + 1) = m := by omega
      rw [hmm] at heq
      exact (step i (by omega)).1 heq

theorem way_walk {w : Str} {z a b : Key} {p : List Key} (h : Way segs w z a b p) :
    ∃ (v : Nat → Key) (m : Nat), p = (List.range (m + 1)).map (fun i => v (i + 1)) ∧ v 0 = a ∧ v 1 = b ∧ v (m + 1) = z ∧
      ∀ i, i + 1 < m + 1 → v (i + 1) ≠ v (m + 1) ∧ v (i + 2) ≠ v i ∧ ∀ x, Adjacent segs w (v (i + 1)) x ↔ x = v i ∨ x = v (i + 2) := by
  induction h with
  | arrive a =>
    refine ⟨fun i => if i = 0 then a else z, 0, by simp [List.range_succ], by simp, by simp, by simp, ?_⟩
    intro i hi; omega
  | @go a b c p hne hca hall _ ih =>
    obtain ⟨v, m, h1, h2, h3, h4, h5⟩ := ih
    refine ⟨fun i => match i with | 0 => a | i + 1 => v i, m + 1, ?_, rfl, h2, h4, ?_⟩
    · rw [h1, List.range_succ_eq_map (n := m + 1), List.map_cons, List.map_map]
      simp only [h2]
      rfl
    · intro i hi
      match i with
      | 0 =>
        simp only [h2, h3, h4]
        exact ⟨hne, hca, hall⟩
      | i + 1 => exact h5 i (by omega)

theorem way_nodup {w : Str} (irr : ∀ x, ¬ Adjacent segs w x x) {z a b : Key} {p : List Key} (h : Way segs w z a b p) : p.Nodup := by
  obtain ⟨v, m, rfl, _, _, _, h5⟩ := way_walk h
  have := no_return (Adjacent segs w) irr v (m + 1) h5
  unfold List.Nodup
  rw [List.pairwise_map, List.pairwise_iff_getElem]
  intro i j hi hj hij
  simp only [List.length_range] at hi hj
  simp only [List.getElem_range]
  have h6 := this (j - i - 1) i (by omega)
  have e : i + 1 + (j - i - 1 + 1) = j + 1 := by omega
  rwa [e] at h6

theorem way_known {w : Str} {z a b : Key} {p : List Key} (h : Way segs w z a b p) (hab : Adjacent segs w a b) :
    ∀ k ∈ p, k ∈ allFixes segs := by
  have known : ∀ x y, Adjacent segs w x y → y ∈ allFixes segs := by
    rintro x y ⟨s, hs, h1 | h1⟩
    · exact (mem_allFixes ..).2 ⟨s, hs, Or.inr h1.2.2⟩
    · exact (mem_allFixes ..).2 ⟨s, hs, Or.inl h1.2.1⟩
  induction h with
  | arrive a =>
    intro k hk
    simp only [List.mem_cons, List.not_mem_nil, or_false] at hk
    subst hk; exact known _ _ hab
  | @go a b c p hne hca hall _ ih =>
    intro k hk
    rcases List.mem_cons.1 hk with rfl | hk
    · exact known _ _ hab
    · exact ih ((hall c).2 (Or.inr rfl)) k hk

theorem way_length {w : Str} (irr : ∀ x, ¬ Adjacent segs w x x) {z a b : Key} {p : List Key} (h : Way segs w z a b p)
    (hab : Adjacent segs w a b) : p.length ≤ (allFixes segs).length :=
  List.Nodup.length_le_of_subset (way_nodup irr h) (way_known h hab)

end Verif.AirwayGraph
