import Verif.Proofs.AirwayGraph
/-!
# Airway traversal (helper lemmas)
-/

namespace Verif.AirwayGraph
set_option linter.unusedSectionVars false
open Spec
variable {P : Type} [Quantize P]

/-! ### Relation between the graph and the segments -/

/-- The graph represents the segments. -/
def Rel (segs : List (Segment P)) (g : Graph P) : Prop := Inv g (segs.flatMap repsOf) []

theorem build_rel {segs : List (Segment P)} {g : Graph P} (h : build segs = .ok g) : Rel segs g :=
  build_inv h

variable {segs : List (Segment P)} {g : Graph P}

theorem EdgeIn.node (R : Rel segs g) {i a : Nat} {e : AirwayEdge} (h : EdgeIn g i a e) :
    ∃ k, IsNode g e.to k := by
  obtain ⟨f, es, h1, h2, h3⟩ := h
  exact R.exists_node ((Inv.edges_ok R i f a es h1 h2).2.2.1 e h3)

theorem EdgeIn.airway (R : Rel segs g) {i a : Nat} {e : AirwayEdge} (h : EdgeIn g i a e) :
    ∃ w, g.airwayNameById[a]? = some w := by
  obtain ⟨f, es, h1, h2, h3⟩ := h
  exact ⟨_, List.getElem?_eq_getElem (Inv.edges_ok R i f a es h1 h2).2.2.2⟩

theorem edge_leg (R : Rel segs g) {i a : Nat} {e : AirwayEdge} {w : Str} {ka kb : Key}
    (h : EdgeIn g i a e) (hw : g.airwayNameById[a]? = some w) (hi : IsNode g i ka)
    (hj : IsNode g e.to kb) :
    Adjacent segs w ka kb ∧ (e.validDirection = true ↔ Flyable segs w ka kb) ∧
      IsLeast e.minimumLevel (LevelReported segs w ka kb) :=
  edgeAgrees_iff segs w ka kb e (Inv.sound R i a e w ka kb h hw hi hj)

theorem adjacent_edge (R : Rel segs g) {a : Nat} {w : Str} {ka kb : Key}
    (hw : g.airwayNameById[a]? = some w) (h : Adjacent segs w ka kb) :
    ∃ i e, IsNode g i ka ∧ IsNode g e.to kb ∧ EdgeIn g i a e := by
  obtain ⟨r, hr⟩ := (exists_repFor_iff segs w ka kb).2 h
  obtain ⟨i, a', e, h1, h2, h3, h4⟩ := Inv.complete R r hr.1
  rw [hr.2.1] at h1
  rw [hr.2.2.1] at h2
  rw [hr.2.2.2] at h3
  have := (Inv.awy R w a).2 hw
  rw [this] at h1; cases h1
  exact ⟨i, e, h2, h3, h4⟩

theorem onAirway_iff (R : Rel segs g) {a : Nat} {w : Str} (hw : g.airwayNameById[a]? = some w)
    {i : Nat} {k : Key} (hi : IsNode g i k) : OnAirway segs w k ↔ ∃ e, EdgeIn g i a e := by
  constructor
  · rintro ⟨b, hb⟩
    obtain ⟨j, e, h1, h2, h3⟩ := adjacent_edge R hw hb
    have : j = i := Inv.node_inj R _ _ _ h1 hi
    subst this; exact ⟨e, h3⟩
  · rintro ⟨e, he⟩
    obtain ⟨kb, hkb⟩ := he.node R
    exact ⟨kb, (edge_leg R he hw hi hkb).1⟩

theorem known_iff (R : Rel segs g) (k : Key) : Known segs k ↔ ∃ i, IsNode g i k := by
  constructor
  · rintro ⟨w, b, hb⟩
    obtain ⟨r, hr⟩ := (exists_repFor_iff segs w k b).2 hb
    obtain ⟨i, a', e, h1, h2, h3, h4⟩ := Inv.complete R r hr.1
    rw [hr.2.2.1] at h2
    exact ⟨i, h2⟩
  · rintro ⟨i, hi⟩
    rcases Inv.nodes R i k hi with h | ⟨r, hr, rfl⟩
    · simp at h
    · exact ⟨r.w, r.b, (exists_repFor_iff segs r.w r.a r.b).1 ⟨r, hr, rfl, rfl, rfl⟩⟩

theorem contains_iff (R : Rel segs g) {i a : Nat} {f : GraphFix P} (hf : g.fixes[i]? = some f) :
    f.edges.contains a = true ↔ ∃ e, EdgeIn g i a e := by
  unfold Map.contains
  cases h : f.edges.get? a with
  | none =>
    simp only [Option.isSome_none, Bool.false_eq_true, false_iff]
    rintro ⟨e, f', es, h1, h2, _⟩
    rw [hf] at h1; cases h1; rw [h] at h2; cases h2
  | some es =>
    simp only [Option.isSome_some, true_iff]
    have := (Inv.edges_ok R i f a es hf h).1
    cases es with
    | nil => exact absurd rfl this
    | cons e es => exact ⟨e, f, _, hf, h, by simp⟩

/-! ### Lookups -/

theorem findOnAirway_spec (R : Rel segs g) (a : Nat) (ids : List Nat)
    (hv : ∀ i ∈ ids, ∃ f, g.fixes[i]? = some f) :
    (∃ i ∈ ids, g.findOnAirway a ids = .ok (some i) ∧ ∃ e, EdgeIn g i a e) ∨
    (g.findOnAirway a ids = .ok none ∧ ∀ i ∈ ids, ¬ ∃ e, EdgeIn g i a e) := by
  induction ids with
  | nil => right; simp [Graph.findOnAirway]
  | cons id ids ih =>
    obtain ⟨f, hf⟩ := hv id (by simp)
    have hc := contains_iff R (a := a) hf
    have hq : g.isFixIdOnAirway id a = .ok (f.edges.contains a) := by
      simp [Graph.isFixIdOnAirway, Graph.fixAt, hf]
    by_cases he : ∃ e, EdgeIn g id a e
    · left
      refine ⟨id, by simp, ?_, he⟩
      simp [Graph.findOnAirway, hq, hc.2 he]
    · have hf' : f.edges.contains a = false := by
        cases hb : f.edges.contains a with
        | true => exact absurd (hc.1 hb) he
        | false => rfl
      have hstep : g.findOnAirway a (id :: ids) = g.findOnAirway a ids := by
        simp [Graph.findOnAirway, hq, hf']
      rw [hstep]
      rcases ih (fun i hi => hv i (by simp [hi])) with ⟨i, hi, h1, h2⟩ | ⟨h1, h2⟩
      · left; exact ⟨i, by simp [hi], h1, h2⟩
      · right
        refine ⟨h1, ?_⟩
        intro i hi
        rcases List.mem_cons.1 hi with rfl | hi
        · exact he
        · exact h2 i hi

theorem findFixOnAirway_spec (R : Rel segs g) {a : Nat} {w : Str}
    (hw : g.airwayNameById[a]? = some w) (name : Str) :
    (∃ i k, g.findFixOnAirway name a = .ok (some i) ∧ IsNode g i k ∧ k.1 = name ∧
      OnAirway segs w k) ∨
    (g.findFixOnAirway name a = .ok none ∧ ∀ k, OnAirway segs w k → k.1 ≠ name) := by
  unfold Graph.findFixOnAirway
  cases hids : g.fixIdByName.get? name with
  | none =>
    right
    refine ⟨rfl, ?_⟩
    rintro k ⟨b, hb⟩ rfl
    obtain ⟨i, e, ⟨f, h1, h2, h3⟩, _, _⟩ := adjacent_edge R hw hb
    obtain ⟨ids, h4, h5⟩ := Inv.ids_complete R i _ h2
    rw [hids] at h4; cases h4
  | some ids =>
    simp only
    have hv : ∀ i ∈ ids, ∃ f, g.fixes[i]? = some f := fun i hi =>
      Inv.exists_fix R (Inv.ids_ok R _ _ hids i hi)
    rcases findOnAirway_spec R a ids hv with ⟨i, hi, h1, h2⟩ | ⟨h1, h2⟩
    · left
      obtain ⟨f, hf⟩ := hv i hi
      have hn : IsNode g i (name, quantize f.position) := ⟨f, hf, Inv.ids_ok R _ _ hids i hi, rfl⟩
      exact ⟨i, _, h1, hn, rfl, (onAirway_iff R hw hn).2 h2⟩
    · right
      refine ⟨h1, ?_⟩
      rintro k hk rfl
      obtain ⟨b, hb⟩ := id hk
      obtain ⟨i, e, hn, _, he⟩ := adjacent_edge R hw hb
      obtain ⟨f, h3, h4, h5⟩ := hn
      obtain ⟨ids', h6, h7⟩ := Inv.ids_complete R i _ h4
      rw [hids] at h6; cases h6
      exact h2 i h7 ⟨e, he⟩

theorem findFixId_spec (R : Rel segs g) (fix : Fix P) :
    (∃ i, g.findFixId fix = .ok (some i) ∧
      IsNode g i (fix.designator, quantize fix.coordinate)) ∨
    (g.findFixId fix = .ok none ∧ ¬ Known segs (fix.designator, quantize fix.coordinate)) := by
  unfold Graph.findFixId
  cases hids : g.fixIdByName.get? fix.designator with
  | none =>
    right
    refine ⟨rfl, ?_⟩
    rw [known_iff R]
    rintro ⟨i, f, h1, h2, h3⟩
    obtain ⟨ids, h4, h5⟩ := Inv.ids_complete R i _ h2
    simp only at h4
    rw [hids] at h4; cases h4
  | some ids =>
    simp only
    have hv : ∀ i ∈ ids, ∃ f, g.fixes[i]? = some f := fun i hi =>
      Inv.exists_fix R (Inv.ids_ok R _ _ hids i hi)
    rcases findAt_spec g fix.coordinate ids hv with ⟨i, hi, f, h1, h2, h3⟩ | ⟨h1, h2⟩
    · left; exact ⟨i, h1, f, h2, Inv.ids_ok R _ _ hids i hi, h3⟩
    · right
      refine ⟨h1, ?_⟩
      rw [known_iff R]
      rintro ⟨i, f, h3, h4, h5⟩
      obtain ⟨ids', h6, h7⟩ := Inv.ids_complete R i _ h4
      simp only at h6
      rw [hids] at h6; cases h6
      exact h2 i h7 f h3 h5

/-! ### Traversal -/

theorem nextEdge_mem {es : List AirwayEdge} {prev : Nat} {e : AirwayEdge}
    (h : nextEdge es prev = some e) : e ∈ es ∧ e.to ≠ prev := by
  unfold nextEdge at h
  split at h
  · split at h
    · next h1 => cases h; exact ⟨by simp, h1⟩
    · cases h
  · have h1 := List.mem_of_find?_eq_some h
    have h2 := List.find?_some h
    exact ⟨h1, by simpa using h2⟩
  · cases h

/-- A walk in terms of ids. -/
def WalkIds (g : Graph P) (a : Nat) : Nat → List (Nat × Bool × Option Nat) → Prop
  | _, [] => True
  | p, x :: xs =>
    (∃ e, EdgeIn g p a e ∧ x = (e.to, e.validDirection, e.minimumLevel)) ∧ WalkIds g a x.1 xs

theorem traverse_spec (R : Rel segs g) (endId a : Nat) :
    ∀ (fuel prev : Nat) (e : AirwayEdge), EdgeIn g prev a e →
      g.traverse endId a fuel prev e = .ok none ∨
      ∃ ids, g.traverse endId a fuel prev e =
          .ok (some ((e.to, e.validDirection, e.minimumLevel) :: ids)) ∧
        (∃ x, ((e.to, e.validDirection, e.minimumLevel) :: ids).getLast? = some x ∧ x.1 = endId) ∧
        ids.length < fuel ∧
        WalkIds g a prev ((e.to, e.validDirection, e.minimumLevel) :: ids) ∧
        NoTurnBack (prev :: e.to :: ids.map (·.1)) := by
  intro fuel
  induction fuel with
  | zero => intro prev e _; left; rfl
  | succ fuel ih =>
    intro prev e he
    unfold Graph.traverse
    by_cases hend : e.to = endId
    · right
      refine ⟨[], by simp [hend], ⟨_, rfl, hend⟩, by simp, ⟨⟨e, he, rfl⟩, trivial⟩, by simp [NoTurnBack]⟩
    · simp only [hend, if_false]
      obtain ⟨k, f, hf, _, _⟩ := he.node R
      simp only [Graph.fixAt, hf, unwrap_some, run_ok_bind]
      cases hes : f.edges.get? a with
      | none => left; rfl
      | some es =>
        simp only
        cases hne : nextEdge es prev with
        | none => left; rfl
        | some e' =>
          simp only
          obtain ⟨hmem, hto⟩ := nextEdge_mem hne
          have he' : EdgeIn g e.to a e' := ⟨f, es, hf, hes, hmem⟩
          rcases ih e.to e' he' with h | ⟨ids, h1, h2, h3, h4, h5⟩
          · left; simp [h]
          · right
            refine ⟨(e'.to, e'.validDirection, e'.minimumLevel) :: ids, by simp [h1], ?_, by simp; omega,
              ⟨⟨e, he, rfl⟩, h4⟩, ?_⟩
            · obtain ⟨x, h6, h7⟩ := h2
              exact ⟨x, by rw [List.getLast?_cons_cons]; exact h6, h7⟩
            · exact ⟨fun h6 => hto h6.symm, h5⟩

/-- Ids and keys correspond elementwise. -/
def AllNodes (g : Graph P) : List Nat → List Key → Prop
  | [], [] => True
  | i :: is, k :: ks => IsNode g i k ∧ AllNodes g is ks
  | _, _ => False

theorem noTurnBack_keys (R : Rel segs g) : ∀ (is : List Nat) (ks : List Key), AllNodes g is ks →
    NoTurnBack is → NoTurnBack ks
  | [], [], _, _ => trivial
  | [_], [_], _, _ => trivial
  | [_, _], [_, _], _, _ => trivial
  | i :: j :: l :: is, a :: b :: c :: ks, h, hn => by
    refine ⟨?_, noTurnBack_keys R _ _ h.2 hn.2⟩
    intro hac; subst hac
    exact hn.1 (Inv.node_inj R _ _ _ h.1 h.2.2.1)
  | [], _ :: _, h, _ => h.elim
  | _ :: _, [], h, _ => h.elim
  | [_], _ :: _ :: _, h, _ => h.2.elim
  | _ :: _ :: _, [_], h, _ => h.2.elim
  | [_, _], _ :: _ :: _ :: _, h, _ => h.2.2.elim
  | _ :: _ :: _ :: _, [_, _], h, _ => h.2.2.elim

theorem allNodes_unique (R : Rel segs g) : ∀ (is : List Nat) (ks ks' : List Key),
    AllNodes g is ks → AllNodes g is ks' → ks = ks'
  | [], [], [], _, _ => rfl
  | i :: is, k :: ks, k' :: ks', h, h' => by
    rw [h.1.unique h'.1, allNodes_unique R is ks ks' h.2 h'.2]
  | [], _ :: _, _, h, _ => h.elim
  | [], [], _ :: _, _, h => h.elim
  | _ :: _, [], _, h, _ => h.elim
  | _ :: _, _ :: _, [], _, h => h.elim

theorem describe_walk (R : Rel segs g) (isInternal : Str → P → Bool) {a : Nat} {w : Str}
    (hw : g.airwayNameById[a]? = some w) :
    ∀ (ids : List (Nat × Bool × Option Nat)) (p : Nat) (kp : Key), IsNode g p kp →
      WalkIds g a p ids →
      ∃ out, ids.mapM (g.describe isInternal) = Except.ok (ε := Fault) out ∧
        out.length = ids.length ∧
        PathFrom segs w kp (out.map (·.1)) ∧
        AllNodes g (ids.map (·.1)) (out.map (fun x => keyOf x.1)) ∧
        (∀ x ∈ out, x.2 = isInternal x.1.fix.designator x.1.fix.coordinate) := by
  intro ids
  induction ids with
  | nil => intro p kp _ _; exact ⟨[], rfl, rfl, trivial, trivial, by simp⟩
  | cons x xs ih =>
    rintro p kp hp ⟨⟨e, he, rfl⟩, hwalk⟩
    obtain ⟨k, hk⟩ := he.node R
    obtain ⟨out, h1, h2, h3, h4, h5⟩ := ih e.to k hk hwalk
    obtain ⟨f, hf, hn, hq⟩ := id hk
    let d : AirwayFix P × Bool :=
      (⟨⟨k.1, f.position⟩, e.validDirection, e.minimumLevel⟩, isInternal k.1 f.position)
    have hd : g.describe isInternal (e.to, e.validDirection, e.minimumLevel) = .ok d := by
      simp [Graph.describe, hn, Graph.fixAt, hf, d]
    have hkey : keyOf d.1 = k := Prod.ext rfl hq
    refine ⟨d :: out, ?_, by simp [h2], ?_, ?_, ?_⟩
    · simp only [List.mapM_cons, hd, run_ok_bind, h1]; rfl
    · refine ⟨?_, ?_⟩
      · unfold LegOk
        rw [hkey]
        exact edge_leg R he hw hp hk
      · show PathFrom segs w (keyOf d.1) _
        rw [hkey]; exact h3
    · refine ⟨?_, h4⟩
      show IsNode g e.to (keyOf d.1)
      rw [hkey]; exact hk
    · intro y hy
      rcases List.mem_cons.1 hy with rfl | hy
      · rfl
      · exact h5 y hy

theorem allNodes_getLast {g : Graph P} : ∀ (is : List Nat) (ks : List Key), AllNodes g is ks →
    ∀ i, is.getLast? = some i → ∃ k, ks.getLast? = some k ∧ IsNode g i k
  | [], _, _, i, h => by simp at h
  | [j], [k], hn, i, h => by
    simp at h; subst h; exact ⟨k, rfl, hn.1⟩
  | j :: j' :: is, k :: k' :: ks, hn, i, h => by
    rw [List.getLast?_cons_cons] at h
    obtain ⟨x, h1, h2⟩ := allNodes_getLast (j' :: is) (k' :: ks) hn.2 i h
    exact ⟨x, by rw [List.getLast?_cons_cons]; exact h1, h2⟩
  | _ :: _, [], hn, _, _ => hn.elim
  | [_], _ :: _ :: _, hn, _, _ => hn.2.elim
  | _ :: _ :: _, [_], hn, _, _ => hn.2.elim

theorem tryEdges_spec (R : Rel segs g) (isInternal : Str → P → Bool) {a : Nat} {w : Str}
    (hw : g.airwayNameById[a]? = some w) {startId endId : Nat} {ks ke : Key}
    (hs : IsNode g startId ks) (hend : IsNode g endId ke) :
    ∀ (es : List AirwayEdge), (∀ e ∈ es, EdgeIn g startId a e) →
      g.tryEdges isInternal startId endId a es = .ok none ∨
      ∃ out, g.tryEdges isInternal startId endId a es = .ok (some out) ∧ out ≠ [] ∧
        out.length ≤ g.fixes.length ∧
        PathFrom segs w ks (out.map (·.1)) ∧
        (out.map (fun x => keyOf x.1)).getLast? = some ke ∧
        NoTurnBack (ks :: out.map (fun x => keyOf x.1)) ∧
        (∀ x ∈ out, x.2 = isInternal x.1.fix.designator x.1.fix.coordinate) := by
  intro es
  induction es with
  | nil => intro _; left; rfl
  | cons e es ih =>
    intro hes
    have he := hes e (by simp)
    rcases traverse_spec R endId a g.fixes.length startId e he with h | ⟨ids, h1, h2, h3, h4, h5⟩
    · have : g.tryEdges isInternal startId endId a (e :: es) =
          g.tryEdges isInternal startId endId a es := by simp [Graph.tryEdges, h]
      rw [this]
      exact ih (fun e' h' => hes e' (by simp [h']))
    · right
      obtain ⟨out, o1, o2, o3, o4, o5⟩ := describe_walk R isInternal hw _ _ _ hs h4
      refine ⟨out, ?_, ?_, ?_, o3, ?_, ?_, o5⟩
      · simp only [Graph.tryEdges, h1, run_ok_bind, o1]
      · intro hc; rw [hc] at o2; simp at o2
      · simp at o2; omega
      · obtain ⟨x, hx, hxe⟩ := h2
        have := allNodes_getLast _ _ o4 x.1 (by rw [List.getLast?_map, hx]; rfl)
        obtain ⟨k, hk1, hk2⟩ := this
        rw [hxe] at hk2
        rw [hk1, hk2.unique hend]
      · refine noTurnBack_keys R (startId :: ((e.to, e.validDirection, e.minimumLevel) :: ids).map (·.1)) _ ⟨hs, o4⟩ ?_
        simpa using h5

end Verif.AirwayGraph
