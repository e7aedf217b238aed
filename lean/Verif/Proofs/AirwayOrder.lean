import Verif.Proofs.AirwayChain
import Verif.Spec.AirwayWay
/-!
# The order of fixes and edges in the airway graph (helper lemmas)
-/

namespace Verif.AirwayGraph
set_option linter.unusedSectionVars false
open Spec
variable {P : Type} [Quantize P]

/-! ### `firsts` -/

/-- One step of `firsts`. -/
def push {α : Type} [DecidableEq α] (l : List α) (x : α) : List α := if x ∈ l then l else l ++ [x]

theorem firsts_append {α : Type} [DecidableEq α] (l : List α) (x : α) : firsts (l ++ [x]) = push (firsts l) x := by
  unfold firsts push
  rw [List.foldl_append]
  rfl

theorem mem_push {α : Type} [DecidableEq α] (l : List α) (x y : α) : y ∈ push l x ↔ y ∈ l ∨ y = x := by
  unfold push
  split
  · next h =>
    constructor
    · exact Or.inl
    · rintro (h2 | rfl)
      · exact h2
      · exact h
  · simp

theorem list_snoc {α : Type} {p : List α → Prop} (nil : p []) (snoc : ∀ l x, p l → p (l ++ [x])) (l : List α) : p l := by
  have : ∀ l : List α, p l.reverse := by
    intro l
    induction l with
    | nil => exact nil
    | cons x l ih => rw [List.reverse_cons]; exact snoc _ _ ih
  simpa using this l.reverse

theorem mem_firsts {α : Type} [DecidableEq α] (l : List α) (y : α) : y ∈ firsts l ↔ y ∈ l := by
  induction l using list_snoc with
  | nil => simp [firsts]
  | snoc l x ih => rw [firsts_append, mem_push, ih]; simp

theorem nodup_push {α : Type} [DecidableEq α] {l : List α} (h : l.Nodup) (x : α) : (push l x).Nodup := by
  unfold push
  split
  · exact h
  · next h2 =>
    rw [List.nodup_append]
    refine ⟨h, by simp, ?_⟩
    intro a ha b hb hab
    simp only [List.mem_singleton] at hb
    rw [hab, hb] at ha; exact h2 ha

theorem nodup_firsts {α : Type} [DecidableEq α] (l : List α) : (firsts l).Nodup := by
  induction l using list_snoc with
  | nil => simp [firsts]
  | snoc l x ih => rw [firsts_append]; exact nodup_push ih x

/-! ### The invariant -/

/-- The neighbours of `k` on `w` in the order of the reports. -/
def nbs (reps : List Rep) (w : Str) (k : Key) : List Key :=
  firsts ((reps.filter fun r => r.w = w ∧ r.a = k).map (·.b))

structure Ord (g : Graph P) (ks : List Key) (reps : List Rep) : Prop where
  nodes : ∀ i k, IsNode g i k ↔ ks[i]? = some k
  asc : ∀ n ids, g.fixIdByName.get? n = some ids → ids.Pairwise (· < ·)
  edges : ∀ (i : Nat) (f : GraphFix P) (a : Nat) (w : Str) (k : Key), g.fixes[i]? = some f → g.airwayNameById[a]? = some w →
    IsNode g i k → AllNodes g (((f.edges.get? a).getD []).map (·.to)) (nbs reps w k)

theorem ord_empty : Ord (Graph.empty : Graph P) [] [] where
  nodes := by
    intro i k
    simp only [List.getElem?_nil, reduceCtorEq, iff_false]
    rintro ⟨f, h, _⟩; simp [Graph.empty] at h
  asc := by intro n ids h; simp [Graph.empty] at h
  edges := by intro i f a w k h; simp [Graph.empty] at h

theorem allNodes_mono {g g' : Graph P} (h : ∀ i k, IsNode g i k → IsNode g' i k) :
    ∀ (is : List Nat) (ks : List Key), AllNodes g is ks → AllNodes g' is ks
  | [], [], _ => trivial
  | i :: is, k :: ks, hn => ⟨h _ _ hn.1, allNodes_mono h is ks hn.2⟩
  | [], _ :: _, hn => hn.elim
  | _ :: _, [], hn => hn.elim

theorem allNodes_snoc {g : Graph P} {i : Nat} {k : Key} (hi : IsNode g i k) :
    ∀ (is : List Nat) (ks : List Key), AllNodes g is ks → AllNodes g (is ++ [i]) (ks ++ [k])
  | [], [], _ => ⟨hi, trivial⟩
  | _ :: is, _ :: ks, hn => ⟨hn.1, allNodes_snoc hi is ks hn.2⟩
  | [], _ :: _, hn => hn.elim
  | _ :: _, [], hn => hn.elim

theorem allNodes_mem {g : Graph P} {i : Nat} {k : Key} (hinj : ∀ i j k, IsNode g i k → IsNode g j k → i = j) (hi : IsNode g i k) :
    ∀ (is : List Nat) (ks : List Key), AllNodes g is ks → (i ∈ is ↔ k ∈ ks)
  | [], [], _ => by simp
  | j :: is, l :: ks, hn => by
    rw [List.mem_cons, List.mem_cons, allNodes_mem hinj hi is ks hn.2]
    have : i = j ↔ k = l := by
      constructor
      · rintro rfl; exact hi.unique hn.1
      · rintro rfl; exact hinj _ _ _ hi hn.1
    rw [this]
  | [], _ :: _, hn => hn.elim
  | _ :: _, [], hn => hn.elim

theorem nbs_of_no_node {g : Graph P} {reps extra} (h : Inv g reps extra) {k : Key} (hk : ∀ i, ¬ IsNode g i k) (w : Str) :
    nbs reps w k = [] := by
  have : (reps.filter fun r => r.w = w ∧ r.a = k) = [] := by
    rw [List.filter_eq_nil_iff]
    intro r hr h2
    simp only [decide_eq_true_eq] at h2
    obtain ⟨i, a, e, _, h3, _⟩ := h.complete r hr
    exact hk i (h2.2 ▸ h3)
  unfold nbs
  rw [this]
  rfl

theorem nbs_of_no_airway {g : Graph P} {reps extra} (h : Inv g reps extra) {w : Str} (hw : g.airwayIdByName.get? w = none) (k : Key) :
    nbs reps w k = [] := by
  have : (reps.filter fun r => r.w = w ∧ r.a = k) = [] := by
    rw [List.filter_eq_nil_iff]
    intro r hr h2
    simp only [decide_eq_true_eq] at h2
    obtain ⟨i, a, e, h3, _⟩ := h.complete r hr
    rw [h2.1, hw] at h3; cases h3
  unfold nbs
  rw [this]
  rfl

theorem ord_addFixRaw {g : Graph P} {reps extra ks} (h : Inv g reps extra) (o : Ord g ks reps) (pos : P) (name : Str)
    (hnew : ∀ i, ¬ IsNode g i (name, quantize pos)) :
    Ord (g.addFixRaw pos name).1 (ks ++ [(name, quantize pos)]) reps := by
  have hN := isNode_addFixRaw h.len pos name
  have hlen : ks.length = g.fixes.length := by
    rcases Nat.lt_trichotomy ks.length g.fixes.length with h1 | h1 | h1
    · obtain ⟨k, hk⟩ := h.exists_node h1
      rw [o.nodes, List.getElem?_eq_none (Nat.le_refl _)] at hk; cases hk
    · exact h1
    · have := (o.nodes _ _).2 (List.getElem?_eq_getElem h1)
      exact absurd this.lt (by omega)
  refine ⟨?_, ?_, ?_⟩
  · intro i k
    rw [hN, o.nodes, ← hlen]
    rcases Nat.lt_trichotomy i ks.length with h1 | h1 | h1
    · rw [List.getElem?_append_left h1]
      constructor
      · rintro (h2 | ⟨h2, _⟩)
        · exact h2
        · omega
      · exact Or.inl
    · subst h1
      rw [List.getElem?_append_right (Nat.le_refl _), Nat.sub_self, List.getElem?_eq_none (Nat.le_refl _)]
      simp [eq_comm]
    · rw [List.getElem?_eq_none (Nat.le_of_lt h1), List.getElem?_eq_none (by simp; omega)]
      constructor
      · rintro (h2 | ⟨h2, _⟩)
        · cases h2
        · omega
      · intro h2; cases h2
  · intro n ids hids
    simp only [Graph.addFixRaw, Map.get?_insert] at hids
    split at hids
    · cases hids
      rw [List.pairwise_append]
      cases h3 : g.fixIdByName.get? name with
      | none => simp
      | some l =>
        refine ⟨o.asc _ _ h3, by simp, ?_⟩
        intro a ha b hb
        simp only [List.mem_singleton] at hb
        simp only [Option.getD_some] at ha
        subst hb
        obtain ⟨f, hf⟩ := h.exists_fix (h.ids_ok _ _ h3 a ha)
        rcases Nat.lt_or_ge a g.fixes.length with h4 | h4
        · exact h4
        · rw [List.getElem?_eq_none h4] at hf; cases hf
    · exact o.asc _ _ hids
  · intro i f a w k hf hw hk
    simp only [Graph.addFixRaw] at hf hw
    rcases (hN i k).1 hk with hk' | ⟨rfl, rfl⟩
    · rw [List.getElem?_append_left hk'.lt] at hf
      exact allNodes_mono (fun i k h2 => (hN i k).2 (Or.inl h2)) _ _ (o.edges i f a w k hf hw hk')
    · rw [List.getElem?_append_right (Nat.le_refl _), Nat.sub_self] at hf
      cases hf
      rw [nbs_of_no_node h hnew]
      simp [Map.get?, AllNodes]

theorem ord_getOrInsertFixId {g : Graph P} {reps extra ks} (h : Inv g reps extra) (o : Ord g ks reps) (pos : P) (name : Str)
    {g' : Graph P} {id : Nat} (hrun : g.getOrInsertFixId pos name = .ok (g', id)) :
    Ord g' (push ks (name, quantize pos)) reps := by
  have hold : ∀ i, IsNode g i (name, quantize pos) → push ks (name, quantize pos) = ks := by
    intro i hi
    unfold push
    rw [if_pos]
    exact List.mem_of_getElem? ((o.nodes _ _).1 hi)
  have hnew : (∀ i, ¬ IsNode g i (name, quantize pos)) → push ks (name, quantize pos) = ks ++ [(name, quantize pos)] := by
    intro hn
    unfold push
    rw [if_neg]
    intro hm
    obtain ⟨i, hi⟩ := List.getElem?_of_mem hm
    exact hn i ((o.nodes _ _).2 hi)
  unfold Graph.getOrInsertFixId at hrun
  cases hids : g.fixIdByName.get? name with
  | none =>
    rw [hids] at hrun
    have hn : ∀ i, ¬ IsNode g i (name, quantize pos) := by
      rintro i ⟨f, h1, h2, h3⟩
      obtain ⟨ids, h4, h5⟩ := h.ids_complete i _ h2
      simp [hids] at h4
    cases hrun
    rw [hnew hn]
    exact ord_addFixRaw h o pos name hn
  | some ids =>
    rw [hids] at hrun
    simp only at hrun
    have hv : ∀ i ∈ ids, ∃ f, g.fixes[i]? = some f := fun i hi => h.exists_fix (h.ids_ok _ _ hids i hi)
    rcases findAt_spec g pos ids hv with ⟨i, hi, f, h1, h2, h3⟩ | ⟨h1, h2⟩
    · rw [h1] at hrun
      cases hrun
      rw [hold _ ⟨f, h2, h.ids_ok _ _ hids _ hi, h3⟩]
      exact o
    · rw [h1] at hrun
      have hn : ∀ i, ¬ IsNode g i (name, quantize pos) := by
        rintro i ⟨f, h4, h5, h6⟩
        obtain ⟨ids', h7, h8⟩ := h.ids_complete i _ h5
        simp only at h7
        rw [hids] at h7; cases h7
        exact h2 i h8 f h4 h6
      cases hrun
      rw [hnew hn]
      exact ord_addFixRaw h o pos name hn

theorem ord_getOrInsertAirwayId {g : Graph P} {reps extra ks} (h : Inv g reps extra) (o : Ord g ks reps) (w : Str) :
    Ord (g.getOrInsertAirwayId w).1 ks reps := by
  unfold Graph.getOrInsertAirwayId
  cases hw : g.airwayIdByName.get? w with
  | some id => exact o
  | none =>
    refine ⟨o.nodes, o.asc, ?_⟩
    intro i f a v k hf hv hk
    simp only at hf hv
    rcases Nat.lt_trichotomy a g.airwayNameById.length with h2 | h2 | h2
    · rw [List.getElem?_append_left h2] at hv
      exact allNodes_mono (g := g) (g' := { g with airwayIdByName := g.airwayIdByName.insert w g.airwayNameById.length, airwayNameById := g.airwayNameById ++ [w] }) (fun _ _ h2 => h2) _ _ (o.edges i f a v k hf hv hk)
    · subst h2
      rw [List.getElem?_append_right (Nat.le_refl _), Nat.sub_self] at hv
      simp only [List.getElem?_cons_zero, Option.some.injEq] at hv
      subst hv
      rw [nbs_of_no_airway h hw]
      cases hes : f.edges.get? g.airwayNameById.length with
      | none => simp [AllNodes]
      | some es => exact absurd (h.edges_ok i f _ es hf hes).2.2.2 (by omega)
    · rw [List.getElem?_eq_none (by simp; omega)] at hv; cases hv

theorem nbs_append_other (reps : List Rep) (r : Rep) {w : Str} {k : Key} (h : ¬ (r.w = w ∧ r.a = k)) :
    nbs (reps ++ [r]) w k = nbs reps w k := by
  have : decide (r.w = w ∧ r.a = k) = false := decide_eq_false h
  unfold nbs
  rw [List.filter_append, List.filter_cons, this]
  simp

theorem nbs_append_same (reps : List Rep) (r : Rep) : nbs (reps ++ [r]) r.w r.a = push (nbs reps r.w r.a) r.b := by
  unfold nbs
  rw [List.filter_append, List.map_append, ← firsts_append]
  simp

theorem ord_insertOrUpdateEdge {g : Graph P} {reps extra ks} (h : Inv g reps extra) (o : Ord g ks reps)
    {i a : Nat} {n : AirwayEdge} {w : Str} {ka kb : Key} (hi : IsNode g i ka)
    (hto : IsNode g n.to kb) (ha : g.airwayNameById[a]? = some w) {g' : Graph P} (hrun : g.insertOrUpdateEdge i a n = .ok g') :
    Ord g' ks (reps ++ [⟨w, ka, kb, n.validDirection, n.minimumLevel⟩]) := by
  obtain ⟨f, hf, hname, hpos⟩ := id hi
  have hilt := hi.lt
  simp only [Graph.insertOrUpdateEdge, Graph.fixAt, hf, unwrap_some, run_ok_bind, Except.ok.injEq] at hrun
  subst hrun
  let f' : GraphFix P := { f with edges := f.edges.insert a (upsertEdge ((f.edges.get? a).getD []) n) }
  let g' : Graph P := { g with fixes := g.fixes.set i f' }
  show Ord g' _ _
  have hfix : ∀ j, g'.fixes[j]? = if i = j then some f' else g.fixes[j]? := by
    intro j
    simp only [g', List.getElem?_set]
    split
    · next h1 => subst h1; simp
    · rfl
  have hN : ∀ j k, IsNode g' j k ↔ IsNode g j k := by
    intro j k
    unfold IsNode FixAt
    rw [hfix]
    split
    · next h1 =>
      subst h1
      constructor
      · rintro ⟨x, h2, h3, h4⟩; cases h2; exact ⟨f, hf, h3, h4⟩
      · rintro ⟨x, h2, h3, h4⟩
        rw [hf] at h2; cases h2
        exact ⟨f', rfl, h3, h4⟩
    · exact Iff.rfl
  have mono := allNodes_mono (fun i k h2 => (hN i k).2 h2)
  refine ⟨fun j k => by rw [hN, o.nodes], o.asc, ?_⟩
  intro j x b v k hx hv hk
  rw [hN] at hk
  have hv' : g.airwayNameById[b]? = some v := hv
  rw [hfix] at hx
  by_cases hij : i = j
  · subst hij
    rw [if_pos rfl] at hx
    cases hx
    have hkk := hk.unique hi
    subst hkk
    by_cases hb : a = b
    · subst hb
      rw [ha] at hv'
      cases hv'
      rw [nbs_append_same]
      have old := o.edges i f a w k hf ha hk
      have hm := allNodes_mem h.node_inj hto _ _ old
      simp only [f', Map.get?_insert_self, Option.getD_some, upsertEdge_to, push]
      by_cases hin : kb ∈ nbs reps w k
      · rw [if_pos (hm.2 hin), if_pos hin]; exact mono _ _ old
      · rw [if_neg (fun h2 => hin (hm.1 h2)), if_neg hin]
        exact mono _ _ (allNodes_snoc hto _ _ old)
    · have hne : ¬ (w = v ∧ k = k) := by
        rintro ⟨rfl, _⟩
        have h3 := (h.awy w a).2 ha
        rw [(h.awy w b).2 hv'] at h3
        exact hb (Option.some.inj h3).symm
      rw [nbs_append_other _ _ hne]
      simp only [f', Map.get?_insert_ne _ _ hb]
      exact mono _ _ (o.edges i f b v k hf hv' hk)
  · rw [if_neg hij] at hx
    have hne : ¬ (w = v ∧ ka = k) := by
      rintro ⟨_, rfl⟩
      exact hij (h.node_inj _ _ _ hi hk)
    rw [nbs_append_other _ _ hne]
    exact mono _ _ (o.edges j x b v k hx hv' hk)

theorem ord_insertOrUpdateSegment {g : Graph P} {reps ks} (h : Inv g reps []) (o : Ord g ks reps) (s : Segment P)
    {g' : Graph P} (hrun : g.insertOrUpdateSegment s = .ok g') : Ord g' (push (push ks (src s)) (dst s)) (reps ++ repsOf s) := by
  obtain ⟨g₁, i, e₁, I₁, n₁, _, _, _⟩ := getOrInsertFixId_spec h s.fromPos s.fromName
  have o₁ := ord_getOrInsertFixId h o _ _ e₁
  obtain ⟨g₂, j, e₂, I₂, n₂, p₂, _, _⟩ :=
    getOrInsertFixId_spec I₁ s.segment.fix.coordinate s.segment.fix.designator
  have o₂ := ord_getOrInsertFixId I₁ o₁ _ _ e₂
  have n₁' := p₂ _ _ n₁
  obtain ⟨I₃, w₃, p₃⟩ := getOrInsertAirwayId_spec I₂ s.airway
  have o₃ := ord_getOrInsertAirwayId I₂ o₂ s.airway
  have m₁ := p₃ _ _ n₁'
  have m₂ := p₃ _ _ n₂
  obtain ⟨g₄, e₄, I₄, p₄, q₄⟩ := insertOrUpdateEdge_spec I₃ (i := i)
    (a := (g₂.getOrInsertAirwayId s.airway).2)
    (n := ⟨j, s.segment.validDirection, s.segment.minimumLevel, none, s.airwayType⟩) m₁ m₂ w₃
  have o₄ := ord_insertOrUpdateEdge I₃ o₃ (n := ⟨j, s.segment.validDirection, s.segment.minimumLevel, none, s.airwayType⟩) m₁ m₂ w₃ e₄
  obtain ⟨g₅, e₅, I₅, _, _⟩ := insertOrUpdateEdge_spec I₄ (i := j)
    (a := (g₂.getOrInsertAirwayId s.airway).2)
    (n := ⟨i, false, s.segment.minimumLevel, none, s.airwayType⟩)
    (p₄ _ _ m₂) (p₄ _ _ m₁) (by rw [q₄]; exact w₃)
  have o₅ := ord_insertOrUpdateEdge I₄ o₄ (n := ⟨i, false, s.segment.minimumLevel, none, s.airwayType⟩)
    (p₄ _ _ m₂) (p₄ _ _ m₁) (by rw [q₄]; exact w₃) e₅
  have : g.insertOrUpdateSegment s = .ok g₅ := by
    unfold Graph.insertOrUpdateSegment
    rw [e₁]; simp only [run_ok_bind]
    rw [e₂]; simp only [run_ok_bind]
    rw [e₄]; simp only [run_ok_bind]
    exact e₅
  rw [hrun] at this
  cases this
  have hreps : reps ++ repsOf s = reps ++
        [⟨s.airway, src s, dst s, s.segment.validDirection, s.segment.minimumLevel⟩] ++
        [⟨s.airway, dst s, src s, false, s.segment.minimumLevel⟩] := by simp [repsOf]
  rw [hreps]
  exact o₅

theorem build_ord {segs : List (Segment P)} {g : Graph P} (h : build segs = .ok g) :
    Ord g (allFixes segs) (segs.flatMap repsOf) := by
  induction segs using list_snoc generalizing g with
  | nil => cases h; exact ord_empty
  | snoc segs s ih =>
    unfold build at h
    rw [List.foldlM_append] at h
    obtain ⟨g₁, h₁, I₁⟩ := build_spec segs
    have h₁' : segs.foldlM (fun g s => g.insertOrUpdateSegment s) (Graph.empty : Graph P) = Except.ok (ε := Fault) g₁ := h₁
    rw [h₁'] at h
    simp only [run_ok_bind, List.foldlM_cons, List.foldlM_nil] at h
    obtain ⟨g₂, h₂, _⟩ := insertOrUpdateSegment_spec I₁ s
    rw [h₂] at h
    cases h
    have := ord_insertOrUpdateSegment I₁ (ih h₁) s h₂
    have e1 : allFixes (segs ++ [s]) = push (push (allFixes segs) (src s)) (dst s) := by
      unfold allFixes
      rw [← firsts_append, ← firsts_append, List.flatMap_append]
      simp
    rw [e1, List.flatMap_append]
    simpa using this

theorem nbs_eq (segs : List (Segment P)) (w : Str) (k : Key) : nbs (segs.flatMap repsOf) w k = neighbours segs w k := by
  unfold nbs neighbours
  congr 1
  induction segs with
  | nil => rfl
  | cons s segs ih =>
    rw [List.flatMap_cons, List.filter_append, List.map_append, ih, List.flatMap_cons]
    congr 1
    unfold repsOf joined
    by_cases h1 : s.airway = w <;> by_cases h2 : src s = k <;> by_cases h3 : dst s = k <;> simp [h1, h2, h3]

theorem mem_neighbours (segs : List (Segment P)) (w : Str) (a b : Key) : b ∈ neighbours segs w a ↔ Adjacent segs w a b := by
  unfold neighbours Adjacent
  rw [mem_firsts, List.mem_flatMap]
  refine exists_congr fun s => and_congr_right fun _ => ?_
  unfold joined Joins Reports
  by_cases h1 : s.airway = w <;> by_cases h2 : src s = a <;> by_cases h3 : dst s = a <;> simp [h1, h2, h3, eq_comm] 

theorem mem_allFixes (segs : List (Segment P)) (k : Key) : k ∈ allFixes segs ↔ ∃ s ∈ segs, src s = k ∨ dst s = k := by
  unfold allFixes
  rw [mem_firsts, List.mem_flatMap]
  refine exists_congr fun s => and_congr_right fun _ => ?_
  simp [eq_comm]

theorem neighbours_ne_nil (segs : List (Segment P)) (w : Str) (a : Key) : neighbours segs w a ≠ [] ↔ OnAirway segs w a := by
  constructor
  · intro h
    cases hn : neighbours segs w a with
    | nil => exact absurd hn h
    | cons b l => exact ⟨b, (mem_neighbours ..).1 (by rw [hn]; simp)⟩
  · rintro ⟨b, hb⟩ h
    have := (mem_neighbours ..).2 hb
    rw [h] at this; simp at this

end Verif.AirwayGraph
