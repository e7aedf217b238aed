import Verif.Proofs.AirwayTraverse
/-!
# Linear airways (helper lemmas)
-/

namespace Verif.AirwayGraph
set_option linter.unusedSectionVars false
open Spec
variable {P : Type} [Quantize P]
variable {segs : List (Segment P)} {g : Graph P}

theorem nodup_split {α : Type} {a : α} : ∀ {l₁ l₂ t₁ t₂ : List α}, (l₁ ++ a :: t₁).Nodup →
    l₁ ++ a :: t₁ = l₂ ++ a :: t₂ → l₁ = l₂ ∧ t₁ = t₂
  | [], [], t₁, t₂, _, h => ⟨rfl, by simpa using h⟩
  | [], x :: l₂, t₁, t₂, hn, h => by
    simp only [List.nil_append, List.cons_append, List.cons.injEq] at h
    obtain ⟨rfl, rfl⟩ := h
    simp at hn
  | x :: l₁, [], t₁, t₂, hn, h => by
    simp only [List.nil_append, List.cons_append, List.cons.injEq] at h
    obtain ⟨rfl, h⟩ := h
    simp at hn
  | x :: l₁, y :: l₂, t₁, t₂, hn, h => by
    simp only [List.cons_append, List.cons.injEq] at h
    obtain ⟨rfl, h⟩ := h
    have hn' : (l₁ ++ a :: t₁).Nodup := by
      simp only [List.cons_append, List.nodup_cons] at hn; exact hn.2
    obtain ⟨h1, h2⟩ := nodup_split hn' h
    exact ⟨by rw [h1], h2⟩

theorem chain_nbrs {α : Type} {pre rest : List α} {kp kc : α}
    (hn : (pre ++ kp :: kc :: rest).Nodup) (x : α) :
    (Consecutive (pre ++ kp :: kc :: rest) kc x ∨ Consecutive (pre ++ kp :: kc :: rest) x kc) ↔
      x = kp ∨ rest.head? = some x := by
  have e : pre ++ kp :: kc :: rest = (pre ++ [kp]) ++ kc :: rest := by simp
  constructor
  · rintro (⟨l₁, l₂, h⟩ | ⟨l₁, l₂, h⟩)
    · right
      rw [e] at h hn
      obtain ⟨h1, h2⟩ := nodup_split hn h
      rw [h2]; rfl
    · left
      have h' : pre ++ kp :: kc :: rest = (l₁ ++ [x]) ++ kc :: l₂ := by rw [h]; simp
      rw [e] at h' hn
      obtain ⟨h1, h2⟩ := nodup_split hn h'
      have := List.append_inj' h1 rfl
      simpa [eq_comm] using this.2
  · rintro (rfl | h)
    · right; exact ⟨pre, rest, rfl⟩
    · left
      cases rest with
      | nil => simp at h
      | cons y rest =>
        simp at h; subst h
        exact ⟨pre ++ [kp], rest, by simp⟩

theorem head_nbrs {α : Type} {rest : List α} {kc : α}
    (hn : (kc :: rest).Nodup) (x : α) :
    (Consecutive (kc :: rest) kc x ∨ Consecutive (kc :: rest) x kc) ↔ rest.head? = some x := by
  constructor
  · rintro (⟨l₁, l₂, h⟩ | ⟨l₁, l₂, h⟩)
    · have h' : ([] : List α) ++ kc :: rest = l₁ ++ kc :: x :: l₂ := by simpa using h
      obtain ⟨h1, h2⟩ := nodup_split (by simpa using hn) h'
      rw [h2]; rfl
    · have h' : ([] : List α) ++ kc :: rest = (l₁ ++ [x]) ++ kc :: l₂ := by simpa using h
      obtain ⟨h1, h2⟩ := nodup_split (by simpa using hn) h'
      simp at h1
  · intro h
    left
    cases rest with
    | nil => simp at h
    | cons y rest => simp at h; subst h; exact ⟨[], rest, rfl⟩

theorem nodup_singleton_of_mem {α : Type} {l : List α} (hn : l.Nodup) {p : α}
    (h : ∀ j, j ∈ l ↔ j = p) : l = [p] := by
  cases l with
  | nil => have := (h p).2 rfl; simp at this
  | cons x l =>
    have hx := (h x).1 (by simp); subst hx
    cases l with
    | nil => rfl
    | cons y l =>
      have hy := (h y).1 (by simp); subst hy
      simp at hn

theorem nodup_pair_of_mem {α : Type} {l : List α} (hn : l.Nodup) {p q : α} (hpq : p ≠ q)
    (h : ∀ j, j ∈ l ↔ j = p ∨ j = q) : l = [p, q] ∨ l = [q, p] := by
  cases l with
  | nil => have := (h p).2 (Or.inl rfl); simp at this
  | cons x l =>
    rw [List.nodup_cons] at hn
    rcases (h x).1 (by simp) with hx | hx
    · subst hx
      left
      have : l = [q] := nodup_singleton_of_mem hn.2 fun j => by
        constructor
        · intro hj
          rcases (h j).1 (by simp [hj]) with h2 | h2
          · subst h2; exact absurd hj hn.1
          · exact h2
        · rintro rfl
          have := (h j).2 (Or.inr rfl)
          rcases List.mem_cons.1 this with h2 | h2
          · exact absurd h2.symm hpq
          · exact h2
      rw [this]
    · subst hx
      right
      have : l = [p] := nodup_singleton_of_mem hn.2 fun j => by
        constructor
        · intro hj
          rcases (h j).1 (by simp [hj]) with h2 | h2
          · exact h2
          · subst h2; exact absurd hj hn.1
        · rintro rfl
          have := (h j).2 (Or.inl rfl)
          rcases List.mem_cons.1 this with h2 | h2
          · exact absurd h2 hpq
          · exact h2
      rw [this]

/-- The edges of a fix on an airway are its neighbours. -/
theorem node_edges (R : Rel segs g) {a : Nat} {w : Str} (hw : g.airwayNameById[a]? = some w)
    {i : Nat} {k : Key} (hi : IsNode g i k) (hk : OnAirway segs w k) :
    ∃ f es, g.fixes[i]? = some f ∧ f.edges.get? a = some es ∧ (es.map (·.to)).Nodup ∧
      (∀ j, j ∈ es.map (·.to) ↔ ∃ x, IsNode g j x ∧ Adjacent segs w k x) := by
  obtain ⟨e, f, es, h1, h2, h3⟩ := (onAirway_iff R hw hi).1 hk
  refine ⟨f, es, h1, h2, (Inv.edges_ok R i f a es h1 h2).2.1, ?_⟩
  intro j
  constructor
  · intro hj
    obtain ⟨e', h4, rfl⟩ := List.mem_map.1 hj
    have he' : EdgeIn g i a e' := ⟨f, es, h1, h2, h4⟩
    obtain ⟨x, hx⟩ := he'.node R
    exact ⟨x, hx, (edge_leg R he' hw hi hx).1⟩
  · rintro ⟨x, hx, hadj⟩
    obtain ⟨i', e', h4, h5, h6⟩ := adjacent_edge R hw hadj
    have : i' = i := Inv.node_inj R _ _ _ h4 hi
    subst this
    obtain ⟨f', es', h7, h8, h9⟩ := h6
    rw [h1] at h7; cases h7
    rw [h2] at h8; cases h8
    have : e'.to = j := Inv.node_inj R _ _ _ h5 hx
    exact List.mem_map.2 ⟨e', h9, this⟩

theorem nextEdge_one {es : List AirwayEdge} {p : Nat} (h : es.map (·.to) = [p]) :
    nextEdge es p = none := by
  match es, h with
  | [e], h => simp at h; simp [nextEdge, h]

theorem nextEdge_two {es : List AirwayEdge} {p q : Nat} (hpq : p ≠ q)
    (h : es.map (·.to) = [p, q] ∨ es.map (·.to) = [q, p]) :
    ∃ e ∈ es, e.to = q ∧ nextEdge es p = some e := by
  have hqp : q ≠ p := fun h => hpq h.symm
  match es, h with
  | [e₁, e₂], .inl h =>
    simp at h; refine ⟨e₂, by simp, h.2, ?_⟩
    simp [nextEdge, h.1, h.2, hqp]
  | [e₁, e₂], .inr h =>
    simp at h; refine ⟨e₁, by simp, h.1, ?_⟩
    simp [nextEdge, h.1, hqp]

/-- One step along a chain. -/
theorem chain_step (R : Rel segs g) {a : Nat} {w : Str} (hw : g.airwayNameById[a]? = some w)
    {pre rest : List Key} {kp kc : Key} (hc : IsChain segs w (pre ++ kp :: kc :: rest))
    {ip ic : Nat} (hp : IsNode g ip kp) (hic : IsNode g ic kc) :
    ∃ f es, g.fixes[ic]? = some f ∧ f.edges.get? a = some es ∧
      (rest = [] → nextEdge es ip = none) ∧
      (∀ kn, rest.head? = some kn → ∃ e ∈ es, IsNode g e.to kn ∧ nextEdge es ip = some e) := by
  have hadj : ∀ x, Adjacent segs w kc x ↔ x = kp ∨ rest.head? = some x := fun x => by
    rw [hc.adjacent_iff]; exact chain_nbrs hc.nodup x
  have hon : OnAirway segs w kc := ⟨kp, (hadj kp).2 (Or.inl rfl)⟩
  obtain ⟨f, es, h1, h2, h3, h4⟩ := node_edges R hw hic hon
  refine ⟨f, es, h1, h2, ?_⟩
  cases rest with
  | nil =>
    refine ⟨fun _ => ?_, by simp⟩
    apply nextEdge_one
    apply nodup_singleton_of_mem h3
    intro j; rw [h4]
    constructor
    · rintro ⟨x, hx, hxa⟩
      rcases (hadj x).1 hxa with rfl | hxa
      · exact Inv.node_inj R _ _ _ hx hp
      · simp at hxa
    · rintro rfl; exact ⟨kp, hp, (hadj kp).2 (Or.inl rfl)⟩
  | cons kn' rest =>
    refine ⟨by simp, fun kn hkn => ?_⟩
    simp only [List.head?_cons, Option.some.injEq] at hkn
    subst hkn
    have hka : Adjacent segs w kc kn' := (hadj _).2 (Or.inr rfl)
    obtain ⟨_, e', _, hin, _⟩ := adjacent_edge R hw hka
    have hne : ip ≠ e'.to := by
      intro h
      rw [← h] at hin
      have := hp.unique hin
      subst this
      have hnd := hc.nodup
      rw [List.nodup_append] at hnd
      simp at hnd
    obtain ⟨e, he, hto, hnext⟩ := nextEdge_two hne (nodup_pair_of_mem h3 hne fun j => by
      rw [h4]
      constructor
      · rintro ⟨x, hx, hxa⟩
        rcases (hadj x).1 hxa with rfl | hxa
        · exact Or.inl (Inv.node_inj R _ _ _ hx hp)
        · simp at hxa; subst hxa; exact Or.inr (Inv.node_inj R _ _ _ hx hin)
      · rintro (rfl | rfl)
        · exact ⟨kp, hp, (hadj kp).2 (Or.inl rfl)⟩
        · exact ⟨kn', hin, hka⟩)
    exact ⟨e, he, by rw [hto]; exact hin, hnext⟩

theorem traverse_chain_none (R : Rel segs g) {a : Nat} {w : Str}
    (hw : g.airwayNameById[a]? = some w) {endId : Nat} {kb : Key} (hb : IsNode g endId kb) :
    ∀ (rest pre : List Key) (kp kc : Key), IsChain segs w (pre ++ kp :: kc :: rest) →
      kb ∉ kc :: rest → ∀ (fuel ip : Nat) (e : AirwayEdge), IsNode g ip kp → EdgeIn g ip a e →
        IsNode g e.to kc → g.traverse endId a fuel ip e = .ok none := by
  intro rest
  induction rest with
  | nil =>
    intro pre kp kc hc hkb fuel ip e hp he hic
    cases fuel with
    | zero => rfl
    | succ fuel =>
      have hne : e.to ≠ endId := by
        intro h; rw [h] at hic; exact hkb (by rw [hb.unique hic]; simp)
      obtain ⟨f, es, h1, h2, h3⟩ := chain_step R hw hc hp hic
      simp [Graph.traverse, hne, Graph.fixAt, h1, h2, h3.1 rfl]
  | cons kn rest ih =>
    intro pre kp kc hc hkb fuel ip e hp he hic
    cases fuel with
    | zero => rfl
    | succ fuel =>
      have hne : e.to ≠ endId := by
        intro h; rw [h] at hic; exact hkb (by rw [hb.unique hic]; simp)
      obtain ⟨f, es, h1, h2, _, h3⟩ := chain_step R hw hc hp hic
      obtain ⟨e', he', hn', hnext⟩ := h3 kn rfl
      have := ih (pre ++ [kp]) kc kn (by simpa using hc) (fun h => hkb (by simp [List.mem_cons.1 h]))
        fuel e.to e' hic ⟨f, es, h1, h2, he'⟩ hn'
      simp [Graph.traverse, hne, Graph.fixAt, h1, h2, hnext, this]

theorem traverse_chain_some (R : Rel segs g) {a : Nat} {w : Str}
    (hw : g.airwayNameById[a]? = some w) {endId : Nat} {kb : Key} (hb : IsNode g endId kb) :
    ∀ (p q pre : List Key) (kp : Key), IsChain segs w (pre ++ kp :: (p ++ kb :: q)) →
      ∀ (fuel ip : Nat) (e : AirwayEdge), IsNode g ip kp → EdgeIn g ip a e →
        (∃ kc, (p ++ kb :: q).head? = some kc ∧ IsNode g e.to kc) → p.length < fuel →
        ∃ ids, g.traverse endId a fuel ip e = .ok (some ids) ∧
          AllNodes g (ids.map (·.1)) (p ++ [kb]) := by
  intro p
  induction p with
  | nil =>
    rintro q pre kp hc fuel ip e hp he ⟨kc, hh, hic⟩ hfuel
    simp at hh; subst hh
    cases fuel with
    | zero => omega
    | succ fuel =>
      have : e.to = endId := Inv.node_inj R _ _ _ hic hb
      exact ⟨[(e.to, e.validDirection, e.minimumLevel)], by simp [Graph.traverse, this], ⟨hic, trivial⟩⟩
  | cons kc p ih =>
    rintro q pre kp hc fuel ip e hp he ⟨kc', hh, hic⟩ hfuel
    simp at hh; subst hh
    cases fuel with
    | zero => omega
    | succ fuel =>
      have hne : e.to ≠ endId := by
        intro h; rw [h] at hic
        have := hb.unique hic; subst this
        have := hc.nodup
        simp [List.nodup_append] at this
      obtain ⟨f, es, h1, h2, h3⟩ := chain_step R hw hc hp hic
      have hsome : ∃ kn, (p ++ kb :: q).head? = some kn := by cases p <;> simp
      obtain ⟨kn, hkn⟩ := hsome
      obtain ⟨e', he', hn', hnext⟩ := h3.2 kn hkn
      obtain ⟨ids, h4, h5⟩ := ih q (pre ++ [kp]) kc (by simpa using hc) fuel e.to e' hic
        ⟨f, es, h1, h2, he'⟩ ⟨kn, hkn, hn'⟩ (by simp at hfuel; omega)
      refine ⟨(e.to, e.validDirection, e.minimumLevel) :: ids, ?_, ⟨hic, h5⟩⟩
      simp [Graph.traverse, hne, Graph.fixAt, h1, h2, hnext, h4]

/-- Distinct known fixes cannot outnumber the fixes of the graph. -/
theorem nodup_known_length (R : Rel segs g) {l : List Key} (hn : l.Nodup)
    (hk : ∀ k ∈ l, Known segs k) : l.length ≤ g.fixes.length := by
  let keys := (List.range g.fixes.length).filterMap fun i =>
    match g.fixes[i]?, g.fixNameById[i]? with
    | some f, some n => some ((n, quantize f.position) : Key)
    | _, _ => none
  have hsub : l ⊆ keys := by
    intro k hkl
    obtain ⟨i, hi⟩ := (known_iff R k).1 (hk k hkl)
    have hlt := hi.lt
    obtain ⟨f, h1, h2, h3⟩ := hi
    refine List.mem_filterMap.2 ⟨i, List.mem_range.2 hlt, ?_⟩
    simp only [h1, h2, h3]
  have h1 := List.Nodup.length_le_of_subset hn hsub
  have h2 : keys.length ≤ (List.range g.fixes.length).length := List.length_filterMap_le _ _
  simp at h2; omega

theorem isChain_reverse {w : Str} {l : List Key} (h : IsChain segs w l) :
    IsChain segs w l.reverse where
  nodup := List.pairwise_reverse.2 (h.nodup.imp fun hab => hab.symm)
  adjacent_iff := by
    have hrev : ∀ a b, Consecutive l.reverse a b ↔ Consecutive l b a := by
      intro a b
      constructor
      · rintro ⟨l₁, l₂, h⟩
        refine ⟨l₂.reverse, l₁.reverse, ?_⟩
        have := congrArg List.reverse h
        simpa using this
      · rintro ⟨l₁, l₂, h⟩
        exact ⟨l₂.reverse, l₁.reverse, by rw [h]; simp⟩
    intro a b
    rw [h.adjacent_iff, hrev, hrev]
    exact Or.comm

end Verif.AirwayGraph
