import Verif.Proofs.SectorIndex
/-!
# C25, C26, C27: queries against the sector index
-/

namespace Verif.SectorIndex
open Verif.Sectors Spec

variable {F L : Type} [LE F] [DecidableLE F]

/-- **C25.** On a freshly built index `find_sector` finds a sector exactly if the exhaustive search
over all controlled sectors' volumes finds one, and it is the one with the least id. -/
theorem C25_find_sector_iff [Std.IsLinearPreorder F] (env : Env F L)
    (hc : ContainsWithinExtent env) (hs : ShufflePerm env)
    (d : Data F) (p : Pt F) (level : L) (id : Str) :
    findSector env (buildTree d) p level = some id ↔
      (SectorAt env d p level id ∧ ∀ id', SectorAt env d p level id' → StrLe id id') := by
  have hmem : ∀ i, i ∈ ((volumesAt env (buildTree d) p).filter fun v =>
      env.le (env.asF32 v.2.lowerLevel) level && env.lt level (env.asF32 v.2.upperLevel)).map (·.1) ↔
      SectorAt env d p level i := by
    intro i
    simp only [List.mem_map, List.mem_filter, Bool.and_eq_true, SectorAt]
    constructor
    · rintro ⟨⟨i', v⟩, ⟨hm, hl⟩, rfl⟩
      obtain ⟨h1, h2⟩ := (mem_volumesAt hc hs d p i' v).1 hm
      exact ⟨v, h1, h2, hl.1, hl.2⟩
    · rintro ⟨v, h1, h2, h3, h4⟩
      exact ⟨(i, v), ⟨(mem_volumesAt hc hs d p i v).2 ⟨h1, h2⟩, h3, h4⟩, rfl⟩
  unfold findSector
  constructor
  · intro h
    obtain ⟨h1, h2⟩ := minId_spec h
    exact ⟨(hmem id).1 h1, fun id' h' => h2 id' ((hmem id').2 h')⟩
  · rintro ⟨h1, h2⟩
    have hin := (hmem id).2 h1
    cases hm : minId (((volumesAt env (buildTree d) p).filter fun v =>
      env.le (env.asF32 v.2.lowerLevel) level && env.lt level (env.asF32 v.2.upperLevel)).map (·.1)) with
    | none =>
      rw [minId_eq_none] at hm
      rw [hm] at hin
      cases hin
    | some m =>
      obtain ⟨h3, h4⟩ := minId_spec hm
      rw [strLe_antisymm (h4 id hin) (h2 m ((hmem m).1 h3))]

/-- **C25.** It finds none exactly if there is none. -/
theorem C25_find_sector_none [Std.IsLinearPreorder F] (env : Env F L)
    (hc : ContainsWithinExtent env) (hs : ShufflePerm env)
    (d : Data F) (p : Pt F) (level : L) :
    findSector env (buildTree d) p level = none ↔ ∀ id, ¬ SectorAt env d p level id := by
  constructor
  · intro h id hid
    unfold findSector at h
    rw [minId_eq_none] at h
    obtain ⟨v, h1, h2, h3, h4⟩ := hid
    have : id ∈ ((volumesAt env (buildTree d) p).filter fun v =>
      env.le (env.asF32 v.2.lowerLevel) level && env.lt level (env.asF32 v.2.upperLevel)).map (·.1) := by
      simp only [List.mem_map, List.mem_filter, Bool.and_eq_true]
      exact ⟨(id, v), ⟨(mem_volumesAt hc hs d p id v).2 ⟨h1, h2⟩, h3, h4⟩, rfl⟩
    rw [h] at this
    cases this
  · intro h
    cases hf : findSector env (buildTree d) p level with
    | none => rfl
    | some id => exact absurd ((C25_find_sector_iff env hc hs d p level id).1 hf).1 (h id)

/-- **C25.** `volumes_at` yields exactly the volumes of controlled sectors around the point. -/
theorem C25_volumes_at_iff [Std.IsLinearPreorder F] (env : Env F L)
    (hc : ContainsWithinExtent env) (hs : ShufflePerm env)
    (d : Data F) (p : Pt F) (id : Str) (v : Volume (Border F)) :
    (id, v) ∈ volumesAt env (buildTree d) p ↔
      (ControlledVolume d id v ∧ env.contains v.lateralBorder p = true) :=
  mem_volumesAt hc hs d p id v

/-- **C27.** The candidates near a line are exactly the volumes of controlled sectors whose extent
overlaps that of the line. -/
theorem C27_near_line_iff [Std.IsLinearPreorder F] (env : Env F L) (hs : ShufflePerm env)
    (d : Data F) (a b : Pt F) (id : Str) (v : Volume (Border F)) :
    (id, v) ∈ volumesNearLine env (buildTree d) a b ↔
      (ControlledVolume d id v ∧ ExtentsOverlap v.lateralBorder a b) := by
  simp only [volumesNearLine, List.mem_map, (hs _).mem_iff, List.mem_filter, mem_buildTree]
  constructor
  · rintro ⟨e, ⟨⟨he, hr⟩, hi⟩, heq⟩
    cases heq
    exact ⟨he, (intersects_iff hr a b).1 hi⟩
  · rintro ⟨hv, ho⟩
    obtain ⟨⟨⟨q, hq, _⟩, _⟩, _⟩ := (fun h => h) ho
    have hne : v.lateralBorder ≠ [] := List.ne_nil_of_mem hq
    obtain ⟨r, hr⟩ := Option.isSome_iff_exists.1 (boundingRect_isSome.2 hne)
    exact ⟨⟨r, id, v⟩, ⟨⟨hv, hr⟩, (intersects_iff hr a b).2 ho⟩, rfl⟩

/-- **C27.** No volume that has a point `z` in common with the line is missed: if `z` is within the
extent of the volume's border and of the line, the volume is a candidate. -/
theorem C27_near_line_complete [Std.IsLinearPreorder F] (env : Env F L) (hs : ShufflePerm env)
    (d : Data F) (a b z : Pt F) (id : Str) (v : Volume (Border F))
    (hv : ControlledVolume d id v) (hz : WithinExtent v.lateralBorder z)
    (hl : WithinExtent [a, b] z) :
    (id, v) ∈ volumesNearLine env (buildTree d) a b := by
  rw [C27_near_line_iff env hs]
  refine ⟨hv, ?_⟩
  obtain ⟨⟨x1, hx1, h1⟩, ⟨x2, hx2, h2⟩, ⟨x3, hx3, h3⟩, ⟨x4, hx4, h4⟩⟩ := hz
  simp only [WithinExtent, List.mem_cons, List.not_mem_nil, or_false, exists_eq_or_imp,
    exists_eq_left] at hl
  obtain ⟨l1, l2, l3, l4⟩ := hl
  have tr := @Std.IsPreorder.le_trans F _ _
  refine ⟨⟨⟨x1, hx1, ?_⟩, ⟨x2, hx2, ?_⟩⟩, ⟨x3, hx3, ?_⟩, ⟨x4, hx4, ?_⟩⟩
  · exact l2.imp (tr _ _ _ h1) (tr _ _ _ h1)
  · exact l1.imp (fun h => tr _ _ _ h h2) (fun h => tr _ _ _ h h2)
  · exact l4.imp (tr _ _ _ h3) (tr _ _ _ h3)
  · exact l3.imp (fun h => tr _ _ _ h h4) (fun h => tr _ _ _ h h4)

/-! ### C26: histories -/

/-- An operation that (re)builds the index. -/
def Op.isRebuild : Op F L → Bool
  | .rebuild => true
  | _ => false

def Op.isQuery : Op F L → Bool
  | .query _ => true
  | _ => false

theorem run_append (a : Adaptation F) (h₁ h₂ : List (Op F L)) :
    a.run (h₁ ++ h₂) = (a.run h₁).run h₂ := by
  simp [Adaptation.run, List.foldl_append]

/-- A cached index survives everything but a rebuild. -/
theorem index_kept (a : Adaptation F) (t : List (Entry F)) (ha : a.index = some t)
    (h : List (Op F L)) (hr : ∀ op ∈ h, op.isRebuild = false) : (a.run h).index = some t := by
  induction h generalizing a with
  | nil => exact ha
  | cons op h ih =>
    refine ih (a.step op) ?_ (fun o ho => hr o (List.mem_cons_of_mem _ ho))
    cases op with
    | query q => simp [Adaptation.step, Adaptation.getOrBuild, ha]
    | mutate f => exact ha
    | rebuild => have := hr _ List.mem_cons_self; simp [Op.isRebuild] at this
    | clone => simp [Adaptation.step, Adaptation.clone, ha]

/-- Without queries and rebuilds nothing is cached. -/
theorem index_absent (a : Adaptation F) (ha : a.index = none)
    (h : List (Op F L)) (hr : ∀ op ∈ h, op.isRebuild = false ∧ op.isQuery = false) :
    (a.run h).index = none := by
  induction h generalizing a with
  | nil => exact ha
  | cons op h ih =>
    refine ih (a.step op) ?_ (fun o ho => hr o (List.mem_cons_of_mem _ ho))
    cases op with
    | query q => have := (hr _ List.mem_cons_self).2; simp [Op.isQuery] at this
    | mutate f => exact ha
    | rebuild => have := (hr _ List.mem_cons_self).1; simp [Op.isRebuild] at this
    | clone => simp [Adaptation.step, Adaptation.clone, ha]

/-- **C26.** After a rebuild, and whatever mutations, clones and queries follow it, a query is
answered from the sectors and volumes at the time of the rebuild. -/
theorem C26_after_rebuild (env : Env F L) (a : Adaptation F) (h₁ h₂ : List (Op F L))
    (hr : ∀ op ∈ h₂, op.isRebuild = false) (q : Query F L) :
    (a.run (h₁ ++ .rebuild :: h₂)).ask env q = answer env (buildTree (a.run h₁).data) q := by
  rw [run_append]
  have : ((a.run h₁).run (.rebuild :: h₂)).index = some (buildTree (a.run h₁).data) := by
    exact index_kept ((a.run h₁).step (.rebuild : Op F L)) _ rfl h₂ hr
  simp [Adaptation.ask, Adaptation.getOrBuild, this]

/-- **C26.** Without any rebuild, queries are answered from the sectors and volumes at the time of
the first query. -/
theorem C26_after_first_query (env : Env F L) (a : Adaptation F) (ha : a.index = none)
    (h₁ h₂ : List (Op F L)) (q₁ : Query F L)
    (hr₁ : ∀ op ∈ h₁, op.isRebuild = false ∧ op.isQuery = false)
    (hr₂ : ∀ op ∈ h₂, op.isRebuild = false) (q : Query F L) :
    (a.run (h₁ ++ .query q₁ :: h₂)).ask env q = answer env (buildTree (a.run h₁).data) q := by
  rw [run_append]
  have h0 := index_absent a ha h₁ hr₁
  have : ((a.run h₁).run (.query q₁ :: h₂)).index = some (buildTree (a.run h₁).data) := by
    refine index_kept ((a.run h₁).step (.query q₁ : Op F L)) _ ?_ h₂ hr₂
    simp [Adaptation.step, Adaptation.getOrBuild, h0]
  simp [Adaptation.ask, Adaptation.getOrBuild, this]

/-- **C26.** The first query is answered from the current sectors and volumes. -/
theorem C26_first_query (env : Env F L) (a : Adaptation F) (ha : a.index = none)
    (h : List (Op F L)) (hr : ∀ op ∈ h, op.isRebuild = false ∧ op.isQuery = false)
    (q : Query F L) :
    (a.run h).ask env q = answer env (buildTree (a.run h).data) q := by
  simp [Adaptation.ask, Adaptation.getOrBuild, index_absent a ha h hr]

omit [LE F] [DecidableLE F] in
/-- **C26.** These three cases cover every history: one with a rebuild has a last rebuild, one
without rebuild but with a query has a first query. -/
theorem C26_cases (h : List (Op F L)) :
    (∃ h₁ h₂, h = h₁ ++ .rebuild :: h₂ ∧ ∀ op ∈ h₂, op.isRebuild = false) ∨
    (∃ h₁ q h₂, h = h₁ ++ .query q :: h₂ ∧ (∀ op ∈ h₁, op.isRebuild = false ∧ op.isQuery = false) ∧
      ∀ op ∈ h₂, op.isRebuild = false) ∨
    (∀ op ∈ h, op.isRebuild = false ∧ op.isQuery = false) := by
  induction h with
  | nil => exact .inr (.inr (by simp))
  | cons op h ih =>
    rcases ih with ⟨h₁, h₂, rfl, h3⟩ | ⟨h₁, q, h₂, rfl, h3, h4⟩ | h3
    · exact .inl ⟨op :: h₁, h₂, rfl, h3⟩
    · cases op with
      | rebuild =>
        refine .inl ⟨[], _, rfl, ?_⟩
        intro op hop
        rcases List.mem_append.1 hop with hop | hop
        · exact (h3 op hop).1
        · rcases List.mem_cons.1 hop with rfl | hop
          · rfl
          · exact h4 op hop
      | query q' =>
        refine .inr (.inl ⟨[], q', _, rfl, by simp, ?_⟩)
        intro op hop
        rcases List.mem_append.1 hop with hop | hop
        · exact (h3 op hop).1
        · rcases List.mem_cons.1 hop with rfl | hop
          · rfl
          · exact h4 op hop
      | mutate f =>
        refine .inr (.inl ⟨.mutate f :: h₁, q, h₂, rfl, ?_, h4⟩)
        intro op hop
        rcases List.mem_cons.1 hop with rfl | hop
        · exact ⟨rfl, rfl⟩
        · exact h3 op hop
      | clone =>
        refine .inr (.inl ⟨.clone :: h₁, q, h₂, rfl, ?_, h4⟩)
        intro op hop
        rcases List.mem_cons.1 hop with rfl | hop
        · exact ⟨rfl, rfl⟩
        · exact h3 op hop
    · cases op with
      | rebuild => exact .inl ⟨[], h, rfl, fun op hop => (h3 op hop).1⟩
      | query q' => exact .inr (.inl ⟨[], q', h, rfl, by simp, fun op hop => (h3 op hop).1⟩)
      | mutate f =>
        refine .inr (.inr ?_)
        intro op hop
        rcases List.mem_cons.1 hop with rfl | hop
        · exact ⟨rfl, rfl⟩
        · exact h3 op hop
      | clone =>
        refine .inr (.inr ?_)
        intro op hop
        rcases List.mem_cons.1 hop with rfl | hop
        · exact ⟨rfl, rfl⟩
        · exact h3 op hop

/-- **C26 with C25.** Right after `rebuild_sector_index`, `find_sector` is the exhaustive search on
the current sectors and volumes. -/
theorem C26_rebuild_find [Std.IsLinearPreorder F] (env : Env F L)
    (hc : ContainsWithinExtent env) (hs : ShufflePerm env) (a : Adaptation F)
    (h : List (Op F L)) (p : Pt F) (level : L) :
    ∃ r, (a.run (h ++ [.rebuild])).ask env (.findSector p level) = .sector r ∧
      ∀ id, r = some id ↔ (SectorAt env (a.run h).data p level id ∧
        ∀ id', SectorAt env (a.run h).data p level id' → StrLe id id') := by
  refine ⟨_, C26_after_rebuild env a h [] (by simp) _, ?_⟩
  intro id
  exact C25_find_sector_iff env hc hs _ p level id

/-! ### A concrete case -/

/-- Integer coordinates and levels; a polygon "contains" what is strictly inside its extent. -/
def exEnv : Env Int Int where
  contains b p := b.any (fun q => decide (q.1 < p.1)) && b.any (fun q => decide (p.1 < q.1)) &&
    (b.any (fun q => decide (q.2 < p.2)) && b.any (fun q => decide (p.2 < q.2)))
  shuffle := List.reverse
  asF32 := Int.ofNat
  le a b := a ≤ b
  lt a b := a < b

instance : Std.IsLinearPreorder Int where
  le_refl := Int.le_refl
  le_trans _ _ _ := Int.le_trans
  le_total := Int.le_total

example : ContainsWithinExtent exEnv := by
  intro b p h
  simp only [exEnv, Bool.and_eq_true, List.any_eq_true, decide_eq_true_eq] at h
  obtain ⟨⟨⟨a, ha, h1⟩, ⟨b', hb, h2⟩⟩, ⟨c, hc, h3⟩, ⟨d, hd, h4⟩⟩ := h
  exact ⟨⟨a, ha, Int.le_of_lt h1⟩, ⟨b', hb, Int.le_of_lt h2⟩, ⟨c, hc, Int.le_of_lt h3⟩,
    ⟨d, hd, Int.le_of_lt h4⟩⟩

example : ShufflePerm exEnv := fun l => List.reverse_perm l

def exData : Data Int where
  sectors := [
    (['Z'], ⟨['Z'], [['p']], [], [['u']], [], []⟩),
    (['B'], ⟨['B'], [['p']], [], [['v'], ['w']], [], []⟩),
    (['A'], ⟨['A'], [], [], [['u']], [], []⟩)]
  volumes := [(['u'], ⟨['u'], 0, 100, [(0, 0), (10, 0), (10, 10), (0, 0)]⟩),
    (['v'], ⟨['v'], 50, 80, [(0, 0), (20, 0), (20, 20), (0, 0)]⟩)]

/-- Two sectors overlap: the lower id wins; the sector without positions is not considered; the
upper level is excluded. -/
example : findSector exEnv (buildTree exData) (5, 5) 60 = some ['B'] ∧
    findSector exEnv (buildTree exData) (5, 5) 80 = some ['Z'] ∧
    findSector exEnv (buildTree exData) (15, 5) 80 = none ∧
    (volumesNearLine exEnv (buildTree exData) (10, -5) (12, 30)).length = 2 := by decide

end Verif.SectorIndex
