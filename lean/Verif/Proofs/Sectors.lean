import Verif.Spec.Sectors
/-! # Sectors and volumes (helper lemmas) -/

namespace Verif.Sectors
open Spec
variable {P B : Type}

theorem eq_of_mem_nodup {K V : Type} {l : List (K × V)} (hn : (l.map (·.1)).Nodup) {k : K} {v w : V}
    (h1 : (k, v) ∈ l) (h2 : (k, w) ∈ l) : v = w := by
  classical
  have a := Map.get?_of_mem (m := l) hn h1
  have b := Map.get?_of_mem (m := l) hn h2
  rw [a] at b; exact Option.some.inj b

/-- entries with a polygon -/
def valid (polygon : EseSector P → Option B) (entries : List (Str × EseSector P)) :
    List (Str × EseSector P) := entries.filter fun e => (polygon e.2).isSome

theorem mem_valid {polygon : EseSector P → Option B} {entries : List (Str × EseSector P)}
    {id : Str} {e : EseSector P} :
    (id, e) ∈ valid polygon entries ↔ ∃ p, HasPolygon polygon entries id e p := by
  simp [valid, HasPolygon, Option.isSome_iff_exists]

def gkey (e : Str × EseSector P) : GroupKey := (e.2.ownerPriority, e.2.runwayFilter)

theorem groupVolumes_eq (polygon : EseSector P → Option B) (ccw : B → B)
    (entries : List (Str × EseSector P)) (g : Groups P) (m : Map Str (Volume B)) :
    entries.foldl (groupStep polygon ccw) (g, m) =
    ((valid polygon entries).foldl (fun g e => g.insert (gkey e) e) g,
      (entries.filterMap fun e => (polygon e.2).map fun p =>
        ((⟨e.1, e.2.bottom, e.2.top, ccw p⟩ : Volume B))).foldl (fun m v => m.insert v.id v) m) := by
  induction entries generalizing g m with
  | nil => rfl
  | cons e entries ih =>
    cases hp : polygon e.2 with
    | none =>
      simp only [List.foldl_cons, groupStep, hp, valid, List.filter_cons, List.filterMap_cons, Option.map_none,
        Option.isSome_none, Bool.false_eq_true, if_false]
      exact ih g m
    | some p =>
      simp only [List.foldl_cons, groupStep, hp, valid, List.filter_cons, List.filterMap_cons, Option.map_some,
        Option.isSome_some, if_true]
      exact ih _ _

theorem get?_volumes {polygon : EseSector P → Option B} {ccw : B → B}
    {entries : List (Str × EseSector P)} (hn : (entries.map (·.1)).Nodup) (id : Str) (v : Volume B) :
    (groupVolumes polygon ccw entries).2.get? id = some v ↔
      ∃ e p, HasPolygon polygon entries id e p ∧ v = ⟨id, e.bottom, e.top, ccw p⟩ := by
  unfold groupVolumes
  rw [groupVolumes_eq]
  simp only
  rw [Map.get?_foldl_insert]
  have key : ∀ w : Volume B, w ∈ entries.filterMap (fun e => (polygon e.2).map fun p =>
        ((⟨e.1, e.2.bottom, e.2.top, ccw p⟩ : Volume B))) ↔
        ∃ e p, HasPolygon polygon entries w.id e p ∧ w = ⟨w.id, e.bottom, e.top, ccw p⟩ := by
    intro w
    simp only [List.mem_filterMap, Option.map_eq_some_iff, HasPolygon]
    constructor
    · rintro ⟨⟨i, e⟩, hm, p, hp, rfl⟩
      exact ⟨e, p, ⟨hm, hp⟩, rfl⟩
    · rintro ⟨e, p, ⟨hm, hp⟩, hw⟩
      exact ⟨_, hm, p, hp, hw.symm⟩
  split
  · next w hw =>
    have h1 := List.mem_of_find?_eq_some hw
    have h2 := List.find?_some hw
    simp at h1 h2
    have h3 := (key w).1 (by simpa using h1)
    rw [h2] at h3
    obtain ⟨e, p, ⟨hm, hp⟩, hw2⟩ := h3
    constructor
    · intro h; cases h; exact ⟨e, p, ⟨hm, hp⟩, hw2⟩
    · rintro ⟨e', p', ⟨hm', hp'⟩, hv⟩
      have := eq_of_mem_nodup hn hm hm'
      subst this
      rw [hp] at hp'; cases hp'
      rw [hw2, hv]
  · next hnone =>
    simp only [Map.get?_nil]
    constructor
    · intro h; cases h
    · rintro ⟨e, p, h, hv⟩
      rw [List.find?_eq_none] at hnone
      have h3 := (key v).2 (by rw [hv]; exact ⟨e, p, h, rfl⟩)
      have := hnone v (by simpa using h3)
      rw [hv] at this
      simp at this

theorem nodup_keys_mfold (l : List (Str × EseSector P)) (g : Groups P)
    (hg : (Map.keys g).Nodup) :
    (Map.keys (l.foldl (fun g e => MultiMap.insert g (gkey e) e) g)).Nodup := by
  induction l generalizing g with
  | nil => exact hg
  | cons e l ih => exact ih _ (Map.nodup_insert hg _ _)

theorem nonempty_mfold (l : List (Str × EseSector P)) (g : Groups P)
    (hg : ∀ k v, (k, v) ∈ g → v ≠ []) (hn : (Map.keys g).Nodup) :
    ∀ k v, (k, v) ∈ (l.foldl (fun g e => MultiMap.insert g (gkey e) e) g) → v ≠ [] := by
  induction l generalizing g with
  | nil => exact hg
  | cons e l ih =>
    refine ih _ ?_ (Map.nodup_insert hn _ _)
    intro k v h
    have := Map.get?_of_mem (Map.nodup_insert hn _ _) h
    rw [Map.get?_insert] at this
    split at this
    · cases this; simp
    · exact hg k v (Map.mem_of_get? this)

theorem mem_groups {polygon : EseSector P → Option B} {ccw : B → B}
    {entries : List (Str × EseSector P)} {k : GroupKey} {l : List (Str × EseSector P)} :
    (k, l) ∈ (groupVolumes polygon ccw entries).1 ↔
      (l ≠ [] ∧ l = (valid polygon entries).filter fun e => decide (gkey e = k)) := by
  unfold groupVolumes
  rw [groupVolumes_eq]
  simp only
  have hn := nodup_keys_mfold (valid polygon entries) [] (by simp [Map.keys])
  have hv := MultiMap.getVec_foldl_insert (valid polygon entries) gkey id [] k
  have hne := nonempty_mfold (valid polygon entries) [] (by simp) (by simp [Map.keys])
  simp only [id] at hv
  rw [Map.mem_iff_get? hn]
  constructor
  · intro h
    refine ⟨hne k l (Map.mem_of_get? h), ?_⟩
    unfold MultiMap.getVec at hv
    rw [h] at hv
    simpa using hv
  · rintro ⟨h1, h2⟩
    unfold MultiMap.getVec at hv
    cases hg : Map.get? (List.foldl (fun g e => MultiMap.insert g (gkey e) e) []
        (valid polygon entries)) k with
    | none => rw [hg] at hv; simp at hv; exact absurd (by rw [h2]; simpa using hv) h1
    | some l' => rw [hg] at hv; simp at hv; rw [h2]; simpa using hv

theorem nodup_groups {polygon : EseSector P → Option B} {ccw : B → B}
    {entries : List (Str × EseSector P)} :
    (Map.keys (groupVolumes polygon ccw entries).1).Nodup := by
  unfold groupVolumes
  rw [groupVolumes_eq]
  exact nodup_keys_mfold _ _ (by simp [Map.keys])

/-- The sector a non-empty group is turned into. -/
def groupSector (g : GroupKey × List (Str × EseSector P)) : Sector where
  id := (g.2.map (·.1)).headD []
  positionPriority := g.1.1
  runwayFilter := [g.1.2]
  volumes := g.2.map (·.1)
  departureAerodromes := (g.2.map (·.2)).flatMap (·.departureAirports)
  arrivalAerodromes := (g.2.map (·.2)).flatMap (·.arrivalAirports)

theorem sectorsOfGroups_eq (gs : List (GroupKey × List (Str × EseSector P)))
    (h : ∀ g ∈ gs, g.2 ≠ []) (acc : Map Str Sector) :
    sectorsOfGroups gs acc
      = .ok ((gs.map groupSector).foldl (fun m s => m.insert s.id s) acc) := by
  induction gs generalizing acc with
  | nil => rfl
  | cons g gs ih =>
    have h1 : sectorOfGroup g = .ok (groupSector g) := by
      have := h g (by simp)
      obtain ⟨k, l⟩ := g
      cases l with
      | nil => simp at this
      | cons e l => rfl
    simp only [sectorsOfGroups, h1, run_ok_bind, List.map_cons, List.foldl_cons]
    exact ih (fun g hg => h g (List.mem_cons_of_mem _ hg)) _

end Verif.Sectors
