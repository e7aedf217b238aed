import Verif.Proofs.Sectors
import Verif.Props.Polygon
/-!
# C24: the sectors partition the volumes
-/

namespace Verif.Sectors
open Spec
variable {P B : Type}

/-- The sectors are the images of the groups. -/
theorem get?_sectors {polygon : EseSector P → Option B} {ccw : B → B}
    {entries : List (Str × EseSector P)} (hn : (entries.map (·.1)).Nodup)
    {gs : Groups P} (hp : gs.Perm (groupVolumes polygon ccw entries).1)
    (sid : Str) (s : Sector) :
    Map.get? ((gs.map groupSector).foldl (fun m s => m.insert s.id s) []) sid = some s ↔
      ∃ k l, l ≠ [] ∧ l = (valid polygon entries).filter (fun e => decide (gkey e = k)) ∧
        s = groupSector (k, l) ∧ sid = s.id := by
  have hmem : ∀ k l, (k, l) ∈ gs ↔
      (l ≠ [] ∧ l = (valid polygon entries).filter fun e => decide (gkey e = k)) := by
    intro k l; rw [hp.mem_iff]; exact mem_groups
  have huniq : ∀ k l k' l', (k, l) ∈ gs → (k', l') ∈ gs →
      (groupSector (k, l)).id = (groupSector (k', l')).id → (k, l) = (k', l') := by
    intro k l k' l' h h' he
    obtain ⟨h1, h2⟩ := (hmem k l).1 h
    obtain ⟨h1', h2'⟩ := (hmem k' l').1 h'
    cases hl : l with
    | nil => exact absurd hl h1
    | cons e l₁ =>
      cases hl' : l' with
      | nil => exact absurd hl' h1'
      | cons e' l₁' =>
        have hid : e.1 = e'.1 := by
          rw [hl, hl'] at he; simpa [groupSector] using he
        have he1 : e ∈ (valid polygon entries).filter fun e => decide (gkey e = k) := by
          rw [← h2, hl]; simp
        have he1' : e' ∈ (valid polygon entries).filter fun e => decide (gkey e = k') := by
          rw [← h2', hl']; simp
        simp only [List.mem_filter, valid, decide_eq_true_eq] at he1 he1'
        have : e.2 = e'.2 := eq_of_mem_nodup hn (k := e.1) (he1.1.1)
          (by rw [hid]; exact he1'.1.1)
        have hee : e = e' := Prod.ext hid this
        have hk : k = k' := by rw [← he1.2, ← he1'.2, hee]
        subst hk
        rw [← hl, ← hl', h2, h2']
  rw [Map.get?_foldl_insert]
  split
  · next w hw =>
    have h1 := List.mem_of_find?_eq_some hw
    have h2 := List.find?_some hw
    simp only [List.mem_reverse, List.mem_map, decide_eq_true_eq] at h1 h2
    obtain ⟨⟨k, l⟩, hg, rfl⟩ := h1
    constructor
    · intro h; cases h
      obtain ⟨a, b⟩ := (hmem k l).1 hg
      exact ⟨k, l, a, b, rfl, h2.symm⟩
    · rintro ⟨k', l', a, b, rfl, hs⟩
      have := huniq k l k' l' hg ((hmem k' l').2 ⟨a, b⟩) (h2.trans hs)
      rw [this]
  · next hnone =>
    constructor
    · intro h; simp at h
    · rintro ⟨k, l, a, b, rfl, hs⟩
      rw [List.find?_eq_none] at hnone
      have := hnone (groupSector (k, l)) (by
        simp only [List.mem_reverse, List.mem_map]
        exact ⟨(k, l), (hmem k l).2 ⟨a, b⟩, rfl⟩)
      simp [hs] at this

/-- **C24.** For every set of ESE sectors (with distinct ids, being the entries of a map) in every
iteration order, and every order of the groups, `from_ese` succeeds and its result meets the
specification `IsResult`: one volume per ESE sector with a polygon, every volume in exactly one
sector, volumes sharing a sector exactly if they are controlled alike. -/
theorem C24_partition (polygon : EseSector P → Option B) (ccw : B → B)
    (order : Groups P → Groups P) (horder : ∀ g, (order g).Perm g)
    (entries : List (Str × EseSector P)) (hn : (entries.map (·.1)).Nodup) :
    ∃ volumes sectors, fromEse polygon ccw order entries = .ok (volumes, sectors) ∧
      IsResult polygon ccw entries volumes sectors := by
  have hgs : ∀ g ∈ order (groupVolumes polygon ccw entries).1, g.2 ≠ [] := by
    rintro ⟨k, l⟩ hg
    exact (mem_groups.1 ((horder _).mem_iff.1 hg)).1
  have hsec := get?_sectors (polygon := polygon) (ccw := ccw) hn (horder _)
  have hvol := get?_volumes (polygon := polygon) (ccw := ccw) hn
  refine ⟨(groupVolumes polygon ccw entries).2,
    ((order (groupVolumes polygon ccw entries).1).map groupSector).foldl
      (fun m s => m.insert s.id s) [],
    by simp only [fromEse, sectorsOfGroups_eq _ hgs, run_ok_bind], ?_⟩
  generalize ((order (groupVolumes polygon ccw entries).1).map groupSector).foldl
    (fun (m : Map Str Sector) s => m.insert s.id s) [] = sectors at hsec ⊢
  generalize (groupVolumes polygon ccw entries).2 = volumes at hvol ⊢
  -- membership of a volume in a sector
  have hin : ∀ sid s id e p, sectors.get? sid = some s → HasPolygon polygon entries id e p →
      id ∈ s.volumes → s.positionPriority = e.ownerPriority ∧ s.runwayFilter = [e.runwayFilter] ∧
      (id, e) ∈ (valid polygon entries).filter (fun x => decide (gkey x = gkey (id, e))) ∧
      s = groupSector (gkey (id, e),
        (valid polygon entries).filter (fun x => decide (gkey x = gkey (id, e)))) := by
    intro sid s id e p hs he hid
    obtain ⟨k, l, h1, h2, h3, h4⟩ := (hsec sid s).1 hs
    subst h3
    simp only [groupSector, List.mem_map] at hid
    obtain ⟨⟨i, e'⟩, hm, rfl⟩ := hid
    rw [h2] at hm
    simp only [List.mem_filter, decide_eq_true_eq] at hm
    have hee : e' = e := eq_of_mem_nodup hn (List.mem_filter.1 hm.1).1 he.1
    subst hee
    obtain ⟨hv, hk⟩ := hm
    subst hk
    refine ⟨rfl, rfl, ?_, ?_⟩
    · simp [List.mem_filter, hv]
    · rw [h2]
  have hex : ∀ id e p, HasPolygon polygon entries id e p →
      ∃ sid s, sectors.get? sid = some s ∧ id ∈ s.volumes ∧
        s = groupSector (gkey (id, e),
          (valid polygon entries).filter (fun x => decide (gkey x = gkey (id, e)))) := by
    intro id e p he
    have hm : (id, e) ∈ (valid polygon entries).filter
        (fun x => decide (gkey x = gkey (id, e))) := by
      simp only [List.mem_filter, decide_true, and_true]
      exact mem_valid.2 ⟨p, he⟩
    refine ⟨_, _, (hsec _ _).2 ⟨gkey (id, e), _, ?_, rfl, rfl, rfl⟩, ?_, rfl⟩
    · intro h0; rw [h0] at hm; cases hm
    · simp only [groupSector, List.mem_map]
      exact ⟨(id, e), hm, rfl⟩
  constructor
  · exact hvol
  · intro id v hv
    obtain ⟨e, p, he, _⟩ := (hvol id v).1 hv
    obtain ⟨sid, s, hs, hid, hse⟩ := hex id e p he
    refine ⟨sid, s, hs, hid, ?_⟩
    intro sid' s' hs' hid'
    have h1 := (hin sid' s' id e p hs' he hid').2.2.2
    obtain ⟨_, _, _, _, _, h4⟩ := (hsec sid s).1 hs
    obtain ⟨_, _, _, _, _, h4'⟩ := (hsec sid' s').1 hs'
    rw [h4, h4', h1, hse]
  · intro sid s hs
    obtain ⟨k, l, h1, h2, h3, h4⟩ := (hsec sid s).1 hs
    subst h3
    refine ⟨h4.symm, ?_, ?_⟩
    · rw [h4]
      cases l with
      | nil => exact absurd rfl h1
      | cons e l => simp [groupSector]
    · intro id hid
      simp only [groupSector, List.mem_map] at hid
      obtain ⟨⟨i, e⟩, hm, rfl⟩ := hid
      rw [h2] at hm
      obtain ⟨p, he⟩ := mem_valid.1 (List.mem_filter.1 hm).1
      exact ⟨_, (hvol i _).2 ⟨e, p, he, rfl⟩⟩
  · intro id id' e e' p p' he he'
    constructor
    · rintro ⟨sid, s, hs, hid, hid'⟩
      obtain ⟨a1, a2, _⟩ := hin sid s id e p hs he hid
      obtain ⟨b1, b2, _⟩ := hin sid s id' e' p' hs he' hid'
      refine ⟨a1.symm.trans b1, ?_⟩
      have := a2.symm.trans b2
      simpa using this
    · rintro ⟨h1, h2⟩
      obtain ⟨sid, s, hs, hid, hse⟩ := hex id e p he
      refine ⟨sid, s, hs, hid, ?_⟩
      rw [hse]
      simp only [groupSector, List.mem_map]
      refine ⟨(id', e'), ?_, rfl⟩
      simp only [List.mem_filter, decide_eq_true_eq]
      refine ⟨mem_valid.2 ⟨p', he'⟩, ?_⟩
      simp [gkey, h1, h2]
  · intro sid s id e p hs hid he
    obtain ⟨a1, a2, a3, a4⟩ := hin sid s id e p hs he hid
    refine ⟨a1, a2, ?_, ?_⟩
    · intro a ha
      rw [a4]
      simp only [groupSector, List.mem_flatMap, List.mem_map]
      exact ⟨e, ⟨_, a3, rfl⟩, ha⟩
    · intro a ha
      rw [a4]
      simp only [groupSector, List.mem_flatMap, List.mem_map]
      exact ⟨e, ⟨_, a3, rfl⟩, ha⟩
  · intro sid s hs
    obtain ⟨k, l, h1, h2, h3, h4⟩ := (hsec sid s).1 hs
    subst h3
    constructor
    · intro a ha
      simp only [groupSector, List.mem_flatMap, List.mem_map] at ha ⊢
      obtain ⟨e, ⟨⟨id, e'⟩, hm, rfl⟩, ha⟩ := ha
      have hm' := hm
      rw [h2] at hm'
      obtain ⟨p, he⟩ := mem_valid.1 (List.mem_filter.1 hm').1
      exact ⟨id, ⟨_, hm, rfl⟩, e', p, he, ha⟩
    · intro a ha
      simp only [groupSector, List.mem_flatMap, List.mem_map] at ha ⊢
      obtain ⟨e, ⟨⟨id, e'⟩, hm, rfl⟩, ha⟩ := ha
      have hm' := hm
      rw [h2] at hm'
      obtain ⟨p, he⟩ := mem_valid.1 (List.mem_filter.1 hm').1
      exact ⟨id, ⟨_, hm, rfl⟩, e', p, he, ha⟩

/-- **C24.** `find_id_by_volume` returns, in every iteration order of the sectors, the id of the
one sector that has the volume, and nothing for an unknown volume. -/
theorem C24_find_id_by_volume (polygon : EseSector P → Option B) (ccw : B → B)
    (entries : List (Str × EseSector P)) (volumes : Map Str (Volume B))
    (sectors : Map Str Sector) (h : IsResult polygon ccw entries volumes sectors)
    (it : List (Str × Sector)) (hit : ∀ sid s, (sid, s) ∈ it ↔ sectors.get? sid = some s)
    (vol sid : Str) :
    findIdByVolume it vol = some sid ↔ ∃ s, sectors.get? sid = some s ∧ vol ∈ s.volumes := by
  have hfwd : ∀ sid, findIdByVolume it vol = some sid →
      ∃ s, sectors.get? sid = some s ∧ vol ∈ s.volumes := by
    intro sid hf
    obtain ⟨⟨i, s⟩, hm, hs⟩ := List.exists_of_findSome?_eq_some hf
    simp only at hs
    split at hs
    · next hv => cases hs; exact ⟨s, (hit _ _).1 hm, hv⟩
    · cases hs
  constructor
  · exact hfwd sid
  · rintro ⟨s, hs, hv⟩
    cases hf : findIdByVolume it vol with
    | none =>
      unfold findIdByVolume at hf
      rw [List.findSome?_eq_none_iff] at hf
      have := hf _ ((hit sid s).2 hs)
      simp [hv] at this
    | some sid' =>
      obtain ⟨s', hs', hv'⟩ := hfwd sid' hf
      obtain ⟨_, _, hall⟩ := h.sector_volumes sid s hs
      obtain ⟨v, hvv⟩ := hall vol hv
      obtain ⟨sid0, s0, _, _, hu⟩ := h.volume_sector vol v hvv
      rw [hu sid s hs hv, hu sid' s' hs' hv']

/-- The polygon used by `from_ese`: `polygon_from_ese`, which by C23 never fails. -/
def polygonOf {V : Type} [DecidableEq V] (quantize : P → V) (dequantize : V → P)
    (choose : List V → Option V) (e : EseSector P) : Option (List P) :=
  match Polygon.polygonFromEse quantize dequantize choose e.border with
  | .ok r => r
  | .error _ => none

/-- **C22/C24.** Together: an ESE sector yields a volume exactly if its border has at least one line,
only even points, and hangs together. -/
theorem C24_volume_exists_iff {V : Type} [DecidableEq V] (quantize : P → V) (dequantize : V → P)
    (choose : List V → Option V) (hch : Polygon.Spec.Chooses choose) (ccw : List P → List P)
    (order : Groups P → Groups P) (horder : ∀ g, (order g).Perm g)
    (entries : List (Str × EseSector P)) (hn : (entries.map (·.1)).Nodup)
    (id : Str) (e : EseSector P) (he : (id, e) ∈ entries) :
    ∃ volumes sectors,
      fromEse (polygonOf quantize dequantize choose) ccw order entries = .ok (volumes, sectors) ∧
      ((volumes.get? id).isSome ↔
        Polygon.borderLines quantize e.border ≠ [] ∧
        Polygon.Spec.EvenDegrees (Polygon.borderLines quantize e.border) ∧
        Polygon.Spec.Connected (Polygon.borderLines quantize e.border)) := by
  obtain ⟨volumes, sectors, h1, h2⟩ :=
    C24_partition (polygonOf quantize dequantize choose) ccw order horder entries hn
  refine ⟨volumes, sectors, h1, ?_⟩
  rw [← Polygon.C22_polygon_iff quantize dequantize choose hch]
  constructor
  · intro h
    obtain ⟨v, hv⟩ := Option.isSome_iff_exists.1 h
    obtain ⟨e', p, ⟨hm, hp⟩, _⟩ := (h2.volume_iff id v).1 hv
    have := eq_of_mem_nodup hn he hm
    subst this
    refine ⟨p, ?_⟩
    unfold polygonOf at hp
    split at hp
    · next r hr => rw [hr, hp]
    · cases hp
  · rintro ⟨p, hp⟩
    have : polygonOf quantize dequantize choose e = some p := by
      unfold polygonOf; rw [hp]
    rw [(h2.volume_iff id _).2 ⟨e, p, ⟨he, this⟩, rfl⟩]
    rfl

/-! ### A concrete case -/

def exEntries : List (Str × EseSector Nat) :=
  [ (['A'], ⟨['A'], 0, 100, [[0, 1, 2, 0]], [['X']], [['p']], [], []⟩),
    (['B'], ⟨['B'], 100, 200, [[0, 1, 2, 0]], [['X']], [['q']], [['r']], []⟩),
    (['C'], ⟨['C'], 0, 100, [[0, 1, 2]], [['X']], [], [], []⟩),
    (['D'], ⟨['D'], 0, 100, [[0, 1], [1, 0]], [['Y']], [], [], []⟩) ]

example : (exEntries.map (·.1)).Nodup := by decide

/-- Four ESE sectors, one without polygon, two of them controlled alike. -/
example : fromEse (polygonOf (V := Nat) id id List.head?) id List.reverse exEntries = .ok
    ([(['A'], ⟨['A'], 0, 100, [0, 1, 2, 0]⟩), (['B'], ⟨['B'], 100, 200, [0, 1, 2, 0]⟩),
      (['D'], ⟨['D'], 0, 100, [0, 1, 0]⟩)],
     [(['D'], ⟨['D'], [['Y']], [[]], [['D']], [], []⟩),
      (['A'], ⟨['A'], [['X']], [[]], [['A'], ['B']], [['p'], ['q']], [['r']]⟩)]) := by rfl

end Verif.Sectors
