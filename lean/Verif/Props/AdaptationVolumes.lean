import Verif.Props.Adaptation
/-!
# C87: the volumes that are found in a loaded adaptation
-/

namespace Verif.Props
open Verif.Adaptation Verif.Spec.Adaptation Verif.Proofs.Adaptation
open Verif.PrfPaths (Prf Path)
open Verif.Display (F32Ops)
open Verif.Dms (DmsArith)
open Verif.Parse.SymbolRule (Close)
open Verif.Locations (FloatOps)
open Verif.SectorIndex.Spec
open Verif.Sectors (Volume)

section
variable {F G L : Type} [F64 F] [DmsArith F] [DecidableEq F] [FloatOps F] [Close F] [F64 G] [F32Ops G] [UnicodeTables]
  [LE F] [DecidableLE F]

theorem controlled_iff {env : Env F G} {prf : Prf} {a : Adaptation F G} (ho : AnyOrder env)
    (h : fromPrf env prf = .ok a) {ese : Parse.Ese.Ese F} (he : Parsed env prf .ese (Parse.Ese.parse (F := F) G) ese)
    (sid : Str) (v : Volume (SectorIndex.Border F)) :
    ControlledVolume ⟨env.order .index a.sectors, a.volumes⟩ sid v ↔
      VolumeOfEse env ese v ∧ ∃ s, a.sectors.get? sid = some s ∧ v.id ∈ s.volumes := by
  obtain ⟨s⟩ := steps h
  have hese : s.ese = ese := by
    obtain ⟨p, t, h1, h2, h3⟩ := required_ok.1 s.hese
    obtain ⟨p', t', h4, h5, h6⟩ := he
    have := h1.symm.trans h4
    cases this
    rw [textAt_unique h2 h5, h6] at h3
    cases h3; rfl
  have hn : ese.sectors.keys.Nodup := by obtain ⟨_, t, _, _, h6⟩ := he; exact ese_sectors_nodup h6
  obtain ⟨hk, hr⟩ := sectors_result ho hn (hese ▸ s.hsectors)
  have hp : (env.order .index a.sectors).Perm a.sectors := ho _ _
  constructor
  · rintro ⟨key, s, h1, h2, h3, vid, h4, h5⟩
    have h1' := (Map.mem_iff_get? hk).1 (hp.mem_iff.1 h1)
    have h9 := (hr.sector_volumes key s h1').1
    obtain ⟨e, b, hb, rfl⟩ := (hr.volume_iff vid v).1 h5
    obtain ⟨d, hd, rfl, hpol⟩ := (hasPolygon_iff ho hn).1 hb
    have h10 := hr.sector_data key s vid _ _ h1' h4 hb
    refine ⟨⟨d, b, hd, ?_, hpol, rfl, rfl, rfl⟩, s, ?_, h4⟩
    · rw [h10.1] at h2
      exact h2
    · rw [← h3, h9]; exact h1'
  · rintro ⟨⟨d, b, h3, h4, h5, h6, h7, h8⟩, s, h1, h2⟩
    have hb := (hasPolygon_iff ho hn).2 ⟨d, h3, rfl, h5⟩
    refine ⟨sid, s, hp.mem_iff.2 ((Map.mem_iff_get? hk).2 h1), ?_, (hr.sector_volumes sid s h1).1, v.id, h2,
      (hr.volume_iff v.id v).2 ⟨_, b, hb, ?_⟩⟩
    · rw [(hr.sector_data sid s v.id _ _ h1 h2 hb).1]
      exact h4
    · cases v
      cases h6; cases h7; cases h8
      rfl

/-- **C87.** Right after loading, the volumes at a point are exactly those of the ESE file that someone controls and that contain
the point, each with the sector it belongs to. -/
theorem C87_volumes_at [Std.IsLinearPreorder F] {env : Env F G} {prf : Prf} {a : Adaptation F G} (ho : AnyOrder env)
    (h : fromPrf env prf = .ok a) {ese : Parse.Ese.Ese F} (he : Parsed env prf .ese (Parse.Ese.parse (F := F) G) ese)
    (q : SectorIndex.Env F L) (hc : ContainsWithinExtent q) (hs : ShufflePerm q) (p : F × F) (sid : Str)
    (v : Volume (SectorIndex.Border F)) :
    (sid, v) ∈ volumesAt env q a p ↔
      VolumeOfEse env ese v ∧ (∃ s, a.sectors.get? sid = some s ∧ v.id ∈ s.volumes) ∧ q.contains v.lateralBorder p = true := by
  obtain ⟨s⟩ := steps h
  unfold volumesAt
  rw [tree_fresh s.hindex, SectorIndex.C25_volumes_at_iff q hc hs, controlled_iff ho h he, and_assoc]

/-- **C87.** Right after loading, the volumes near a line are exactly those of the ESE file that someone controls and whose extent
overlaps that of the line, each with the sector it belongs to. -/
theorem C87_volumes_near_line [Std.IsLinearPreorder F] {env : Env F G} {prf : Prf} {a : Adaptation F G} (ho : AnyOrder env)
    (h : fromPrf env prf = .ok a) {ese : Parse.Ese.Ese F} (he : Parsed env prf .ese (Parse.Ese.parse (F := F) G) ese)
    (q : SectorIndex.Env F L) (hs : ShufflePerm q) (b c : F × F) (sid : Str) (v : Volume (SectorIndex.Border F)) :
    (sid, v) ∈ volumesNearLine env q a b c ↔
      VolumeOfEse env ese v ∧ (∃ s, a.sectors.get? sid = some s ∧ v.id ∈ s.volumes) ∧ ExtentsOverlap v.lateralBorder b c := by
  obtain ⟨s⟩ := steps h
  unfold volumesNearLine
  rw [tree_fresh s.hindex, SectorIndex.C27_near_line_iff q hs, controlled_iff ho h he, and_assoc]

/-- **C87.** Right after loading, each volume of the ESE file belongs to exactly one sector. -/
theorem C87_one_sector {env : Env F G} {prf : Prf} {a : Adaptation F G} (ho : AnyOrder env)
    (h : fromPrf env prf = .ok a) {ese : Parse.Ese.Ese F} (he : Parsed env prf .ese (Parse.Ese.parse (F := F) G) ese)
    (v : Volume (SectorIndex.Border F)) (hv : VolumeOfEse env ese v) :
    ∃ sid, (∃ s, a.sectors.get? sid = some s ∧ v.id ∈ s.volumes) ∧
      ∀ sid', (∃ s, a.sectors.get? sid' = some s ∧ v.id ∈ s.volumes) → sid' = sid := by
  obtain ⟨s⟩ := steps h
  have hese : s.ese = ese := by
    obtain ⟨p, t, h1, h2, h3⟩ := required_ok.1 s.hese
    obtain ⟨p', t', h4, h5, h6⟩ := he
    have := h1.symm.trans h4
    cases this
    rw [textAt_unique h2 h5, h6] at h3
    cases h3; rfl
  have hn : ese.sectors.keys.Nodup := by obtain ⟨_, t, _, _, h6⟩ := he; exact ese_sectors_nodup h6
  obtain ⟨hk, hr⟩ := sectors_result ho hn (hese ▸ s.hsectors)
  obtain ⟨d, b, h3, h4, h5, h6, h7, h8⟩ := hv
  have hb := (hasPolygon_iff ho hn).2 ⟨d, h3, rfl, h5⟩
  obtain ⟨sid, s, g1, g2, g3⟩ := hr.volume_sector v.id _ ((hr.volume_iff v.id _).2 ⟨_, b, hb, rfl⟩)
  exact ⟨sid, ⟨s, g1, g2⟩, fun sid' ⟨s', k1, k2⟩ => g3 sid' s' k1 k2⟩

/-- **C87.** Right after loading, the sector that is found is the first one in the order of their ids among the sectors with a
volume at this point and level. -/
theorem C87_first_sector [Std.IsLinearPreorder F] {env : Env F G} {prf : Prf} {a : Adaptation F G} (ho : AnyOrder env)
    (h : fromPrf env prf = .ok a) {ese : Parse.Ese.Ese F} (he : Parsed env prf .ese (Parse.Ese.parse (F := F) G) ese)
    (q : SectorIndex.Env F L) (hc : ContainsWithinExtent q) (hs : ShufflePerm q) (p : F × F) (level : L) (sid : Str) :
    let at_ (sid : Str) := ∃ v, VolumeOfEse env ese v ∧ (∃ s, a.sectors.get? sid = some s ∧ v.id ∈ s.volumes) ∧
      q.contains v.lateralBorder p = true ∧
      q.le (q.asF32 v.lowerLevel) level = true ∧ q.lt level (q.asF32 v.upperLevel) = true
    findSector env q a p level = some sid ↔ at_ sid ∧ ∀ sid', at_ sid' → StrLe sid sid' := by
  obtain ⟨s⟩ := steps h
  have hat : ∀ sid, SectorAt q ⟨env.order .index a.sectors, a.volumes⟩ p level sid ↔
      ∃ v, VolumeOfEse env ese v ∧ (∃ s, a.sectors.get? sid = some s ∧ v.id ∈ s.volumes) ∧
      q.contains v.lateralBorder p = true ∧
      q.le (q.asF32 v.lowerLevel) level = true ∧ q.lt level (q.asF32 v.upperLevel) = true := by
    intro sid
    unfold SectorAt
    simp only [controlled_iff ho h he, and_assoc]
  intro at_
  unfold findSector
  rw [tree_fresh s.hindex, SectorIndex.C25_find_sector_iff q hc hs]
  simp only [hat, at_]

end
end Verif.Props
