import Verif.Proofs.Adaptation
import Verif.Props.Sectors
import Verif.Props.SectorIndex
import Verif.Props.EseAirspace
/-!
# The sectors of an adaptation: lemmas
-/

namespace Verif.Proofs.Adaptation
open Verif.Adaptation Verif.Spec.Adaptation
open Verif.PrfPaths (Prf Path)
open Verif.Display (F32Ops)
open Verif.Dms (DmsArith)
open Verif.Parse.SymbolRule (Close)
open Verif.Locations (FloatOps)
open Verif.Sectors Verif.Sectors.Spec Verif.SectorIndex.Spec

theorem run_bind_ok {A B : Type} {x : Run A} {f : A → Run B} {b : B} :
    (x >>= f) = .ok b ↔ ∃ a, x = .ok a ∧ f a = .ok b := by
  cases x with
  | error e => simp [bind, Except.bind]
  | ok a => simp [bind, Except.bind]

theorem mem_mapM {A B : Type} {f : A → Run B} : ∀ {l : List A} {l' : List B}, l.mapM f = .ok l' →
    ∀ b ∈ l', ∃ a ∈ l, f a = .ok b
  | [], l', h => by
    rw [List.mapM_nil] at h
    cases h
    simp
  | a :: l, l', h => by
    rw [List.mapM_cons, run_bind_ok] at h
    obtain ⟨b, hb, h⟩ := h
    rw [run_bind_ok] at h
    obtain ⟨l2, hl, h⟩ := h
    cases h
    intro c hc
    rcases List.mem_cons.1 hc with rfl | hc
    · exact ⟨a, List.mem_cons_self, hb⟩
    · obtain ⟨d, hd, he⟩ := mem_mapM hl c hc
      exact ⟨d, List.mem_cons_of_mem _ hd, he⟩

theorem mem_of_get?_ofList {K V : Type} [DecidableEq K] {l : List (K × V)} {k : K} {v : V}
    (h : (Map.ofList l).get? k = some v) : (k, v) ∈ l := by
  unfold Map.ofList at h
  rw [Map.get?_foldl_insert] at h
  split at h
  · next w hw =>
    have h1 := List.mem_of_find?_eq_some hw
    have h2 := List.find?_some hw
    cases h
    simp only [List.mem_reverse, decide_eq_true_eq] at h1 h2
    rw [← h2]
    exact h1
  · cases h

section
variable {F G : Type} [F64 F] [DmsArith F] [DecidableEq F] [F64 G] [UnicodeTables]

omit [DecidableEq F] in
/-- Where the sectors of an ESE file come from. -/
theorem ese_sectors {s : Str} {ese : Parse.Ese.Ese F} (h : Parse.Ese.parse (F := F) G s = .ok ese) :
    ese.sectors = [] ∨ ∃ l : List (EseAirspace.Statement (List (Parse.Point F)) (Parse.Ese.CircleSectorLine G)), ese.sectors = (EseAirspace.airspace l).1 := by
  unfold Parse.Ese.parse at h
  rw [run_bind_ok] at h
  obtain ⟨pairs, _, h⟩ := h
  rw [run_bind_ok] at h
  obtain ⟨⟨p, _⟩, _, h⟩ := h
  rw [run_bind_ok] at h
  obtain ⟨secs, hs, h⟩ := h
  cases h
  simp only [Parse.Ese.assemble]
  cases hg : (Map.ofList secs).get? .airspace with
  | none => exact Or.inl (by simp)
  | some x =>
    obtain ⟨t, _, ht⟩ := mem_mapM hs _ (mem_of_get?_ofList hg)
    unfold Parse.Ese.parseSection at ht
    split at ht
    · rw [run_bind_ok] at ht
      obtain ⟨l, _, ht⟩ := ht
      cases ht
    · rw [run_bind_ok] at ht
      obtain ⟨l, _, ht⟩ := ht
      cases ht
      refine Or.inr ⟨l, ?_⟩
      simp
    · rw [run_bind_ok] at ht
      obtain ⟨l, _, ht⟩ := ht
      cases ht
    · cases ht

omit [DecidableEq F] in
theorem ese_sectors_nodup {s : Str} {ese : Parse.Ese.Ese F} (h : Parse.Ese.parse (F := F) G s = .ok ese) : ese.sectors.keys.Nodup := by
  rcases ese_sectors h with h | ⟨l, h⟩
  · rw [h]; simp [Map.keys]
  · rw [h]; exact (EseAirspace.C40_entries l).1

end

theorem sectorsOfGroups_nodup {P : Type} : ∀ {gs : List (GroupKey × List (Str × EseSector P))} {acc m : Map Str Sector},
    acc.keys.Nodup → sectorsOfGroups gs acc = .ok m → m.keys.Nodup
  | [], acc, m, h, he => by cases he; exact h
  | g :: gs, acc, m, h, he => by
    rw [sectorsOfGroups, run_bind_ok] at he
    obtain ⟨s, _, he⟩ := he
    exact sectorsOfGroups_nodup (Map.nodup_insert h _ _) he

section
variable {F G : Type} [DecidableEq F] [F32Ops G]

/-- The entries that `sectors` uses. -/
def entries (env : Env F G) (ese : Parse.Ese.Ese F) : List (Str × EseSector (F × F)) :=
  (env.order .sectors ese.sectors).map fun e => (e.1, eseSector e.2)

theorem sectors_result {env : Env F G} {ese : Parse.Ese.Ese F} (ho : AnyOrder env) (hn : ese.sectors.keys.Nodup)
    {volumes : Map Str (Volume (SectorIndex.Border F))} {secs : Map Str Sector} (h : sectors env ese = .ok (volumes, secs)) :
    secs.keys.Nodup ∧
      IsResult (polygonOf env.quantize env.dequantize env.choose) env.ccw (entries env ese) volumes secs := by
  unfold sectors at h
  rw [run_bind_ok] at h
  obtain ⟨_, _, h⟩ := h
  have hp : (env.order .sectors ese.sectors).Perm ese.sectors := ho _ _
  have hn' : ((entries env ese).map (·.1)).Nodup := by
    unfold entries
    rw [List.map_map]
    exact (hp.map _).nodup_iff.2 hn
  obtain ⟨v, s, h1, h2⟩ := C24_partition (polygonOf env.quantize env.dequantize env.choose) env.ccw (env.order .groups)
    (fun g => ho .groups g) (entries env ese) hn'
  have h3 : fromEse (polygonOf env.quantize env.dequantize env.choose) env.ccw (env.order .groups) (entries env ese) =
      .ok (volumes, secs) := by
    rw [← h]
    congr 1
    funext e
    unfold polygonOf
    cases Polygon.polygonFromEse env.quantize env.dequantize env.choose e.border <;> rfl
  rw [h1] at h3
  cases h3
  refine ⟨?_, h2⟩
  unfold fromEse at h1
  rw [run_bind_ok] at h1
  obtain ⟨m, hm, h1⟩ := h1
  cases h1
  exact sectorsOfGroups_nodup (by simp [Map.keys]) hm

theorem mem_entries {env : Env F G} {ese : Parse.Ese.Ese F} (ho : AnyOrder env) (hn : ese.sectors.keys.Nodup) {id : Str}
    {e : EseSector (F × F)} : (id, e) ∈ entries env ese ↔ ∃ d, ese.sectors.get? id = some d ∧ e = eseSector d := by
  have hp : (env.order .sectors ese.sectors).Perm ese.sectors := ho _ _
  simp only [entries, List.mem_map, Prod.mk.injEq, Prod.exists]
  constructor
  · rintro ⟨i, d, h, rfl, rfl⟩
    exact ⟨d, (Map.mem_iff_get? hn).1 (hp.mem_iff.1 h), rfl⟩
  · rintro ⟨d, h, rfl⟩
    exact ⟨id, d, hp.mem_iff.2 ((Map.mem_iff_get? hn).2 h), rfl, rfl⟩

theorem hasPolygon_iff {env : Env F G} {ese : Parse.Ese.Ese F} (ho : AnyOrder env) (hn : ese.sectors.keys.Nodup) {id : Str}
    {e : EseSector (F × F)} {b : SectorIndex.Border F} :
    HasPolygon (polygonOf env.quantize env.dequantize env.choose) (entries env ese) id e b ↔
      ∃ d, ese.sectors.get? id = some d ∧ e = eseSector d ∧
        Polygon.polygonFromEse env.quantize env.dequantize env.choose (d.border.map fun l => l.map fun p => (p.x, p.y)) =
          .ok (some b) := by
  unfold HasPolygon
  rw [mem_entries ho hn]
  constructor
  · rintro ⟨⟨d, h1, rfl⟩, h2⟩
    refine ⟨d, h1, rfl, ?_⟩
    unfold polygonOf at h2
    split at h2
    · next r hr => rw [← h2]; exact hr
    · cases h2
  · rintro ⟨d, h1, rfl, h2⟩
    refine ⟨⟨d, h1, rfl⟩, ?_⟩
    unfold polygonOf
    have h3 : Polygon.polygonFromEse env.quantize env.dequantize env.choose (eseSector d).border = .ok (some b) := h2
    rw [h3]

/-- A sector of the adaptation is around a point exactly if it is the one of an ESE sector around the point. -/
theorem sectorAt_iff {L : Type} [LE F] [DecidableLE F] {env : Env F G} {ese : Parse.Ese.Ese F} (ho : AnyOrder env)
    (hn : ese.sectors.keys.Nodup) {volumes : Map Str (Volume (SectorIndex.Border F))} {secs : Map Str Sector}
    (hk : secs.keys.Nodup)
    (hr : IsResult (polygonOf env.quantize env.dequantize env.choose) env.ccw (entries env ese) volumes secs)
    (q : SectorIndex.Env F L) (p : F × F) (level : L) (sid : Str) :
    SectorAt q ⟨env.order .index secs, volumes⟩ p level sid ↔
      ∃ s id e, secs.get? sid = some s ∧ id ∈ s.volumes ∧ Around env q ese p level id e := by
  have hp : (env.order .index secs).Perm secs := ho _ _
  constructor
  · rintro ⟨v, ⟨key, s, h1, h2, h3, vid, h4, h5⟩, h6, h7, h8⟩
    have h1' := (Map.mem_iff_get? hk).1 (hp.mem_iff.1 h1)
    have h9 := (hr.sector_volumes key s h1').1
    obtain ⟨e, b, hb, rfl⟩ := (hr.volume_iff vid v).1 h5
    obtain ⟨d, hd, rfl, hpol⟩ := (hasPolygon_iff ho hn).1 hb
    have h10 := hr.sector_data key s vid _ _ h1' h4 hb
    refine ⟨s, vid, d, ?_, h4, hd, ?_, ⟨b, hpol, h6⟩, h7, h8⟩
    · rw [← h3, h9]; exact h1'
    · rw [h10.1] at h2
      exact h2
  · rintro ⟨s, id, d, h1, h2, h3, h4, ⟨b, h5, h6⟩, h7, h8⟩
    have hb : HasPolygon (polygonOf env.quantize env.dequantize env.choose) (entries env ese) id (eseSector d) b :=
      (hasPolygon_iff ho hn).2 ⟨d, h3, rfl, h5⟩
    refine ⟨⟨id, d.bottom, d.top, env.ccw b⟩, ⟨sid, s, hp.mem_iff.2 ((Map.mem_iff_get? hk).2 h1), ?_,
      (hr.sector_volumes sid s h1).1, id, h2, (hr.volume_iff id _).2 ⟨_, b, hb, rfl⟩⟩, h6, h7, h8⟩
    rw [(hr.sector_data sid s id _ _ h1 h2 hb).1]
    exact h4

end
end Verif.Proofs.Adaptation
