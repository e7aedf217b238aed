import Verif.Proofs.Squawks
import Verif.Proofs.JsonText
import Verif.Model.Overlays
import Verif.Proofs.AdaptationSectors
/-!
# C74–C79: loading an adaptation

The statements are about `Verif.Adaptation.fromPrf`, the model of `Adaptation::from_prf`, with the files given by
`Env.read`; the words of the statements are in `Verif.Spec.Adaptation`.
-/

namespace Verif.Props
open Verif.Adaptation Verif.Spec.Adaptation Verif.Proofs.Adaptation
open Verif.PrfPaths (Prf Path)
open Verif.Display (F32Ops)
open Verif.Dms (DmsArith)
open Verif.Parse.SymbolRule (Close)
open Verif.Locations (FloatOps)
open Verif.SectorIndex.Spec (SectorAt ContainsWithinExtent ShufflePerm StrLe)

section
variable {F G : Type} [F64 F] [DmsArith F] [DecidableEq F] [FloatOps F] [Close F] [F64 G] [F32Ops G] [UnicodeTables]
  [LE F] [DecidableLE F]

/-! ## C74: what is needed for an adaptation and what is in it -/

/-- C74: an adaptation is only made if all eight files are there and can be parsed. -/
theorem C74_needs_all_files {env : Env F G} {prf : Prf} {a : Adaptation F G} (h : fromPrf env prf = .ok a) (f : File) :
    Good env prf f := all_good h f

/-- C74: the name, the airways, the positions, the constraints, the aircraft and the airlines are those of the files. -/
theorem C74_contents {env : Env F G} {prf : Prf} {a : Adaptation F G} (h : fromPrf env prf = .ok a) :
    Parsed env prf .airways (parseAirways env) a.airways ∧
    Parsed env prf .aircraft Parse.Icao.parseAircraft a.aircraft ∧
    Parsed env prf .airlines Parse.Icao.parseAirlines a.airlines ∧
    (∃ sct, Parsed env prf .sct (Parse.Sct.parse (F := F)) sct ∧ a.name = sct.info.name) ∧
    (∃ ese, Parsed env prf .ese (Parse.Ese.parse (F := F) G) ese ∧
      a.departureConstraints = (Constraints.extract ese.constraints).1.map (fun e => (e.1, ⟨e.2, none⟩)) ∧
      a.destinationConstraints = (Constraints.extract ese.constraints).2.map (fun e => (e.1, ⟨e.2, none⟩)) ∧
      ∀ id, a.positions.get? id = (ese.positions.get? id).map fun p =>
        ⟨p.identifier, p.name, p.frequency, p.prefix_, p.suffix, p.visibilityPoints.map fun v => (v.x, v.y)⟩) := by
  obtain ⟨s⟩ := steps h
  refine ⟨required_ok.1 s.hairways, required_ok.1 s.haircraft, required_ok.1 s.hairlines, ⟨s.sct, required_ok.1 s.hsct, s.hname⟩,
    s.ese, required_ok.1 s.hese, (Prod.mk.inj s.hconstraints).1, (Prod.mk.inj s.hconstraints).2, fun id => ?_⟩
  rw [s.hpositions]
  unfold positions
  generalize s.ese.positions = m
  induction m with
  | nil => rfl
  | cons e m ih =>
    by_cases hk : e.1 = id
    · simp [Map.get?, hk, Model.SctItems.pair]
    · simp only [List.map_cons]
      simpa [Map.get?, hk, List.find?] using ih

/-! ## C75: errors -/

/-- C75: if no adaptation is made and nothing panics, the error names the first file that is bad, in the order sector file,
ESE file, airways, symbology, ICAO airports, navdata airports, aircraft, airlines. -/
theorem C75_error {env : Env F G} {prf : Prf} {e : Failure} (h : fromPrf env prf = .error e) :
    (∃ x, e = .fault x) ∨ (∃ f p, FirstBad env prf f ∧ Unreadable env prf f p ∧ e = .unreadable p) ∨
      (∃ f, FirstBad env prf f ∧ Invalid env prf f ∧ e = .invalid f) := by
  rcases error_cases h with h | ⟨f, h, ⟨p, h1, h2⟩ | ⟨h1, h2⟩⟩
  · exact Or.inl h
  · exact Or.inr (Or.inl ⟨f, p, h, h1, h2⟩)
  · exact Or.inr (Or.inr ⟨f, h, h1, h2⟩)

/-- C75: unless something panics, an adaptation is made exactly if all eight files are there and can be parsed, and the error
is the one for the first file that is bad. -/
theorem C75_outcome {env : Env F G} {prf : Prf} (hp : ∀ x, fromPrf env prf ≠ .error (.fault x)) :
    ((∃ a, fromPrf env prf = .ok a) ↔ ∀ f, Good env prf f) ∧
    (∀ p, fromPrf env prf = .error (.unreadable p) ↔ ∃ f, FirstBad env prf f ∧ Unreadable env prf f p) ∧
    (∀ f, fromPrf env prf = .error (.invalid f) ↔ FirstBad env prf f ∧ Invalid env prf f) := by
  have bad_only : ∀ {f}, FirstBad env prf f → ∃ e, fromPrf env prf = .error e ∧ Bad env prf f e := by
    intro f hf
    cases hr : fromPrf env prf with
    | ok a => obtain ⟨_, _, _, _, h⟩ := hf; exact absurd (all_good hr f) h
    | error e =>
      rcases error_cases hr with ⟨x, rfl⟩ | ⟨g, h1, h2⟩
      · exact absurd hr (hp x)
      · rw [firstBad_unique hf h1]; exact ⟨e, rfl, h2⟩
  refine ⟨⟨fun ⟨a, h⟩ => all_good h, fun h => ?_⟩, fun p => ⟨fun h => ?_, ?_⟩, fun f => ⟨fun h => ?_, ?_⟩⟩
  · cases hr : fromPrf env prf with
    | ok a => exact ⟨a, rfl⟩
    | error e =>
      rcases error_cases hr with ⟨x, rfl⟩ | ⟨g, _, h2⟩
      · exact absurd hr (hp x)
      · exact absurd (h g) h2.not_good
  · rcases C75_error h with ⟨x, h⟩ | ⟨f, q, h1, h2, h3⟩ | ⟨f, _, _, h3⟩
    · cases h
    · cases h3; exact ⟨f, h1, h2⟩
    · cases h3
  · rintro ⟨f, h1, h2⟩
    obtain ⟨e, h3, h4⟩ := bad_only h1
    rw [h3, h4.unique (Or.inl ⟨p, h2, rfl⟩)]
  · rcases C75_error h with ⟨x, h⟩ | ⟨f, q, h1, h2, h3⟩ | ⟨f, h1, h2, h3⟩
    · cases h
    · cases h3
    · cases h3; exact ⟨h1, h2⟩
  · rintro ⟨h1, h2⟩
    obtain ⟨e, h3, h4⟩ := bad_only h1
    rw [h3, h4.unique (Or.inr ⟨h2, rfl⟩)]

/-! ## C76: only the named files count -/

/-- C76: files that the profile does not name make no difference. -/
theorem C76_only_named_files {env : Env F G} {prf : Prf} {r : Path → Option (List Spec.Decode.Byte)}
    (h : ∀ p, Named env prf p → r p = env.read p) : fromPrf { env with read := r } prf = fromPrf env prf := by
  refine fromPrf_congr (fun f p hf => h p (Or.inl ⟨f, hf⟩)) ?_ ?_
  · unfold squawks
    have h3 := fun p hp => h p (Or.inr (Or.inr hp))
    show (lift (PrfPaths.squawksPath prf (env.order .settings prf.settings)) >>= _) = _
    cases hs : PrfPaths.squawksPath prf (env.order .settings prf.settings) with
    | error e => rfl
    | ok path =>
      cases path with
      | none => rfl
      | some p =>
        show Except.ok ((r p).bind env.squawks) = Except.ok ((env.read p).bind env.squawks)
        rw [h3 p hs]
  · unfold topsky
    show (lift (PrfPaths.topskyPath prf (env.order .settings prf.settings)) >>= _) = _
    cases hs : PrfPaths.topskyPath prf (env.order .settings prf.settings) with
    | error e => rfl
    | ok path =>
      cases path with
      | none => rfl
      | some d =>
        have h3 : ∀ n ∈ [c!"TopSkySettings.txt", c!"TopSkySymbols.txt", c!"TopSkyMaps.txt"],
            text { env with read := r } (PrfPaths.join d n) = text env (PrfPaths.join d n) := by
          intro n hn
          unfold text
          have := h (PrfPaths.join d n) (Or.inr (Or.inl ⟨d, hs, List.mem_map.2 ⟨n, hn, rfl⟩⟩))
          show (r _).map _ = _
          rw [this]
        simp only [lift, bind, Except.bind, h3 c!"TopSkySettings.txt" (by simp), h3 c!"TopSkySymbols.txt" (by simp), h3 c!"TopSkyMaps.txt" (by simp)]

/-! ## C77: TopSky and the squawks are optional -/

theorem topsky_none {env : Env F G} {prf : Prf} (h : NoTopsky env prf) : topsky env prf = .ok none := by
  obtain ⟨dir, h1, h2⟩ := h
  unfold topsky
  rw [h1]
  cases dir with
  | none => rfl
  | some d =>
    simp only [lift, bind, Except.bind]
    rcases h2 d rfl with h | h <;> rw [h]

theorem squawks_none {env : Env F G} {prf : Prf} (h : NoSquawks env prf) : squawks env prf = .ok none := by
  obtain ⟨path, h1, h2⟩ := h
  unfold squawks
  rw [h1]
  cases path with
  | none => rfl
  | some p =>
    show Except.ok ((env.read p).bind env.squawks) = Except.ok none
    cases hr : env.read p with
    | none => rfl
    | some b =>
      rw [Option.bind_some]
      unfold Env.squawks
      cases hj : env.json b with
      | none => rfl
      | some j =>
        rw [Option.bind_some]
        cases hx : Squawks.readJson j with
        | none => rfl
        | some x => exact absurd ((Proofs.Squawks.read_iff j x).1 hx) (h2 p b j x rfl hr (Proofs.JsonText.readBytes_iff.1 hj))

/-- C77: how TopSky is unusable makes no difference: a missing file, or one that cannot be parsed, is like any other way of
having no TopSky. -/
theorem C77_without_topsky {env : Env F G} {prf : Prf} {r : Path → Option (List Spec.Decode.Byte)}
    (hf : ∀ f p, path prf f = .ok p → r p = env.read p)
    (hs : ∀ p, PrfPaths.squawksPath prf (env.order .settings prf.settings) = .ok (some p) → r p = env.read p)
    (h : NoTopsky env prf) (h' : NoTopsky { env with read := r } prf) :
    fromPrf { env with read := r } prf = fromPrf env prf := by
  refine fromPrf_congr hf ?_ ((topsky_none h').trans (topsky_none h).symm)
  unfold squawks
  show (lift (PrfPaths.squawksPath prf (env.order .settings prf.settings)) >>= _) = _
  cases hq : PrfPaths.squawksPath prf (env.order .settings prf.settings) with
  | error e => rfl
  | ok path =>
    cases path with
    | none => rfl
    | some p =>
      show Except.ok ((r p).bind env.squawks) = Except.ok ((env.read p).bind env.squawks)
      rw [hs p hq]

/-- C77: how the squawks are unusable makes no difference. -/
theorem C77_without_squawks {env : Env F G} {prf : Prf} {r : Path → Option (List Spec.Decode.Byte)}
    (hf : ∀ f p, path prf f = .ok p → r p = env.read p)
    (ht : ∀ d, PrfPaths.topskyPath prf (env.order .settings prf.settings) = .ok (some d) →
      ∀ n ∈ [c!"TopSkySettings.txt", c!"TopSkySymbols.txt", c!"TopSkyMaps.txt"],
        r (PrfPaths.join d n) = env.read (PrfPaths.join d n))
    (h : NoSquawks env prf) (h' : NoSquawks { env with read := r } prf) :
    fromPrf { env with read := r } prf = fromPrf env prf := by
  refine fromPrf_congr hf ((squawks_none h').trans (squawks_none h).symm) ?_
  unfold topsky
  show (lift (PrfPaths.topskyPath prf (env.order .settings prf.settings)) >>= _) = _
  cases hs : PrfPaths.topskyPath prf (env.order .settings prf.settings) with
  | error e => rfl
  | ok path =>
    cases path with
    | none => rfl
    | some d =>
      have h3 : ∀ n ∈ [c!"TopSkySettings.txt", c!"TopSkySymbols.txt", c!"TopSkyMaps.txt"],
          text { env with read := r } (PrfPaths.join d n) = text env (PrfPaths.join d n) := by
        intro n hn
        unfold text
        show (r _).map _ = _
        rw [ht d hs n hn]
      simp only [lift, bind, Except.bind, h3 c!"TopSkySettings.txt" (by simp), h3 c!"TopSkySymbols.txt" (by simp), h3 c!"TopSkyMaps.txt" (by simp)]

/-! ## C78: finding a sector -/

variable {L : Type}

theorem tree_fresh {env : Env F G} {a : Adaptation F G} (h : a.index = some (SectorIndex.buildTree ⟨env.order .index a.sectors, a.volumes⟩)) :
    tree env a = SectorIndex.buildTree ⟨env.order .index a.sectors, a.volumes⟩ := by
  unfold tree SectorIndex.Adaptation.getOrBuild
  rw [h]

/-- C78: right after loading, no sector is found at a place exactly if no sector of the ESE file with a controller and a
closed border is around it. -/
theorem C78_find_none [Std.IsLinearPreorder F] {env : Env F G} {prf : Prf} {a : Adaptation F G} (ho : AnyOrder env)
    (h : fromPrf env prf = .ok a) {ese : Parse.Ese.Ese F} (he : Parsed env prf .ese (Parse.Ese.parse (F := F) G) ese)
    (q : SectorIndex.Env F L) (hc : ContainsWithinExtent q) (hs : ShufflePerm q) (p : F × F) (level : L) :
    findSector env q a p level = none ↔ ∀ id e, ¬ Around env q ese p level id e := by
  obtain ⟨s⟩ := steps h
  have hese : s.ese = ese := by
    obtain ⟨p, t, h1, h2, h3⟩ := required_ok.1 s.hese
    obtain ⟨p', t', h4, h5, h6⟩ := he
    have := h1.symm.trans h4
    cases this
    rw [textAt_unique h2 h5, h6] at h3
    cases h3; rfl
  have hn : ese.sectors.keys.Nodup := by obtain ⟨_, t, _, _, h6⟩ := he; exact ese_sectors_nodup h6
  obtain ⟨hk, hr⟩ := sectors_result ho hn (hese ▸ s.hsectors)
  unfold findSector
  rw [tree_fresh s.hindex, SectorIndex.C25_find_sector_none q hc hs]
  constructor
  · intro hno id e har
    obtain ⟨h1, h2, ⟨b, h3, h4⟩, h5⟩ := har
    have hb := (hasPolygon_iff ho hn).2 ⟨e, h1, rfl, h3⟩
    obtain ⟨sid, sec, h6, h7, _⟩ := hr.volume_sector id _ ((hr.volume_iff id _).2 ⟨_, b, hb, rfl⟩)
    exact hno sid ((sectorAt_iff ho hn hk hr q p level sid).2 ⟨sec, id, e, h6, h7, h1, h2, ⟨b, h3, h4⟩, h5⟩)
  · intro hno sid hat
    obtain ⟨sec, id, e, _, _, h3⟩ := (sectorAt_iff ho hn hk hr q p level sid).1 hat
    exact hno id e h3

/-- C78: right after loading, the sector that is found at a place is that of a sector of the ESE file around it: it is
named after a sector of the ESE file that has the same owners and the same runway filter. -/
theorem C78_find_some [Std.IsLinearPreorder F] {env : Env F G} {prf : Prf} {a : Adaptation F G} (ho : AnyOrder env)
    (h : fromPrf env prf = .ok a) {ese : Parse.Ese.Ese F} (he : Parsed env prf .ese (Parse.Ese.parse (F := F) G) ese)
    (q : SectorIndex.Env F L) (hc : ContainsWithinExtent q) (hs : ShufflePerm q) {p : F × F} {level : L} {sid : Str}
    (hf : findSector env q a p level = some sid) :
    ∃ s id e d, a.sectors.get? sid = some s ∧ id ∈ s.volumes ∧ Around env q ese p level id e ∧
      s.positionPriority = e.ownerPriority ∧
      ese.sectors.get? sid = some d ∧ d.ownerPriority = e.ownerPriority ∧ d.runwayFilter = e.runwayFilter := by
  obtain ⟨s⟩ := steps h
  have hese : s.ese = ese := by
    obtain ⟨p, t, h1, h2, h3⟩ := required_ok.1 s.hese
    obtain ⟨p', t', h4, h5, h6⟩ := he
    have := h1.symm.trans h4
    cases this
    rw [textAt_unique h2 h5, h6] at h3
    cases h3; rfl
  have hn : ese.sectors.keys.Nodup := by obtain ⟨_, t, _, _, h6⟩ := he; exact ese_sectors_nodup h6
  obtain ⟨hk, hr⟩ := sectors_result ho hn (hese ▸ s.hsectors)
  unfold findSector at hf
  rw [tree_fresh s.hindex, SectorIndex.C25_find_sector_iff q hc hs] at hf
  obtain ⟨sec, id, e, h1, h2, h3⟩ := (sectorAt_iff ho hn hk hr q p level sid).1 hf.1
  obtain ⟨h4, h5, h6⟩ := hr.sector_volumes sid sec h1
  obtain ⟨v, hv⟩ := h6 sid h5
  obtain ⟨e', b', hb', _⟩ := (hr.volume_iff sid v).1 hv
  obtain ⟨d, hd, rfl, _⟩ := (hasPolygon_iff ho hn).1 hb'
  obtain ⟨b, hb, _⟩ := h3.2.2.1
  have hpol := (hasPolygon_iff ho hn).2 ⟨e, h3.1, rfl, hb⟩
  have hsame := (hr.share_iff id sid _ _ _ _ hpol hb').1 ⟨sid, sec, h1, h2, h5⟩
  exact ⟨sec, id, e, d, h1, h2, h3, (hr.sector_data sid sec id _ _ h1 h2 hpol).1, hd, hsame.1.symm, hsame.2.symm⟩

/-! ## C79: overlays -/

section
variable [Json.JsonFloat F] [Json.JsonFloat G]

/-- C79: without overlays nothing is changed. -/
theorem C79_no_overlays (env : Env F G) (prf : Prf) : fromPrfWithOverlays env prf [] = fromPrf env prf := by
  unfold fromPrfWithOverlays
  cases fromPrf env prf <;> rfl

/-- C79: with overlays the adaptation is what merging gives; only if merging fails is there another error. -/
theorem C79_overlays (env : Env F G) (prf : Prf) {overlays : List Path} (ho : overlays ≠ []) :
    (∀ b, fromPrfWithOverlays env prf overlays = .ok b ↔
      ∃ a m, fromPrf env prf = .ok a ∧ merge env a overlays = some m ∧
        b = { m with index := some (SectorIndex.buildTree ⟨env.order .index m.sectors, m.volumes⟩) }) ∧
    (∀ e, fromPrfWithOverlays env prf overlays = .error e ↔
      fromPrf env prf = .error e ∨ ∃ a, fromPrf env prf = .ok a ∧ merge env a overlays = none ∧ e = .overlays) := by
  have hne : overlays.isEmpty = false := by cases overlays <;> simp_all
  constructor
  · intro b
    unfold fromPrfWithOverlays
    rw [bind_ok]
    constructor
    · rintro ⟨a, h1, h2⟩
      unfold applyOverlays at h2
      rw [hne] at h2
      cases hm : merge env a overlays with
      | none => rw [hm] at h2; cases h2
      | some m => rw [hm] at h2; cases h2; exact ⟨a, m, h1, hm, rfl⟩
    · rintro ⟨a, m, h1, h2, rfl⟩
      refine ⟨a, h1, ?_⟩
      unfold applyOverlays
      rw [hne, h2]
      rfl
  · intro e
    unfold fromPrfWithOverlays
    rw [bind_error]
    refine or_congr Iff.rfl ⟨?_, ?_⟩
    · rintro ⟨a, h1, h2⟩
      unfold applyOverlays at h2
      rw [hne] at h2
      cases hm : merge env a overlays with
      | none => rw [hm] at h2; cases h2; exact ⟨a, h1, hm, rfl⟩
      | some m => rw [hm] at h2; cases h2
    · rintro ⟨a, h1, h2, rfl⟩
      refine ⟨a, h1, ?_⟩
      unfold applyOverlays
      rw [hne, h2]
      rfl

theorem sectorAt_perm {q : SectorIndex.Env F L} {l l' : List (Str × Sectors.Sector)} (h : l.Perm l')
    {v : Map Str (Sectors.Volume (SectorIndex.Border F))} {p : F × F} {level : L} {id : Str} :
    SectorAt q ⟨l, v⟩ p level id ↔ SectorAt q ⟨l', v⟩ p level id := by
  unfold SectorAt SectorIndex.Spec.ControlledVolume
  simp only [h.mem_iff]

/-- C79: queries after applying overlays are answered from the merged sectors and volumes, not from the loaded ones. -/
theorem C79_queries_see_overlays [Std.IsLinearPreorder F] {env : Env F G} (ha : AnyOrder env) {prf : Prf} {overlays : List Path}
    (ho : overlays ≠ []) {b : Adaptation F G} (h : fromPrfWithOverlays env prf overlays = .ok b)
    (q : SectorIndex.Env F L) (hc : ContainsWithinExtent q) (hs : ShufflePerm q) (p : F × F) (level : L) (id : Str) :
    findSector env q b p level = some id ↔
      (SectorAt q ⟨b.sectors, b.volumes⟩ p level id ∧ ∀ id', SectorAt q ⟨b.sectors, b.volumes⟩ p level id' → StrLe id id') := by
  obtain ⟨a, m, _, _, rfl⟩ := ((C79_overlays env prf ho).1 b).1 h
  unfold findSector
  rw [tree_fresh rfl, SectorIndex.C25_find_sector_iff q hc hs]
  simp only [sectorAt_perm (ha .index m.sectors)]

end
end
end Verif.Props
