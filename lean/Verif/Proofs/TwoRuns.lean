import Verif.Spec.TwoRuns
import Verif.Props.AdaptationLoad
import Verif.Props.AdaptationContents
import Verif.Props.PrfPaths
/-!
# Two runs of the program with the same files: lemmas
-/

namespace Verif.Proofs.TwoRuns
open Verif.Adaptation Verif.Spec.Adaptation Verif.Proofs.Adaptation Verif.Spec.TwoRuns Verif.Props
open Verif.PrfPaths (Prf Path)
open Verif.Display (F32Ops)
open Verif.Dms (DmsArith)
open Verif.Parse.SymbolRule (Close)
open Verif.Locations (FloatOps Db SidStar)
open Verif.Sectors Verif.Sectors.Spec

theorem outcome_bind {E A B C D : Type} {R : A → B → Prop} {S : C → D → Prop} {x : Except E A} {y : Except E B}
    {f : A → Except E C} {g : B → Except E D} (h : SameOutcome R x y)
    (hf : ∀ a b, x = .ok a → y = .ok b → R a b → SameOutcome S (f a) (g b)) : SameOutcome S (x >>= f) (y >>= g) := by
  cases x <;> cases y
  · exact h
  · exact h.elim
  · exact h.elim
  · exact hf _ _ rfl rfl h

theorem outcome_refl {E A : Type} {R : A → A → Prop} (hr : ∀ a, R a a) (x : Except E A) : SameOutcome R x x := by
  cases x
  · rfl
  · exact hr _

theorem outcome_of_eq {E A : Type} {R : A → A → Prop} (hr : ∀ a, R a a) {x y : Except E A} (h : x = y) : SameOutcome R x y :=
  h ▸ outcome_refl hr x

theorem outcome_of_ok {A B : Type} {R : A → B → Prop} {x : Run A} {y : Run B} (h : ∃ a b, x = .ok a ∧ y = .ok b ∧ R a b) :
    SameOutcome R (lift x) (lift y) := by
  obtain ⟨a, b, rfl, rfl, h⟩ := h
  exact h

theorem outcome_lift {A B : Type} {R : A → B → Prop} {x : Run A} {y : Run B} (h : SameOutcome R x y) :
    SameOutcome R (lift x) (lift y) := by
  cases x <;> cases y
  · exact congrArg _ h
  · exact h.elim
  · exact h.elim
  · exact h

/-! ### Locations -/

section
variable {F : Type} [FloatOps F] [UnicodeTables]

theorem sameLocations_convert {db db' : Db F} (h : SameLocations db db') (d : Str) :
    db.convertDesignator d = db'.convertDesignator d := by
  have ha : ∀ x, db.airports.get? x = db'.airports.get? x := h.airports
  have hf : ∀ x, db.convertFix x = db'.convertFix x := by
    intro x
    unfold Db.convertFix Db.convertRwy
    simp only [h.fixes, h.vors, h.ndbs, ha]
  unfold Db.convertDesignator Db.convertRangeBearing
  simp only [hf]

theorem sameLocations_location {db db' : Db F} (h : SameLocations db db') (l : Locations.Location F) :
    db.convertLocation l = db'.convertLocation l := by
  cases l with
  | coordinate p => rfl
  | fix d => simp only [Db.convertLocation, sameLocations_convert h]

theorem addSidStar_same {db db' : Db F} (h : SameLocations db db') (s : SidStar) :
    SameOutcome SameLocations (db.addSidStar s) (db'.addSidStar s) := by
  cases s with
  | sid s =>
    unfold Db.addSidStar
    refine outcome_bind (outcome_of_eq (R := Eq) (fun _ => rfl) (Locations.convertWaypoints_congr db db' (sameLocations_convert h) _)) ?_
    rintro a _ _ _ rfl
    exact ⟨h.fixes, h.vors, h.ndbs, by simp only [h.sids], h.stars, h.airports⟩
  | star s =>
    unfold Db.addSidStar
    refine outcome_bind (outcome_of_eq (R := Eq) (fun _ => rfl) (Locations.convertWaypoints_congr db db' (sameLocations_convert h) _)) ?_
    rintro a _ _ _ rfl
    exact ⟨h.fixes, h.vors, h.ndbs, h.sids, by simp only [h.stars], h.airports⟩

theorem addSidStars_same {db db' : Db F} (h : SameLocations db db') (l : List SidStar) :
    SameOutcome SameLocations (db.addSidStars l) (db'.addSidStars l) := by
  induction l generalizing db db' with
  | nil => exact h
  | cons s l ih =>
    unfold Db.addSidStars
    exact outcome_bind (addSidStar_same h s) fun a b _ _ hab => ih hab

theorem fromEuroscope_same (sct : Locations.SctData F) (ss : List SidStar) {icao icao' : List (Str × Locations.IcaoAirport)}
    {navdata navdata' : List (Str × Locations.NavdataAirport F)} (hi : (icao.map (·.1)).Nodup) (hn : (navdata.map (·.1)).Nodup)
    (pi : icao.Perm icao') (pn : navdata.Perm navdata') :
    SameOutcome SameLocations (Locations.fromEuroscope sct ss icao navdata) (Locations.fromEuroscope sct ss icao' navdata') := by
  refine addSidStars_same (db := Locations.baseDb sct navdata icao) (db' := Locations.baseDb sct navdata' icao')
    ⟨rfl, rfl, rfl, rfl, rfl, fun d => ?_⟩ ss
  exact Locations.C20_order_independent sct [] icao icao' navdata navdata' hi hn pi pn _ _ rfl rfl d

end

/-! ### Plugins -/

section

theorem topskyPath_same {prf : Prf} (hp : prf.path ≠ []) (hc : prf.cwd ≠ none) (h : OneFile prf c!"TopSky.dll")
    {es es' : List ((Str × Str) × Str)} (he : es.Perm prf.settings) (he' : es'.Perm prf.settings) :
    PrfPaths.topskyPath prf es = PrfPaths.topskyPath prf es' := by
  obtain ⟨cwd, hc⟩ := Option.ne_none_iff_exists'.1 hc
  have hp := (List.dropLast_concat_getLast hp).symm
  obtain ⟨⟨o, h1, h2, h3⟩, _⟩ := C58_plugin_paths prf _ cwd _ hp hc es he
  obtain ⟨⟨o', h1', h2', h3'⟩, _⟩ := C58_plugin_paths prf _ cwd _ hp hc es' he'
  rw [h1, h1']
  cases o with
  | none => rw [h2'.2 (h2.1 rfl)]
  | some d =>
    cases o' with
    | none => cases h2.2 (h2'.1 rfl)
    | some d' =>
      obtain ⟨k, v, hm, hv⟩ := h3 d rfl
      obtain ⟨k', v', hm', hv'⟩ := h3' d' rfl
      rw [h k v d k' v' d' hm hm' hv hv']

theorem squawksPath_same {prf : Prf} (hp : prf.path ≠ []) (hc : prf.cwd ≠ none) (h : OneFile prf c!"Squawks.dll")
    {es es' : List ((Str × Str) × Str)} (he : es.Perm prf.settings) (he' : es'.Perm prf.settings) :
    PrfPaths.squawksPath prf es = PrfPaths.squawksPath prf es' := by
  obtain ⟨cwd, hc⟩ := Option.ne_none_iff_exists'.1 hc
  have hp := (List.dropLast_concat_getLast hp).symm
  obtain ⟨_, o, h1, h2, h3⟩ := C58_plugin_paths prf _ cwd _ hp hc es he
  obtain ⟨_, o', h1', h2', h3'⟩ := C58_plugin_paths prf _ cwd _ hp hc es' he'
  rw [h1, h1']
  cases o with
  | none => rw [h2'.2 (h2.1 rfl)]
  | some f =>
    cases o' with
    | none => cases h2.2 (h2'.1 rfl)
    | some f' =>
      obtain ⟨d, k, v, rfl, hm, hv⟩ := h3 f rfl
      obtain ⟨d', k', v', rfl, hm', hv'⟩ := h3' f' rfl
      rw [h k v d k' v' d' hm hm' hv hv']

end

/-! ### Sectors -/

section
variable {F G : Type} [F64 F] [DmsArith F] [DecidableEq F] [FloatOps F] [Close F] [F64 G] [F32Ops G] [UnicodeTables]

/-- What is the same about the sectors of two runs. -/
def SameAirspace (r r' : Map Str (Volume (SectorIndex.Border F)) × Map Str Sector) : Prop :=
  SameVolumes r.1 r'.1 ∧ SectorsAmong r.2 r'.2 ∧ SectorsAmong r'.2 r.2

omit [F64 F] [DmsArith F] [FloatOps F] [Close F] [F64 G] [UnicodeTables] in
theorem polygon_run {env env' : Env F G} (hr : OtherRun env env') {ese : Parse.Ese.Ese F} (hn : ese.sectors.keys.Nodup) {id : Str}
    {e : EseSector (F × F)} {b : SectorIndex.Border F}
    (h : HasPolygon (polygonOf env.quantize env.dequantize env.choose) (entries env ese) id e b) :
    ∃ b', HasPolygon (polygonOf env'.quantize env'.dequantize env'.choose) (entries env' ese) id e b' := by
  obtain ⟨d, h1, h2, h3⟩ := (hasPolygon_iff hr.sane.order hn).1 h
  obtain ⟨b', h4⟩ := (Polygon.C22_choice_independent env.quantize env.dequantize env.choose env'.choose hr.sane.choose hr.sane'.choose
      (d.border.map fun l => l.map fun p => (p.x, p.y))).1 ⟨b, h3⟩
  have hq : env'.quantize = env.quantize := by rw [hr.same]
  have hd : env'.dequantize = env.dequantize := by rw [hr.same]
  exact ⟨b', (hasPolygon_iff hr.sane'.order hn).2 ⟨d, h1, h2, by rw [hq, hd]; exact h4⟩⟩

omit [F64 F] [DmsArith F] [FloatOps F] [Close F] [F64 G] [UnicodeTables] in
theorem hasPolygon_unique {env : Env F G} (ho : AnyOrder env) {ese : Parse.Ese.Ese F} (hn : ese.sectors.keys.Nodup) {id : Str}
    {e e' : EseSector (F × F)} {b b' : SectorIndex.Border F}
    (h : HasPolygon (polygonOf env.quantize env.dequantize env.choose) (entries env ese) id e b)
    (h' : HasPolygon (polygonOf env.quantize env.dequantize env.choose) (entries env ese) id e' b') : e = e' := by
  obtain ⟨d, h1, rfl, _⟩ := (hasPolygon_iff ho hn).1 h
  obtain ⟨d', h1', rfl, _⟩ := (hasPolygon_iff ho hn).1 h'
  rw [h1] at h1'
  cases h1'
  rfl

omit [F64 F] [DmsArith F] [FloatOps F] [Close F] [F64 G] [UnicodeTables] in
theorem OtherRun.symm {env env' : Env F G} (hr : OtherRun env env') : OtherRun env' env := by
  refine ⟨?_, hr.sane', hr.sane⟩
  have h := hr.same
  rw [h]

omit [F64 F] [DmsArith F] [FloatOps F] [Close F] [F64 G] [UnicodeTables] in
theorem volumes_run {env env' : Env F G} (hr : OtherRun env env') {ese : Parse.Ese.Ese F} (hn : ese.sectors.keys.Nodup)
    {vs vs' : Map Str (Volume (SectorIndex.Border F))} {ss ss' : Map Str Sector}
    (h : IsResult (polygonOf env.quantize env.dequantize env.choose) env.ccw (entries env ese) vs ss)
    (h' : IsResult (polygonOf env'.quantize env'.dequantize env'.choose) env'.ccw (entries env' ese) vs' ss') {id : Str}
    {v : Volume (SectorIndex.Border F)} (hv : vs.get? id = some v) :
    ∃ v', vs'.get? id = some v' ∧ (v'.id, v'.lowerLevel, v'.upperLevel) = (v.id, v.lowerLevel, v.upperLevel) := by
  obtain ⟨e, p, h1, rfl⟩ := (h.volume_iff id v).1 hv
  obtain ⟨p', h2⟩ := polygon_run hr hn h1
  exact ⟨_, (h'.volume_iff id _).2 ⟨e, p', h2, rfl⟩, rfl⟩

omit [F64 F] [DmsArith F] [FloatOps F] [Close F] [F64 G] [UnicodeTables] in
theorem sectors_run {env env' : Env F G} (hr : OtherRun env env') {ese : Parse.Ese.Ese F} (hn : ese.sectors.keys.Nodup)
    {vs vs' : Map Str (Volume (SectorIndex.Border F))} {ss ss' : Map Str Sector}
    (h : IsResult (polygonOf env.quantize env.dequantize env.choose) env.ccw (entries env ese) vs ss)
    (h' : IsResult (polygonOf env'.quantize env'.dequantize env'.choose) env'.ccw (entries env' ese) vs' ss') :
    SectorsAmong ss ss' := by
  intro sid s hs
  -- every volume of a sector is the volume of an ESE sector
  have poly : ∀ {env : Env F G} {vs : Map Str (Volume (SectorIndex.Border F))} {ss : Map Str Sector} {sid : Str} {s : Sector},
      IsResult (polygonOf env.quantize env.dequantize env.choose) env.ccw (entries env ese) vs ss → ss.get? sid = some s → ∀ id ∈ s.volumes,
      ∃ e b, HasPolygon (polygonOf env.quantize env.dequantize env.choose) (entries env ese) id e b := by
    intro env vs ss sid s h hs id hid
    obtain ⟨v, hv⟩ := (h.sector_volumes sid s hs).2.2 id hid
    obtain ⟨e, b, hb, _⟩ := (h.volume_iff id v).1 hv
    exact ⟨e, b, hb⟩
  obtain ⟨_, hsid, _⟩ := h.sector_volumes sid s hs
  obtain ⟨e, b, hb⟩ := poly h hs sid hsid
  obtain ⟨b', hb'⟩ := polygon_run hr hn hb
  obtain ⟨sid', s', hs', hin, _⟩ := h'.volume_sector sid _ ((h'.volume_iff sid _).2 ⟨e, b', hb', rfl⟩)
  obtain ⟨d1, d2, _, _⟩ := h.sector_data sid s sid e b hs hsid hb
  obtain ⟨d1', d2', _, _⟩ := h'.sector_data sid' s' sid e b' hs' hin hb'
  -- the volumes
  have only : ∀ {env : Env F G} {vs : Map Str (Volume (SectorIndex.Border F))} {ss : Map Str Sector} {sid : Str} {s : Sector},
      IsResult (polygonOf env.quantize env.dequantize env.choose) env.ccw (entries env ese) vs ss → ss.get? sid = some s →
      ∀ id0 ∈ s.volumes, ∀ e0 b0, HasPolygon (polygonOf env.quantize env.dequantize env.choose) (entries env ese) id0 e0 b0 →
      ∀ id1 e1 b1, HasPolygon (polygonOf env.quantize env.dequantize env.choose) (entries env ese) id1 e1 b1 →
        (id1 ∈ s.volumes ↔ SameControl e0 e1) := by
    intro env vs ss sid s h hs id0 h0 e0 b0 hb0 id1 e1 b1 hb1
    rw [← h.share_iff id0 id1 e0 e1 b0 b1 hb0 hb1]
    constructor
    · intro h1
      exact ⟨sid, s, hs, h0, h1⟩
    · rintro ⟨sid2, s2, hs2, h2, h3⟩
      obtain ⟨sid3, s3, _, _, hu⟩ := h.volume_sector id0 _ ((h.volume_iff id0 _).2 ⟨e0, b0, hb0, rfl⟩)
      have e1 := hu sid2 s2 hs2 h2
      have e2 := hu sid s hs h0
      rw [e1, ← e2, hs] at hs2
      cases hs2
      exact h3
  have hvol : ∀ id, id ∈ s.volumes ↔ id ∈ s'.volumes := by
    intro id
    constructor
    · intro hid
      obtain ⟨e1, b1, hb1⟩ := poly h hs id hid
      obtain ⟨b1', hb1'⟩ := polygon_run hr hn hb1
      exact (only h' hs' sid hin e b' hb' id e1 b1' hb1').2 ((only h hs sid hsid e b hb id e1 b1 hb1).1 hid)
    · intro hid
      obtain ⟨e1, b1', hb1'⟩ := poly h' hs' id hid
      obtain ⟨b1, hb1⟩ := polygon_run (OtherRun.symm hr) hn hb1'
      exact (only h hs sid hsid e b hb id e1 b1 hb1).2 ((only h' hs' sid hin e b' hb' id e1 b1' hb1').1 hid)
  refine ⟨sid', s', hs', d1.trans d1'.symm, d2.trans d2'.symm, hvol, fun a => ⟨fun ha => ?_, fun ha => ?_⟩,
    fun a => ⟨fun ha => ?_, fun ha => ?_⟩⟩
  · obtain ⟨id, hid, e1, b1, hb1, h1⟩ := (h.airports sid s hs).1 a ha
    obtain ⟨b1', hb1'⟩ := polygon_run hr hn hb1
    exact (h'.sector_data sid' s' id e1 b1' hs' ((hvol id).1 hid) hb1').2.2.1 a h1
  · obtain ⟨id, hid, e1, b1', hb1', h1⟩ := (h'.airports sid' s' hs').1 a ha
    obtain ⟨b1, hb1⟩ := polygon_run (OtherRun.symm hr) hn hb1'
    exact (h.sector_data sid s id e1 b1 hs ((hvol id).2 hid) hb1).2.2.1 a h1
  · obtain ⟨id, hid, e1, b1, hb1, h1⟩ := (h.airports sid s hs).2 a ha
    obtain ⟨b1', hb1'⟩ := polygon_run hr hn hb1
    exact (h'.sector_data sid' s' id e1 b1' hs' ((hvol id).1 hid) hb1').2.2.2 a h1
  · obtain ⟨id, hid, e1, b1', hb1', h1⟩ := (h'.airports sid' s' hs').2 a ha
    obtain ⟨b1, hb1⟩ := polygon_run (OtherRun.symm hr) hn hb1'
    exact (h.sector_data sid s id e1 b1 hs ((hvol id).2 hid) hb1).2.2.2 a h1

theorem sectors_same {env env' : Env F G} (hr : OtherRun env env') {s : Str} {ese : Parse.Ese.Ese F}
    (h : Parse.Ese.parse (F := F) G s = .ok ese) :
    SameOutcome SameAirspace (lift (sectors env ese)) (lift (sectors env' ese)) := by
  obtain ⟨⟨vs, ss⟩, h1⟩ := sectors_no_fault hr.sane h
  obtain ⟨⟨vs', ss'⟩, h2⟩ := sectors_no_fault hr.sane' h
  have hn := ese_sectors_nodup h
  have r1 := (sectors_result hr.sane.order hn h1).2
  have r2 := (sectors_result hr.sane'.order hn h2).2
  refine outcome_of_ok ⟨_, _, h1, h2, fun id => ?_, sectors_run hr hn r1 r2, sectors_run (OtherRun.symm hr) hn r2 r1⟩
  show Option.map _ (vs.get? id) = Option.map _ (vs'.get? id)
  cases hv : vs.get? id with
  | some v =>
    obtain ⟨v', h3, h4⟩ := volumes_run hr hn r1 r2 hv
    rw [h3]
    exact congrArg some h4.symm
  | none =>
    cases hv' : vs'.get? id with
    | none => rfl
    | some v' =>
      obtain ⟨v, h3, _⟩ := volumes_run (OtherRun.symm hr) hn r2 r1 hv'
      rw [hv] at h3
      cases h3

/-! ### Items of the sector file -/

omit [UnicodeTables] in
theorem holds_same {V : Type} {m m' : MultiMap Str V} {f : Str → List V} (h : Spec.SctItems.Holds m f) (h' : Spec.SctItems.Holds m' f) :
    SameMap m m' := fun k => (h k).trans (h' k).symm

theorem items_same (fmt : F → Str) {o o' : List (Str × List (Parse.Sct.Airway F)) → List (Str × List (Parse.Sct.Airway F))}
    (ho : ∀ l, (o l).Perm l) (ho' : ∀ l, (o' l).Perm l) {s : Str} {sct : Parse.Sct.Sct F} (hp : Parse.Sct.parse (F := F) s = .ok sct)
    {db db' : Db F} (hd : SameLocations db db') (get : Str → Option Colours.Colour) (sid : Colours.Colour) :
    SameOutcome SameItems (lift (Model.SctItems.fromSct fmt o sct db get sid)) (lift (Model.SctItems.fromSct fmt o' sct db' get sid)) := by
  have hpl : ∀ l ∈ Spec.SctItems.locations sct, db.convertLocation (Model.SctItems.location l) = .ok (Spec.Adaptation.place db l) := by
    intro l hl
    cases l with
    | coordinate p => rfl
    | fix d =>
      obtain ⟨r, hr⟩ := Locations.C53_lookup_no_panic_partial db d (Proofs.Sct.parse_named _ _ hp d hl)
      simp only [Spec.Adaptation.place, Locations.Spec.resolved, Model.SctItems.location, Locations.Db.convertLocation, hr]
      rfl
  obtain ⟨i, h, h1, h2, h3, h4, h5, h6, h7, h8, h9, h10⟩ := sct_items fmt o sct db get sid ho _ hpl
  obtain ⟨i', h', h1', h2', h3', h4', h5', h6', h7', h8', h9', h10'⟩ := sct_items fmt o' sct db' get sid ho' (Spec.Adaptation.place db)
    fun l hl => (sameLocations_location hd _).symm.trans (hpl l hl)
  exact outcome_of_ok ⟨i, i', h, h', holds_same h1 h1', holds_same h2 h2', holds_same h9 h9', holds_same h10 h10', holds_same h3 h3',
    holds_same h4 h4', holds_same h5 h5', holds_same h6 h6', holds_same h7 h7', holds_same h8 h8'⟩

/-! ### Colours and maps -/

omit [F64 F] [DmsArith F] [Close F] [F64 G] in
theorem maps_same (s : Display.MapsSettings F G) (get : Str → Option Colours.Colour) {db db' : Db F} (hd : SameLocations db db')
    (t : Option (Parse.Topsky.Topsky F G)) : mapsOf s get db t = mapsOf s get db' t := by
  cases t with
  | none => rfl
  | some t =>
    show maps s get db t = maps s get db' t
    unfold maps
    simp only [sameLocations_location hd]

theorem colours_same {env env' : Env F G} (ho : AnyOrder env) (ho' : AnyOrder env') {s : Str} {sct : Parse.Sct.Sct F}
    (hp : Parse.Sct.parse (F := F) s = .ok sct) {t : Option (Parse.Topsky.Topsky F G)}
    (ht : ∀ u, t = some u → u.colours.keys.Nodup) :
    SameMap (Colours.otherColours (env.order .sctColours sct.colours) ((topskyColours t).map fun m => env.order .topskyColours m))
      (Colours.otherColours (env'.order .sctColours sct.colours) ((topskyColours t).map fun m => env'.order .topskyColours m)) := by
  intro k
  have hn : sct.colours.keys.Nodup := Proofs.sct_colours_nodup hp
  have hk : ∀ {env : Env F G}, AnyOrder env → ∀ (site : Site) {m : Map Str Colours.Colour}, m.keys.Nodup →
      (Map.keys (env.order site m)).Nodup := fun ho site m hm => ((ho site m).map _).nodup_iff.2 hm
  unfold Colours.otherColours
  have hm : ((topskyColours t).getD []).keys.Nodup := by
    cases t with
    | none => simp [topskyColours, Map.keys]
    | some u =>
      show Map.keys (u.colours.map fun e => (e.1, e.2.colour)) |>.Nodup
      unfold Map.keys
      rw [List.map_map]
      exact ht u rfl
  cases t with
  | none =>
    simp only [topskyColours, Option.map_none, Option.getD_none]
    rw [Colours.get?_ofList_append _ _ (hk ho _ hn) (by simp [Map.keys]), Colours.get?_ofList_append _ _ (hk ho' _ hn) (by simp [Map.keys]),
      get?_perm hn (ho _ _), get?_perm hn (ho' _ _)]
  | some u =>
    simp only [topskyColours, Option.map_some, Option.getD_some] at hm ⊢
    rw [Colours.get?_ofList_append _ _ (hk ho _ hn) (hk ho _ hm), Colours.get?_ofList_append _ _ (hk ho' _ hn) (hk ho' _ hm),
      get?_perm hn (ho _ _), get?_perm hn (ho' _ _), get?_perm hm (ho _ _), get?_perm hm (ho' _ _)]

end
end Verif.Proofs.TwoRuns
