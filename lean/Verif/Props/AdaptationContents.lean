import Verif.Proofs.AdaptationContents
import Verif.Props.Settings
/-!
# C81–C86: what is in an adaptation

From the files to the colours, settings, symbols, locations, maps and items of the sector file.  The statements are about
`Verif.Adaptation.fromPrf`; that the files say something is `Parsed`, `TopskyIs` and `SquawksAre` of `Verif.Spec.Adaptation`,
and what the contents of a file mean is the subject of the theorems about the parsers.
-/

/-- Where a location is: a point is where it is, and a name where the fix is. -/
def Verif.Spec.Adaptation.place {F : Type} [Verif.F64 F] [Verif.Dms.DmsArith F] [DecidableEq F] [Verif.Locations.FloatOps F] [Verif.UnicodeTables]
    (db : Verif.Locations.Db F) : Verif.Parse.Sct.Loc F → Option (F × F)
  | .coordinate p => some (p.x, p.y)
  | .fix d => (Verif.Locations.Spec.resolved db d).map (·.coordinate)

namespace Verif.Props
open Verif.Adaptation Verif.Spec.Adaptation Verif.Proofs.Adaptation
open Verif.PrfPaths (Prf Path)
open Verif.Display (F32Ops)
open Verif.Dms (DmsArith)
open Verif.Parse.SymbolRule (Close)
open Verif.Parse.Topsky (Topsky)
open Verif.Locations (FloatOps)
open Verif.Settings (SquawkDef)

section
variable {F G : Type} [F64 F] [DmsArith F] [DecidableEq F] [FloatOps F] [Close F] [F64 G] [F32Ops G] [UnicodeTables]
  [LE F] [DecidableLE F]

/-! ## C81: colours -/

/-- **C81.** A colour is looked up in TopSky, then in the sector file, then among the built-in colours. -/
theorem C81_colours {env : Env F G} {prf : Prf} {a : Adaptation F G} (h : fromPrf env prf = .ok a) (ho : AnyOrder env)
    {sct : Parse.Sct.Sct F} (hs : Parsed env prf .sct Parse.Sct.parse sct) {t : Option (Topsky F G)} (ht : TopskyIs env prf t)
    (name : Str) :
    Colours.get a.otherColours a.settings.coopans name =
      match t.bind (·.colours.get? name), sct.colours.get? name with
      | some d, _ => some d.colour
      | none, some c => some c
      | none, none => Colours.builtin a.settings.coopans name := by
  obtain ⟨s⟩ := steps h
  have e1 : s.sct = sct := parsed_unique (required_ok.1 s.hsct) hs
  have e2 : s.topsky = t := topskyIs_unique s.htopsky ht
  have hn : sct.colours.keys.Nodup := by
    obtain ⟨_, _, _, _, hp⟩ := hs
    exact Proofs.sct_colours_nodup hp
  have hn1 : Map.keys (env.order .sctColours sct.colours) |>.Nodup := ((ho .sctColours sct.colours).map _).nodup_iff.2 hn
  rw [s.hother, e1, e2]
  cases t with
  | none =>
    rw [show (topskyColours (none : Option (Topsky F G))).map (fun m => env.order .topskyColours m) = none from rfl,
      Colours.C47_precedence_without_topsky _ hn1, get?_perm hn (ho _ _), Option.bind_none]
    cases Map.get? sct.colours name <;> rfl
  | some t =>
    obtain ⟨m, hm⟩ : ∃ m : Map Str Colours.Colour, m = t.colours.map fun e => (e.1, e.2.colour) := ⟨_, rfl⟩
    have hn2 : m.keys.Nodup := by
      obtain ⟨_, _, hp⟩ := ht
      unfold Map.keys
      rw [hm, List.map_map]
      exact Proofs.topsky_colours_nodup hp
    have hn3 : Map.keys (env.order .topskyColours m) |>.Nodup := ((ho .topskyColours m).map _).nodup_iff.2 hn2
    rw [show (topskyColours (some t)).map (fun m => env.order .topskyColours m) =
        some (Colours.topskyColours (env.order .topskyColours m) []) from hm ▸ rfl,
      Colours.C47_precedence _ _ _ hn1 hn3 (by simp [Map.keys]), get?_perm hn (ho _ _), get?_perm hn2 (ho _ _), hm, get?_mapSnd,
      Option.bind_some, Map.get?_nil]
    cases Map.get? t.colours name <;> cases Map.get? sct.colours name <;> rfl

/-- **C81, tracks and interface.** The colour of a state of tracks or a part of the interface is that of its name in TopSky, or the
built-in one. -/
theorem C81_role_colours {env : Env F G} {prf : Prf} {a : Adaptation F G} (h : fromPrf env prf = .ok a) {t : Option (Topsky F G)}
    (ht : TopskyIs env prf t) (r : Colours.Role) :
    ∃ c, Colours.builtin a.settings.coopans (Colours.roleName r) = some c ∧
      a.roleColours r = ((t.bind (·.colours.get? (Colours.roleName r))).map (·.colour)).getD c := by
  obtain ⟨s⟩ := steps h
  have e : s.topsky = t := topskyIs_unique s.htopsky ht
  obtain ⟨c, h1, h2⟩ := Colours.C55_role_colours ((topskyColours t).getD []) a.settings.coopans r
  refine ⟨c, h1, ?_⟩
  rw [s.hroleColours, e, h2]
  cases t with
  | none => rfl
  | some t =>
    rw [show (topskyColours (some t)).getD [] = t.colours.map fun e => (e.1, e.2.colour) from rfl, get?_mapSnd]
    rfl

/-- **C81, elements of the map.** Their colours are those of the symbology file; for the names of high airways see
`C54_high_airway_name`. -/
theorem C81_map_colours {env : Env F G} {prf : Prf} {a : Adaptation F G} (h : fromPrf env prf = .ok a)
    {sy : Parse.Symbology.Symbology F G} (hs : Parsed env prf .symbology Parse.Symbology.parse sy) (e : Colours.MapElement)
    (he : e ≠ .highAirwayName) :
    a.mapColours e =
      match sy.items.get? (Colours.ownItem e) with
      | some i => i.colour
      | none => if e = .activeBackground ∨ e = .inactiveBackground then ⟨200, 200, 200, 255⟩ else ⟨0, 0, 0, 255⟩ := by
  obtain ⟨s⟩ := steps h
  have e1 : s.symbology = sy := parsed_unique (required_ok.1 s.hsymbology) hs
  rw [s.hmapColours, e1, Colours.C54_map_colours_partial _ e he, get?_mapSnd]
  cases Map.get? sy.items (Colours.ownItem e) <;> rfl

/-! ## C82: settings -/

section
variable (num : Str → F) (numG : Str → G)
  (hnum : ∀ s, IsDecimal s → F64.ofText s = some (num s)) (hnumG : ∀ s, IsDecimal s → F64.ofText s = some (numG s))

include hnum hnumG in
/-- **C82, lines and labels.** They are set by the symbology file. -/
theorem C82_lines_and_labels {env : Env F G} {prf : Prf} {a : Adaptation F G} (h : fromPrf env prf = .ok a) {f : Spec.Symbology.File}
    {content : Str} (hv : f.IsText content) (hf : f.Fits) (ht : TextOf env prf .symbology content) :
    (∀ kind folder name, (kind, folder, name) ∈ Spec.Display.lineItems →
      (∀ i, (f.itemsNamed numG folder name).getLast? = some i → a.settings.maps.lineStyles kind = ⟨i.lineWeight, i.lineStyle⟩) ∧
      (f.itemsNamed numG folder name = [] → a.settings.maps.lineStyles kind = ⟨1, c!"SOLID"⟩)) ∧
    (∀ kind folder name, (kind, folder, name) ∈ Spec.Display.labelItems →
      (∀ i, (f.itemsNamed numG folder name).getLast? = some i →
        a.settings.maps.labelAlignments kind = i.alignment ∧ a.settings.maps.labelSizes kind = F32Ops.mul i.scale (numG c!"3.5")) ∧
      (f.itemsNamed numG folder name = [] →
        a.settings.maps.labelAlignments kind = ⟨.center, .center⟩ ∧
        a.settings.maps.labelSizes kind = F32Ops.mul (numG c!"3.0") (numG c!"3.5"))) := by
  obtain ⟨s⟩ := steps h
  obtain ⟨m, h1, h2⟩ := C72_lines_and_labels num numG hnum hnumG hv hf
  have e1 : s.symbology = m := parsed_unique (required_ok.1 s.hsymbology) (parsed_of_text ht h1)
  exact h2 _ _ _ _ (e1 ▸ s.hsettings)

include hnumG in
/-- **C82, TopSky.** The history dots, the vectors, the font size of maps and COOPANS are set by the settings file of TopSky. -/
theorem C82_topsky_settings {env : Env F G} {prf : Prf} {a : Adaptation F G} (h : fromPrf env prf = .ok a)
    {t : Topsky F G} (ht : TopskyIs env prf (some t)) {es : List Spec.TopskySettings.Entry} {content : Str}
    (hc : TopskyText env prf c!"TopSkySettings.txt" content) (hf : Spec.TopskySettings.IsFile es content) :
    SetBy numG (fun n => (es.filterMap (Spec.TopskySettings.valueOf n)).getLast?) a.settings := by
  obtain ⟨s⟩ := steps h
  have e : s.topsky = some t := topskyIs_unique s.htopsky ht
  obtain ⟨colours, settings, h1, h2⟩ := C73_topsky_settings (F := F) numG hnumG hf
  have h3 : t.settings = settings := by
    obtain ⟨dir, hd, hp⟩ := ht
    obtain ⟨dir', hd', bytes, hr, rfl⟩ := hc
    rw [hd] at hd'
    cases hd'
    have : text env (PrfPaths.join dir c!"TopSkySettings.txt") = some (Decode.readToString env.lossy bytes) := by unfold text; rw [hr]; rfl
    rw [this] at hp
    unfold Parse.Topsky.parse at hp
    simp only [h1] at hp
    repeat' split at hp
    all_goals first
      | cases hp; done
      | skip
    cases hp
    rfl
  obtain ⟨a1, a2, a3, a4, a5, a6, a7, a8, a9⟩ := h2 s.symbology.items s.squawks prf a.settings
    (by have := s.hsettings; rw [e] at this; rw [← h3]; exact this) _ fun n => rfl
  exact ⟨a1, a2, a3, a4, a5, a6, a7, a8, a9⟩

include hnumG in
/-- **C82, without TopSky.** -/
theorem C82_without_topsky {env : Env F G} {prf : Prf} {a : Adaptation F G} (h : fromPrf env prf = .ok a) (ht : NoTopsky env prf) :
    a.settings.historyDots = ⟨false, 6, List.range 9⟩ ∧ a.settings.vector.enabled = false ∧
    a.settings.vector.length = numG c!"1.0" ∧ a.settings.maps.fontSize = numG c!"12.0" ∧ a.settings.coopans = true := by
  obtain ⟨s⟩ := steps h
  have e : s.topsky = none := topskyIs_unique s.htopsky (u := none) ht
  exact C73_without_topsky (F := F) numG hnumG _ _ _ _ (by have := s.hsettings; rw [e] at this; exact this)

include hnum hnumG in
/-- **C82, the same everywhere.** -/
theorem C82_fixed {env : Env F G} {prf : Prf} {a : Adaptation F G} (h : fromPrf env prf = .ok a) :
    a.settings.maps.autoFolder = c!"AUTO" ∧ a.settings.maps.layer = numG c!"1.0" ∧
    a.settings.maps.labelOffset = (num c!"3.0", num c!"3.0") := by
  obtain ⟨s⟩ := steps h
  obtain ⟨h1, h2, h3, _⟩ := C73_fixed num numG hnumG hnum _ _ _ _ _ s.hsettings
  exact ⟨h1, h2, h3⟩

end

/-- **C82, recent files.** -/
theorem C82_asr_files {env : Env F G} {prf : Prf} {a : Adaptation F G} (h : fromPrf env prf = .ok a) (hc : Complete prf) :
    a.settings.asrFiles.map Except.ok =
      ([c!"Recent1", c!"Recent2", c!"Recent3", c!"Recent4", c!"Recent5", c!"Recent6", c!"Recent7", c!"Recent8", c!"Recent9"].filterMap
        fun key => prf.settings.get? (c!"RecentFiles", key)).map (PrfPaths.joinSettingsPath prf) := by
  obtain ⟨s⟩ := steps h
  obtain ⟨cwd, hcwd⟩ := Option.ne_none_iff_exists'.1 hc.cwd
  obtain ⟨x, h1, h2⟩ := C73_asr_files (F := F) (G := G) prf prf.path.dropLast cwd (prf.path.getLast hc.file)
    (List.dropLast_concat_getLast hc.file).symm hcwd s.symbology.items (s.topsky.map Topsky.settings) s.squawks
  rw [s.hsettings] at h1
  cases h1
  exact h2

/-- **C82, special-use codes.** They are those of the file with the squawks; a later entry counts more. -/
theorem C82_special_use_codes {env : Env F G} {prf : Prf} {a : Adaptation F G} (h : fromPrf env prf = .ok a) {l : Option (List SquawkDef)}
    (hl : SquawksAre env prf l) (k m : Str) :
    a.settings.specialUseCodes.get? k = some m ↔
      ∃ n before sq after, Settings.IsCode k n ∧ l = some (before ++ sq :: after) ∧ Settings.Covers sq n ∧ sq.message = m ∧
        ∀ sq' ∈ after, ¬ Settings.Covers sq' n := by
  obtain ⟨s⟩ := steps h
  have e : s.squawks = l := squawksAre_unique s.hsquawks hl
  obtain ⟨_, _, hx⟩ := Display.fields s.hsettings
  subst e
  rw [hx]
  show Map.get? (match s.squawks with | some s => Verif.Settings.specialUseCodes s | none => []) k = some m ↔ _
  cases s.squawks with
  | none => simp
  | some l =>
    show Map.get? (Verif.Settings.specialUseCodes l) k = some m ↔ _
    rw [Settings.C37_special_use_codes]
    simp

/-! ## C83: symbols and line styles -/

/-- **C83.** A symbol is that of TopSky, or that of the symbology file, or, apart from VORs (see `C46_vor`), the built-in one. -/
theorem C83_symbols {env : Env F G} {prf : Prf} {a : Adaptation F G} (h : fromPrf env prf = .ok a)
    {sy : Parse.Symbology.Symbology F G} (hs : Parsed env prf .symbology Parse.Symbology.parse sy)
    {t : Option (Topsky F G)} (ht : TopskyIs env prf t) (k : Settings.Kind) :
    (∀ d, t.bind (·.symbols.get? (Settings.topskyName k)) = some d → a.symbols k = d.rules) ∧
    (t.bind (·.symbols.get? (Settings.topskyName k)) = none →
      (∀ y, sy.symbols.get? (Settings.symbologyType k) = some y → a.symbols k = y) ∧
      (sy.symbols.get? (Settings.symbologyType k) = none → k ≠ .vor → a.symbols k = Settings.defaultSymbol env.int k)) := by
  obtain ⟨s⟩ := steps h
  have e1 : s.symbology = sy := parsed_unique (required_ok.1 s.hsymbology) hs
  have e2 : s.topsky = t := topskyIs_unique s.htopsky ht
  have e3 : ∀ n, (t.map fun t => t.symbols.map fun e => (e.1, e.2.rules)).bind (fun m => Map.get? m n) =
      (t.bind (·.symbols.get? n)).map (·.rules) := by
    intro n
    cases t with
    | none => rfl
    | some t => exact get?_mapSnd _ _ _
  rw [s.hsymbols, e1, e2]
  by_cases hk : k = .vor
  · subst hk
    rw [Settings.C46_vor, e3]
    refine ⟨fun d hd => by rw [hd]; rfl, fun hn => ⟨fun y hy => by rw [hn, hy]; rfl, fun _ h => absurd rfl h⟩⟩
  · rw [Settings.C46_symbols_partial _ _ _ _ hk, e3]
    refine ⟨fun d hd => by rw [hd]; rfl, fun hn => ⟨fun y hy => by rw [hn, hy]; rfl, fun hy _ => by rw [hn, hy]; rfl⟩⟩

/-- **C83, other symbols.** They are those of TopSky. -/
theorem C83_other_symbols {env : Env F G} {prf : Prf} {a : Adaptation F G} (h : fromPrf env prf = .ok a)
    {t : Option (Topsky F G)} (ht : TopskyIs env prf t) (n : Str) :
    a.otherSymbols.get? n = (t.bind (·.symbols.get? n)).map (·.rules) := by
  obtain ⟨s⟩ := steps h
  rw [s.hotherSymbols, topskyIs_unique s.htopsky ht]
  cases t with
  | none => rfl
  | some t => exact get?_mapSnd _ _ _

/-- **C83, line styles.** The six built-in styles are always there. -/
theorem C83_builtin_line_styles {env : Env F G} {prf : Prf} {a : Adaptation F G} (h : fromPrf env prf = .ok a) :
    a.lineStyles.get? c!"SOLID" = some none ∧
    a.lineStyles.get? c!"DOT" = some (some [(env.nat 1, env.nat 1)]) ∧
    a.lineStyles.get? c!"ALTERNATE" = some (some [(env.nat 1, env.nat 1)]) ∧
    a.lineStyles.get? c!"DASH" = some (some [(env.nat 3, env.nat 3)]) ∧
    a.lineStyles.get? c!"DASHDOT" = some (some [(env.nat 3, env.nat 3), (env.nat 1, env.nat 3)]) ∧
    a.lineStyles.get? c!"DASHDOTDOT" = some (some [(env.nat 3, env.nat 3), (env.nat 1, env.nat 3), (env.nat 1, env.nat 3)]) := by
  obtain ⟨s⟩ := steps h
  rw [s.hlineStyles]
  exact Settings.C45_builtin _ _ _

/-- **C83, line styles.** The others are those of TopSky under their names in upper case. -/
theorem C83_line_styles {env : Env F G} {prf : Prf} {a : Adaptation F G} (h : fromPrf env prf = .ok a) (ho : AnyOrder env)
    {t : Option (Topsky F G)} (ht : TopskyIs env prf t) (k : Str) (hk : k ∉ Settings.builtinNames) :
    (a.lineStyles.get? k = none ↔ ∀ u, t = some u → ∀ e ∈ u.lineStyles, env.upper e.1 ≠ k) ∧
    ∀ p, a.lineStyles.get? k = some p →
      ∃ u, t = some u ∧ ∃ e ∈ u.lineStyles, env.upper e.1 = k ∧ Settings.IsPattern e.2.dashLengths p := by
  obtain ⟨s⟩ := steps h
  rw [s.hlineStyles, topskyIs_unique s.htopsky ht]
  cases t with
  | none =>
    rw [Option.map_none, Settings.C45_without_topsky _ _ _ hk]
    simp
  | some t =>
    obtain ⟨h1, h2⟩ := Settings.C45_other env.nat env.upper ((env.order .lineStyles t.lineStyles).map fun e => (e.1, e.2.dashLengths)) k hk
    have hm : ∀ e, e ∈ env.order .lineStyles t.lineStyles ↔ e ∈ t.lineStyles := fun e => (ho _ _).mem_iff
    rw [Option.map_some]
    constructor
    · rw [h1]
      simp only [List.mem_map, forall_exists_index, and_imp, forall_apply_eq_imp_iff₂, Option.some.injEq, forall_eq', hm]
    · intro p hp
      obtain ⟨e, he, h3, h4⟩ := h2 p hp
      obtain ⟨x, hx, rfl⟩ := List.mem_map.1 he
      exact ⟨t, rfl, x, (hm x).1 hx, h3, h4⟩

/-! ## C84: locations -/

/-- **C84, navaids and fixes.** VORs, NDBs and fixes are those of the sector file, in its order. -/
theorem C84_navaids {env : Env F G} {prf : Prf} {a : Adaptation F G} (h : fromPrf env prf = .ok a)
    {sct : Parse.Sct.Sct F} (hs : Parsed env prf .sct Parse.Sct.parse sct) (d : Str) :
    a.locations.vors.getVec d = (sct.vors.filter (·.designator = d)).map (fun v => ⟨v.designator, v.frequency, (v.coordinate.x, v.coordinate.y)⟩) ∧
    a.locations.ndbs.getVec d = (sct.ndbs.filter (·.designator = d)).map (fun v => ⟨v.designator, v.frequency, (v.coordinate.x, v.coordinate.y)⟩) ∧
    a.locations.fixes.getVec d = (sct.fixes.filter (·.designator = d)).map (fun v => ⟨v.designator, (v.coordinate.x, v.coordinate.y)⟩) := by
  obtain ⟨s⟩ := steps h
  have e1 : s.sct = sct := parsed_unique (required_ok.1 s.hsct) hs
  obtain ⟨h1, h2, h3⟩ := Locations.C15_tables _ _ _ _ _ s.hlocations d
  rw [h1, h2, h3, e1]
  refine ⟨?_, ?_, ?_⟩
  all_goals
    simp only [sctData, List.filter_map]
    rfl

/-- **C84, airports.** An airport is the last one of this designator in the sector file, with its runways, or that of the navdata;
its name is that of the navdata, or that of the ICAO airports, and its country is that of the ICAO airports. -/
theorem C84_airports {env : Env F G} {prf : Prf} {a : Adaptation F G} (h : fromPrf env prf = .ok a) (ho : AnyOrder env)
    {sct : Parse.Sct.Sct F} (hs : Parsed env prf .sct Parse.Sct.parse sct)
    {icao : Map Str Parse.Icao.IcaoAirport} (hi : Parsed env prf .airports Parse.Icao.parseAirports icao)
    {navdata : Map Str (Parse.Icao.NavdataAirport F)} (hn : Parsed env prf .navdata Parse.Icao.parseNavdataAirports navdata) (d : Str) :
    let name := ((navdata.get? d).map (·.name)).or ((icao.get? d).map (·.name))
    let country := (icao.get? d).map (·.country)
    let runways := (sct.runways.filter (·.aerodrome = d)).map fun r =>
      ⟨r.designators, r.headings, ((r.location.1.x, r.location.1.y), (r.location.2.x, r.location.2.y)), r.aerodrome⟩
    a.locations.airports.get? d =
      match (sct.airports.filter (·.designator = d)).getLast?, navdata.get? d with
      | some x, _ => some ⟨d, (x.coordinate.x, x.coordinate.y), name, country, runways⟩
      | none, some n => some ⟨d, (n.location.x, n.location.y), name, country, []⟩
      | none, none => none := by
  obtain ⟨s⟩ := steps h
  have e1 : s.sct = sct := parsed_unique (required_ok.1 s.hsct) hs
  have e2 : s.airports = icao := parsed_unique (required_ok.1 s.hairports) hi
  have e3 : s.navdata = navdata := parsed_unique (required_ok.1 s.hnavdata) hn
  have n2 : icao.keys.Nodup := by obtain ⟨_, _, _, _, hp⟩ := hi; exact Proofs.airports_nodup hp
  have n3 : navdata.keys.Nodup := by obtain ⟨_, _, _, _, hp⟩ := hn; exact Proofs.navdata_nodup hp
  have hl := s.hlocations
  rw [e1, e2, e3] at hl
  have find : ∀ {V W : Type} (m : Map Str V) (f : V → W), ((m.map fun e => (e.1, f e.2)).find? fun e => decide (e.1 = d)).map (·.2) =
      (m.get? d).map f := by
    intro V W m f
    rw [← get?_mapSnd]
    induction m with
    | nil => rfl
    | cons e m ih =>
      by_cases hk : e.1 = d
      · simp [Map.get?, hk]
      · simp only [List.map_cons]
        simpa [Map.get?, hk, List.find?] using ih
  have k2 : ((env.order .airports icao).map Prod.fst).Nodup := ((ho .airports icao).map _).nodup_iff.2 n2
  have k3 : ((env.order .navdata navdata).map Prod.fst).Nodup := ((ho .navdata navdata).map _).nodup_iff.2 n3
  intro name country runways
  rw [Locations.C20_airport _ _ _ _ (by rw [List.map_map]; exact k2) (by rw [List.map_map]; exact k3) _ hl d]
  unfold Locations.Spec.airportOf
  have f2 := find (env.order .airports icao) fun x => (⟨x.name, x.country⟩ : Locations.IcaoAirport)
  have f3 := find (env.order .navdata navdata) fun x => (⟨x.designator, x.name, (x.location.x, x.location.y)⟩ : Locations.NavdataAirport F)
  rw [get?_perm n2 (ho _ _)] at f2
  rw [get?_perm n3 (ho _ _)] at f3
  have f1 : (sctData sct).airports.reverse.find? (fun a => decide (a.designator = d)) =
      ((sct.airports.filter (·.designator = d)).getLast?).map fun a => ⟨a.designator, (a.coordinate.x, a.coordinate.y), a.ctrAirspace⟩ := by
    rw [List.getLast?_eq_head?_reverse, ← List.filter_reverse, List.head?_filter]
    simp only [sctData, ← List.map_reverse, List.find?_map]
    rfl
  simp only [f1, f2, f3]
  have f4 : (sctData sct).runways.filter (fun r => decide (r.aerodrome = d)) = runways := by
    simp only [sctData, List.filter_map]
    rfl
  rw [f4]
  cases (sct.airports.filter (·.designator = d)).getLast? with
  | some x =>
    simp only [Option.map_some, Option.map_map]
    rfl
  | none =>
    simp only [Option.map_none, Option.map_map]
    simp only [name, country]
    cases Map.get? navdata d with
    | none => rfl
    | some n => cases Map.get? icao d <;> rfl

/-- **C84, procedures.** The SIDs and STARs are those of the ESE file, with the waypoints that are known. -/
theorem C84_procedures {env : Env F G} {prf : Prf} {a : Adaptation F G} (h : fromPrf env prf = .ok a)
    {ese : Parse.Ese.Ese F} (he : Parsed env prf .ese (Parse.Ese.parse G) ese) (airport name : Str) :
    Locations.Spec.stored a.locations.sids airport name =
      ((Locations.Spec.sidsOf ese.sidsStars).filter fun s => s.airport = airport ∧ s.name = name).map
        (Locations.Spec.resolvedProcedure a.locations) ∧
    Locations.Spec.stored a.locations.stars airport name =
      ((Locations.Spec.starsOf ese.sidsStars).filter fun s => s.airport = airport ∧ s.name = name).map
        (Locations.Spec.resolvedProcedure a.locations) := by
  obtain ⟨s⟩ := steps h
  have e1 : s.ese = ese := parsed_unique (required_ok.1 s.hese) he
  exact e1 ▸ Locations.C52_procedures _ _ _ _ _ s.hlocations airport name

/-! ## C85: maps -/

/-- **C85.** A folder of maps is there exactly if a map is shown in it.  Its maps are those of TopSky's map file that belong into
it, in the order of the file, each under its own name or the first free one; they are drawn with the colours, locations and
settings of the adaptation.  A folder is hidden if it is that of the maps without a folder, or if TopSky hides it. -/
theorem C85_maps {env : Env F G} {prf : Prf} {a : Adaptation F G} (h : fromPrf env prf = .ok a) {t : Topsky F G}
    (ht : TopskyIs env prf (some t)) :
    letI := world F G
    let s : Maps.Settings := ⟨a.settings.maps.fontSize, a.settings.maps.layer, a.settings.maps.autoFolder, a.settings.maps.labelOffset⟩
    let get := Colours.get a.otherColours a.settings.coopans
    ∃ defs : List Maps.MapDef, List.Forall₂ SameMap t.maps defs ∧ ∀ f,
      (a.maps.get? f = none ↔ Maps.Spec.inFolder s get f defs = []) ∧
      ∀ fd, a.maps.get? f = some fd →
        fd.name = f ∧
        (fd.hidden = true ↔ f = s.autoFolder ∨ ⟨f, none⟩ ∈ t.overrides) ∧
        (fd.maps.map (·.1)).Nodup ∧ Maps.Spec.AreNamesFor ((Maps.Spec.inFolder s get f defs).map (·.name)) (fd.maps.map (·.1)) ∧
        List.Forall₂ (fun d e => IsMapOf s get (Spec.Adaptation.place a.locations) d e.1 e.2) (Maps.Spec.inFolder s get f defs) fd.maps := by
  letI := world F G
  obtain ⟨s⟩ := steps h
  have e : s.topsky = some t := topskyIs_unique s.htopsky ht
  have hm := s.hmaps
  rw [e] at hm
  unfold mapsOf maps at hm
  rw [run_bind_ok] at hm
  obtain ⟨_, _, hm⟩ := hm
  have hm' : Maps.fromTopsky (⟨a.settings.maps.fontSize, a.settings.maps.layer, a.settings.maps.autoFolder, a.settings.maps.labelOffset⟩ : Maps.Settings)
      (Colours.get a.otherColours a.settings.coopans) (Spec.Adaptation.place a.locations) (t.overrides.map fun o => ⟨o.folder, o.name⟩) (t.maps.map mapDef) =
      .ok a.maps := by
    rw [← hm]
    congr 1
    funext l
    cases l with
    | coordinate p => rfl
    | fix d =>
      simp only [Spec.Adaptation.place, Locations.Spec.resolved, Model.SctItems.location, Locations.Db.convertLocation]
      cases a.locations.convertDesignator d <;> rfl
  refine ⟨t.maps.map mapDef, sameMaps _, fun f => ?_⟩
  obtain ⟨h1, h2⟩ := folders_spec hm' f
  refine ⟨h1, fun fd hfd => ?_⟩
  obtain ⟨h3, h4, h5⟩ := h2 fd hfd
  refine ⟨h3, h4.trans ?_, h5⟩
  refine or_congr Iff.rfl ?_
  rw [List.mem_map]
  constructor
  · rintro ⟨⟨o1, o2⟩, ho, he⟩
    cases he
    exact ho
  · intro ho
    exact ⟨_, ho, rfl⟩

/-- **C85, without TopSky.** There are no maps. -/
theorem C85_without_topsky {env : Env F G} {prf : Prf} {a : Adaptation F G} (h : fromPrf env prf = .ok a) (ht : NoTopsky env prf) :
    a.maps = [] := by
  obtain ⟨s⟩ := steps h
  have e : s.topsky = none := topskyIs_unique s.htopsky (u := none) ht
  have := s.hmaps
  rw [e] at this
  exact (Except.ok.inj this).symm

/-! ## C86: the items of the sector file -/

/-- **C86.** The drawings, regions and texts of the sector file are there under their names, with the points that the adaptation
knows, in the colours it knows. -/
theorem C86_sector_items {env : Env F G} {prf : Prf} {a : Adaptation F G} (h : fromPrf env prf = .ok a) (ho : AnyOrder env)
    {sct : Parse.Sct.Sct F} (hs : Parsed env prf .sct Parse.Sct.parse sct) :
    let place := Spec.Adaptation.place a.locations
    let get := Colours.get a.otherColours a.settings.coopans
    let sid := a.mapColours .sid
    Spec.SctItems.Holds a.sctItems.sids (Spec.SctItems.drawn place get sid sct.sids) ∧
    Spec.SctItems.Holds a.sctItems.stars (Spec.SctItems.drawn place get sid sct.stars) ∧
    Spec.SctItems.Holds a.sctItems.artccsHigh (Spec.SctItems.drawn place get sid sct.artccsHigh) ∧
    Spec.SctItems.Holds a.sctItems.artccs (Spec.SctItems.drawn place get sid sct.artccs) ∧
    Spec.SctItems.Holds a.sctItems.artccsLow (Spec.SctItems.drawn place get sid sct.artccsLow) ∧
    Spec.SctItems.Holds a.sctItems.geo (Spec.SctItems.drawn place get sid sct.geo) ∧
    Spec.SctItems.Holds a.sctItems.regions (fun n => sct.regions.filter (·.name = n)) ∧
    Spec.SctItems.Holds a.sctItems.labels (fun n => sct.labels.filter (·.name = n)) := by
  obtain ⟨s⟩ := steps h
  have e1 : s.sct = sct := parsed_unique (required_ok.1 s.hsct) hs
  have hi := s.hitems
  rw [e1] at hi
  obtain ⟨_, _, _, _, hp⟩ := hs
  obtain ⟨i, h1, h2⟩ := C70_sct_drawings env.fmt (env.order .airways) sct a.locations
    (Colours.get a.otherColours a.settings.coopans) (a.mapColours .sid) (fun l => ho _ l) (Spec.Adaptation.place a.locations) (fun l hl => by
      cases l with
      | coordinate p => rfl
      | fix d =>
        obtain ⟨r, hr⟩ := Locations.C53_lookup_no_panic_partial a.locations d (Proofs.Sct.parse_named _ _ hp d hl)
        simp only [Spec.Adaptation.place, Locations.Spec.resolved, Model.SctItems.location, Locations.Db.convertLocation, hr]
        rfl)
  rw [hi] at h1
  cases h1
  exact h2

end
end Verif.Props
