import Verif.Proofs.EseNames
import Verif.Proofs.SctNames
import Verif.Proofs.TopskyNames
import Verif.Props.Adaptation
import Verif.Props.Airway
import Verif.Props.Display
import Verif.Props.Icao
import Verif.Props.Locations
import Verif.Props.Maps
import Verif.Props.Polygon
import Verif.Props.PrfPaths
import Verif.Props.Sct
import Verif.Props.SctItems
import Verif.Props.Symbology
import Verif.Props.Topsky
import Verif.Spec.AdaptationLoad
/-!
# C80: loading an adaptation does not panic

The words of the statements are in `Verif.Spec.AdaptationLoad`.
-/

namespace Verif.Props
open Verif.Adaptation Verif.Spec.Adaptation Verif.Proofs.Adaptation
open Verif.PrfPaths (Prf Path)
open Verif.Display (F32Ops)
open Verif.Dms (DmsArith)
open Verif.Parse.SymbolRule (Close)
open Verif.Locations (FloatOps)
open Verif.Locations.Spec (OnlyAsciiDigits)

set_option linter.unusedSectionVars false

section
variable {F G : Type} [F64 F] [DmsArith F] [DecidableEq F] [FloatOps F] [Close F] [F64 G] [F32Ops G] [UnicodeTables]

/-! ## The steps -/

theorem required_fault {A : Type} {env : Env F G} {f : File} {p : Run Path} {parse : Str → Run A} {x : Fault}
    (h : required env f p parse = .error (.fault x)) :
    p = .error x ∨ ∃ q s, p = .ok q ∧ TextAt env q s ∧ parse s = .error x ∧ x ≠ .parseError := by
  unfold required at h
  rw [bind_error] at h
  rcases h with h | ⟨q, hq, h⟩
  · obtain ⟨y, h1, h2⟩ := lift_error.1 h
    cases h1
    exact Or.inl h2
  · rw [lift_ok] at hq
    cases hr : env.read q with
    | none => rw [hr] at h; cases h
    | some b =>
      rw [hr] at h
      simp only at h
      split at h
      · cases h
      · cases h
      · next hn hp => cases h; exact Or.inr ⟨q, _, hq, ⟨b, hr, rfl⟩, hp, hn⟩

/-- A required file makes nothing panic if its path is there and its text is harmless. -/
theorem required_no_fault {A : Type} {env : Env F G} {prf : Prf} {f : File} {parse : Str → Run A} {x : Fault}
    (hp : ∃ p, path prf f = .ok p) (ht : ∀ s, TextOf env prf f s → (∃ a, parse s = .ok a) ∨ parse s = .error .parseError) :
    required env f (path prf f) parse ≠ .error (.fault x) := by
  intro h
  rcases required_fault h with h | ⟨q, s, h1, h2, h3, h4⟩
  · obtain ⟨p, hp⟩ := hp
    rw [hp] at h
    cases h
  · rcases ht s ⟨q, h1, h2⟩ with ⟨a, h⟩ | h
    · rw [h] at h3; cases h3
    · rw [h] at h3; cases h3; exact h4 rfl

theorem complete_dir {prf : Prf} (h : Complete prf) : ∃ dir file cwd, prf.path = dir ++ [file] ∧ prf.cwd = some cwd := by
  obtain ⟨cwd, hc⟩ := Option.ne_none_iff_exists'.1 h.cwd
  exact ⟨_, _, cwd, (List.dropLast_concat_getLast h.file).symm, hc⟩

theorem complete_path {prf : Prf} (h : Complete prf) (f : File) : ∃ p, path prf f = .ok p := by
  obtain ⟨dir, file, cwd, hp, hc⟩ := complete_dir h
  have key : ∀ k ∈ keys, ∃ v, Map.get? prf.settings (c!"Settings", k) = some v := fun k hk =>
    Option.ne_none_iff_exists'.1 (h.settings k hk)
  have := C57_setting_paths prf dir cwd file hp hc
  have get : ∀ (g : Prf → Run Path) (k : Str), (g, k) ∈ [(PrfPaths.sctPath, c!"sector"), (PrfPaths.airwaysPath, c!"airways"),
        (PrfPaths.navdataAirportsPath, c!"airportcoords"), (PrfPaths.airlinesPath, c!"airlines"), (PrfPaths.aircraftPath, c!"aircraft"),
        (PrfPaths.airportsPath, c!"airports"), (PrfPaths.symbologyPath, c!"SettingsfileSYMBOLOGY")] → k ∈ keys → ∃ p, g prf = .ok p := by
    intro g k hm hk
    obtain ⟨v, hv⟩ := key k hk
    exact ((this _ hm).1 v hv).2
  cases f with
  | sct => exact get PrfPaths.sctPath c!"sector" (by simp) (by simp [keys])
  | ese =>
    obtain ⟨p, hp⟩ := get PrfPaths.sctPath c!"sector" (by simp) (by simp [keys])
    refine ⟨PrfPaths.withExtension p c!"ese", ?_⟩
    unfold PrfPaths.sctPath at hp
    obtain ⟨v, hv, hj⟩ := run_bind_ok.1 hp
    show (do return PrfPaths.withExtension (← PrfPaths.joinSettingsPath prf (← PrfPaths.setting prf c!"sector")) c!"ese") = _
    rw [hv]
    simp only [bind, Except.bind, hj]
    rfl
  | airways => exact get PrfPaths.airwaysPath c!"airways" (by simp) (by simp [keys])
  | symbology => exact get PrfPaths.symbologyPath c!"SettingsfileSYMBOLOGY" (by simp) (by simp [keys])
  | airports => exact get PrfPaths.airportsPath c!"airports" (by simp) (by simp [keys])
  | navdata => exact get PrfPaths.navdataAirportsPath c!"airportcoords" (by simp) (by simp [keys])
  | aircraft => exact get PrfPaths.aircraftPath c!"aircraft" (by simp) (by simp [keys])
  | airlines => exact get PrfPaths.airlinesPath c!"airlines" (by simp) (by simp [keys])

theorem topskyPath_ok {prf : Prf} (h : Complete prf) (es : List ((Str × Str) × Str)) : ∃ d, PrfPaths.topskyPath prf es = .ok d := by
  obtain ⟨dir, file, cwd, hp, hc⟩ := complete_dir h
  rcases PrfPaths.findFile_spec (name := c!"TopSky.dll") hp hc (by decide) es with ⟨h, _⟩ | ⟨d, _, _, h, _⟩
  · exact ⟨_, h⟩
  · exact ⟨_, h⟩

theorem squawksPath_ok {prf : Prf} (h : Complete prf) (es : List ((Str × Str) × Str)) : ∃ d, PrfPaths.squawksPath prf es = .ok d := by
  obtain ⟨dir, file, cwd, hp, hc⟩ := complete_dir h
  unfold PrfPaths.squawksPath
  rcases PrfPaths.findFile_spec (name := c!"Squawks.dll") hp hc (by decide) es with ⟨h, _⟩ | ⟨d, _, _, h, _⟩ <;>
  · rw [h]
    exact ⟨_, rfl⟩

theorem text_some {env : Env F G} {p : Path} {s : Str} (h : text env p = some s) : TextAt env p s := by
  unfold text at h
  obtain ⟨b, hb, h⟩ := Option.map_eq_some_iff.1 h
  exact ⟨b, hb, h.symm⟩

/-- What stops the reading of TopSky stops the reading of its symbols or of its maps. -/
theorem topsky_fault {upper : Str → Str} {settings symbols maps : Option Str} {f : Fault} (hf : f ≠ .parseError)
    (h : Parse.Topsky.parse (F := F) (G := G) upper settings symbols maps = .fault f) :
    (∃ y, symbols = some y ∧ Parse.Topsky.parseSymbols (F := F) y = .error f) ∨
      ∃ c, maps = some c ∧ Parse.Topsky.parseMaps (F := F) (G := G) upper c = .error f := by
  unfold Parse.Topsky.parse at h
  cases settings with
  | none => cases h
  | some t =>
  dsimp only at h
  cases hs : Parse.TopskySettings.parse t with
  | error g =>
    rw [hs] at h
    cases h
    rcases C61_topsky_settings_total t with e | ⟨v, e⟩
    · rw [e] at hs; cases hs; exact absurd rfl hf
    · rw [e] at hs; cases hs
  | ok p =>
  obtain ⟨colours, settings⟩ := p
  rw [hs] at h
  dsimp only at h
  cases symbols with
  | none =>
    dsimp only at h
    cases maps with
    | none => cases h
    | some c =>
    dsimp only at h
    cases hm : Parse.Topsky.parseMaps (F := F) (G := G) upper c with
    | ok m => rw [hm] at h; cases h
    | error g => rw [hm] at h; cases h; exact Or.inr ⟨c, rfl, hm⟩
  | some y =>
    dsimp only at h
    cases hy : Parse.Topsky.parseSymbols (F := F) y with
    | error g => rw [hy] at h; cases h; exact Or.inl ⟨y, rfl, hy⟩
    | ok sy =>
      rw [hy] at h
      dsimp only at h
      cases maps with
      | none => cases h
      | some c =>
      dsimp only at h
      cases hm : Parse.Topsky.parseMaps (F := F) (G := G) upper c with
      | ok m => rw [hm] at h; cases h
      | error g => rw [hm] at h; cases h; exact Or.inr ⟨c, rfl, hm⟩

/-- TopSky makes nothing panic. -/
theorem topsky_no_fault {env : Env F G} {prf : Prf} (hc : Complete prf) (hh : Harmless env prf) : ∃ t, topsky env prf = .ok t := by
  obtain ⟨num, hnum⟩ := ese_reads F
  obtain ⟨numG, hnumG⟩ := ese_reads G
  unfold topsky
  obtain ⟨d, hd⟩ := topskyPath_ok hc (env.order .settings prf.settings)
  rw [hd]
  cases d with
  | none => exact ⟨_, rfl⟩
  | some dir =>
    simp only [lift, bind, Except.bind]
    split
    · exact ⟨_, rfl⟩
    · exact ⟨_, rfl⟩
    · exact ⟨_, rfl⟩
    · next f hf hp =>
      have hf : f ≠ .parseError := fun e => hf (by rw [e])
      exfalso
      rcases topsky_fault hf hp with ⟨y, hy, he⟩ | ⟨c, hc, he⟩
      · obtain ⟨a1, _, a3⟩ := C63_topsky_symbols_accepts num hnum y
        by_cases hf' : ∃ f : Spec.Topsky.SymbolFile, f.Valid ∧ f.text = y
        · obtain ⟨f, hv, ht⟩ := hf'
          obtain ⟨m, h⟩ := a1.2 ⟨f, hv, ht, hh.symbols y ⟨dir, hd, text_some hy⟩ f hv ht⟩
          rw [h] at he; cases he
        · rw [a3.2 hf'] at he
          cases he
          exact hf rfl
      · rcases hh.maps c ⟨dir, hd, text_some hc⟩ with ⟨g, h1, h2, rfl⟩ | h
        · obtain ⟨m, h, _⟩ := (C64_topsky_maps num numG env.upper hnum hnumG h1).1 h2
          rw [h] at he; cases he
        · obtain ⟨pre, s, post, e, h1⟩ := C64_topsky_maps_any_text num numG env.upper hnum hnumG c
            (by rw [he]; rintro ⟨⟩; exact hf rfl) (by rw [he]; rintro m ⟨⟩)
          exact h s ⟨pre, post, e.symm⟩ h1

theorem squawks_no_fault {env : Env F G} {prf : Prf} (hc : Complete prf) : ∃ t, squawks env prf = .ok t := by
  unfold squawks
  obtain ⟨d, hd⟩ := squawksPath_ok hc (env.order .settings prf.settings)
  rw [hd]
  exact ⟨_, rfl⟩

theorem mapM_total {A B : Type} {f : A → Run B} : ∀ {l : List A}, (∀ a ∈ l, ∃ b, f a = .ok b) → ∃ r, l.mapM f = .ok r
  | [], _ => ⟨[], rfl⟩
  | a :: l, h => by
    obtain ⟨b, hb⟩ := h a List.mem_cons_self
    obtain ⟨r, hr⟩ := mapM_total fun x hx => h x (List.mem_cons_of_mem _ hx)
    exact ⟨b :: r, by rw [List.mapM_cons, hb, hr]; rfl⟩

/-- The sectors make nothing panic. -/
theorem sectors_no_fault {env : Env F G} (hs : Sane env) {s : Str} {ese : Parse.Ese.Ese F}
    (h : Parse.Ese.parse (F := F) G s = .ok ese) : ∃ r, sectors env ese = .ok r := by
  have hn := ese_sectors_nodup h
  have hp : (env.order .sectors ese.sectors).Perm ese.sectors := hs.order _ _
  have hn' : ((entries env ese).map (·.1)).Nodup := by
    unfold entries
    rw [List.map_map]
    exact (hp.map _).nodup_iff.2 hn
  unfold sectors
  obtain ⟨r, hr⟩ := mapM_total (l := entries env ese)
    (f := fun e => Polygon.polygonFromEse env.quantize env.dequantize env.choose e.2.border)
    fun e _ => Polygon.C23_polygon_terminates _ _ _ hs.choose _
  obtain ⟨v, s, h1, _⟩ := Sectors.C24_partition (fun e : Sectors.EseSector (F × F) => match Polygon.polygonFromEse env.quantize env.dequantize env.choose e.border with
      | .ok p => p
      | .error _ => none) env.ccw (env.order .groups)
    (fun g => hs.order .groups g) (entries env ese) hn'
  refine ⟨(v, s), ?_⟩
  show ((entries env ese).mapM _ >>= _) = _
  rw [hr]
  exact h1

theorem convert_no_fault (db : Locations.Db F) (l : Parse.Sct.Loc F) (h : ∀ d, l = .fix d → OnlyAsciiDigits d) :
    ∃ p, db.convertLocation (Model.SctItems.location l) = .ok p := by
  cases l with
  | coordinate p => exact ⟨_, rfl⟩
  | fix d =>
    obtain ⟨r, hr⟩ := Locations.C53_lookup_no_panic_partial db d (h d rfl)
    exact ⟨r.map (·.coordinate), by show (db.convertDesignator d >>= fun f => _) = _; rw [hr]; rfl⟩

/-- The maps make nothing panic. -/
theorem maps_no_fault {env : Env F G} {prf : Prf} (hh : Harmless env prf) {t : Option (Parse.Topsky.Topsky F G)}
    (ht : topsky env prf = .ok t) (s : Display.MapsSettings F G) (get : Str → Option Colours.Colour) (db : Locations.Db F) :
    ∃ m, mapsOf s get db t = .ok m := by
  cases t with
  | none => exact ⟨_, rfl⟩
  | some t =>
    have hn : ∀ d ∈ t.maps, ∀ l ∈ converted d.rules [], ∀ n, l = .fix n → OnlyAsciiDigits n := by
      unfold topsky at ht
      rw [bind_ok] at ht
      obtain ⟨d, hd, ht⟩ := ht
      rw [lift_ok] at hd
      cases d with
      | none => cases ht
      | some dir =>
        simp only at ht
        split at ht
        · next hp =>
          cases ht
          exact Proofs.Topsky.parse_named env.upper (fun c hc => hh.digits c ⟨dir, hd, text_some hc⟩) t hp
        · cases ht
        · cases ht
        · cases ht
    show ∃ m, maps s get db t = .ok m
    unfold maps
    obtain ⟨r, hr⟩ := mapM_total (f := fun l => db.convertLocation (Model.SctItems.location l))
      (l := (t.maps.filter fun d => (@Maps.firstColour (world F G) get (d.rules.map mapRule)).isSome).flatMap fun d => converted d.rules [])
      (fun l hl => by
        obtain ⟨d, hd, hl⟩ := List.mem_flatMap.1 hl
        exact convert_no_fault db l (hn d (List.mem_filter.1 hd).1 l hl))
    simp only [hr, bind, Except.bind]
    obtain ⟨m, hm, _⟩ := @Maps.C28_folders (world F G) (@Maps.Settings.mk (world F G) s.fontSize s.layer s.autoFolder s.labelOffset) get
      (fun l => match db.convertLocation (Model.SctItems.location l) with | .ok p => p | .error _ => none)
      (t.overrides.map fun o => ⟨o.folder, o.name⟩) (t.maps.map mapDef)
    exact ⟨m, hm⟩

/-! ## All steps -/

variable [LE F] [DecidableLE F]

/-- C80: loading never panics and always comes to an end, unless the profile lacks a setting that it needs, or a file contains
a part that makes its parser panic. -/
theorem C80_no_panic {env : Env F G} {prf : Prf} (hs : Sane env) (hc : Complete prf) (hh : Harmless env prf) (x : Fault) :
    fromPrf env prf ≠ .error (.fault x) := by
  obtain ⟨num, hnum⟩ := ese_reads F
  obtain ⟨numG, hnumG⟩ := ese_reads G
  obtain ⟨dir, file, cwd, hp, hd⟩ := complete_dir hc
  intro h
  have fault : ∀ {A : Type} {y : Run A}, (∃ a, y = .ok a) → lift y ≠ .error (.fault x) := by
    rintro A _ ⟨a, rfl⟩ h
    cases h
  unfold fromPrf at h
  simp only [bind_error] at h
  rcases h with h | ⟨sct, h1, h⟩
  · refine required_no_fault (complete_path hc .sct) (fun s hs => ?_) h
    rcases C50_sct_outcome (F := F) s with h | h | ⟨part, h1, h2⟩
    · exact Or.inr h
    · exact Or.inl h
    · rcases hh.sct s hs with ⟨f, hv, hf, rfl⟩ | hn
      · obtain ⟨c, h, _⟩ := C51_sct_meaning (F := F) num hnum f hv hf
        exact Or.inl ⟨_, h⟩
      · exact absurd h2 (hn part h1)
  rcases h with h | ⟨ese, h2, h⟩
  · refine required_no_fault (complete_path hc .ese) (fun s hs => ?_) h
    rcases C50_ese_outcome (F := F) (G := G) s with h | h | ⟨part, h1, h2⟩
    · exact Or.inr h
    · exact Or.inl h
    · rcases hh.ese s hs with ⟨f, hv, hf, rfl⟩ | hn
      · obtain ⟨e, h, _⟩ := C51_ese_meaning (F := F) (G := G) num hnum f hv hf
        exact Or.inl ⟨e, h⟩
      · exact absurd h2 (hn part h1)
  rcases h with h | ⟨airways, h3, h⟩
  · refine required_no_fault (complete_path hc .airways) (fun s hs => ?_) h
    letI : AirwayGraph.Quantize (Parse.Point F) := ⟨fun p => env.quantize (p.x, p.y)⟩
    have hcoord : ∀ s, Spec.Isec.IsCoord s → F64.ofText s = some (num s) := fun s hs => hnum s (Parse.Isec.isCoord_isDecimal hs)
    by_cases hf : ∃ ws, ws ≠ [] ∧ Spec.Airway.IsFile s ws
    · obtain ⟨ws, h1, h2⟩ := hf
      obtain ⟨g, hg, _⟩ := C08_airway_ok num hcoord s ws h2 h1 (hh.airways s hs ws h2)
      exact Or.inl ⟨g, hg⟩
    · exact Or.inr ((C08_airway_error_iff num hcoord s).2 hf)
  obtain ⟨_, ctext, _, _, hsct⟩ := required_ok.1 h1
  obtain ⟨_, etext, _, _, hese⟩ := required_ok.1 h2
  rcases h with h | ⟨_, _, h⟩
  · exact fault (sectors_no_fault hs hese) h
  rcases h with h | ⟨_, h4, h⟩
  · refine required_no_fault (complete_path hc .symbology) (fun s hs => ?_) h
    obtain ⟨a1, _, a3⟩ := C62_symbology_accepts num numG hnum hnumG s
    by_cases hf : ∃ f : Spec.Symbology.File, f.IsText s
    · obtain ⟨f, hf⟩ := hf
      exact Or.inl (a1.2 ⟨f, hf, hh.symbology s hs f hf⟩)
    · exact Or.inr (a3.2 hf)
  rcases h with h | ⟨_, _, h⟩
  · obtain ⟨_, h'⟩ := squawks_no_fault (env := env) hc
    rw [h'] at h; cases h
  rcases h with h | ⟨_, ht, h⟩
  · obtain ⟨_, h'⟩ := topsky_no_fault hc hh
    rw [h'] at h; cases h
  rcases h with h | ⟨_, _, h⟩
  · obtain ⟨_, h', _⟩ := C73_asr_files (F := F) (G := G) prf dir cwd file hp hd _ _ _
    exact fault ⟨_, h'⟩ h
  rcases h with h | ⟨_, h5, h⟩
  · exact required_no_fault (complete_path hc .airports) (fun s _ => C05_airports_no_panic s) h
  rcases h with h | ⟨_, h6, h⟩
  · exact required_no_fault (complete_path hc .navdata) (fun s _ => C05_navdata_no_panic s) h
  rcases h with h | ⟨db, _, h⟩
  · refine fault (Locations.C53_build_no_panic_partial _ _ _ _ ?_) h
    have := Proofs.Ese.parse_ascii (F := F) (G := G) etext ese hese
    intro s hs
    rcases List.mem_append.1 hs with hs | hs <;>
    · obtain ⟨y, hy, he⟩ := List.mem_filterMap.1 hs
      have := this y hy
      cases y <;> cases he
      exact this
  rcases h with h | ⟨_, _, h⟩
  · exact fault (C70_sct_items_no_panic _ _ _ _ _ _ (fun l => hs.order .airways l) (Proofs.Sct.parse_named ctext sct hsct)) h
  rcases h with h | ⟨_, h7, h⟩
  · exact required_no_fault (complete_path hc .aircraft) (fun s _ => C05_aircraft_no_panic s) h
  rcases h with h | ⟨_, h8, h⟩
  · exact required_no_fault (complete_path hc .airlines) (fun s _ => C05_airlines_no_panic s) h
  rcases h with h | ⟨_, _, h⟩
  · exact fault (maps_no_fault hh ht _ _ _) h
  · cases h

/-- C80: so the result is an adaptation if all eight files are there and can be parsed, and else an error that names the first
one that is not. -/
theorem C80_outcome {env : Env F G} {prf : Prf} (hs : Sane env) (hc : Complete prf) (hh : Harmless env prf) :
    ((∀ f, Good env prf f) ∧ ∃ a, fromPrf env prf = .ok a) ∨
    (∃ f p, FirstBad env prf f ∧ Unreadable env prf f p ∧ fromPrf env prf = .error (.unreadable p)) ∨
    (∃ f, FirstBad env prf f ∧ Invalid env prf f ∧ fromPrf env prf = .error (.invalid f)) := by
  cases h : fromPrf env prf with
  | ok a => exact Or.inl ⟨all_good h, a, rfl⟩
  | error e =>
    rcases C75_error h with ⟨x, rfl⟩ | ⟨f, p, h1, h2, rfl⟩ | ⟨f, h1, h2, rfl⟩
    · exact absurd h (C80_no_panic hs hc hh x)
    · exact Or.inr (Or.inl ⟨f, p, h1, h2, rfl⟩)
    · exact Or.inr (Or.inr ⟨f, h1, h2, rfl⟩)

/-- C80, a defect: a profile without the setting for the sector file makes loading panic instead of giving an error. -/
theorem C80_missing_setting (env : Env F G) (prf : Prf) (h : Map.get? prf.settings (c!"Settings", c!"sector") = none) :
    fromPrf env prf = .error (.fault .panic) := by
  unfold fromPrf required PrfPaths.sctPath PrfPaths.setting
  rw [h]
  rfl

/-- C80, a defect: a sector file of the right form makes loading panic if a number in it does not fit its type. -/
theorem C80_large_number (env : Env F G) (prf : Prf) (f : Spec.Sct.File) (hf : f.Valid) (hn : ¬ f.Fits)
    (h : TextOf env prf .sct f.text) : fromPrf env prf = .error (.fault .panic) := by
  obtain ⟨p, hp, b, hb, ht⟩ := h
  have hp : PrfPaths.sctPath prf = .ok p := hp
  have := C50_sct_panics (F := F) f hf hn
  unfold fromPrf required
  rw [hp]
  simp only [lift, bind, Except.bind, hb]
  rw [← ht, this]

end
end Verif.Props
