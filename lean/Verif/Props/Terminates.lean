import Verif.Model.Setup
import Verif.Proofs.EndsAsr
import Verif.Proofs.EndsLoad
import Verif.Props.AdaptationExample
import Verif.Props.Isec
import Verif.Props.Prf
/-!
# C01 and C118: parsing and loading come to an end

`diverge` is the outcome of a loop that does not end: of the pest machine, of the search for closed borders, of the search for
joined airways and of the search for free names. A parser or a loading that has another outcome has come to an end. There is no
hypothesis on the files: they may be of any form, and panics are allowed here.
-/

namespace Verif.Props
open Verif.Adaptation Verif.Proofs
open Verif.PrfPaths (Prf Path)
open Verif.Display (F32Ops)
open Verif.Dms (DmsArith)
open Verif.Parse.SymbolRule (Close)
open Verif.Locations (FloatOps)
open Verif.Json (JsonFloat)

section
set_option linter.unusedSectionVars false
variable {F : Type} [F64 F] [UnicodeTables]

/-- C01: the whole of each public parser comes to an end on every text, not only the matching of its grammar. -/
theorem C01_parse_isec (content : Str) : Parse.Isec.parseIsecTxt (F := F) content ≠ .error .diverge :=
  (EndsLoad.returns (C02_isec_no_panic content).1).ne

theorem C01_parse_airway [AirwayGraph.Quantize (Parse.Point F)] (content : Str) :
    Parse.Airway.parseAirwayTxt (F := F) content ≠ .error .diverge := by
  obtain ⟨num, hnum⟩ := reads F
  exact (C08_airway_panics_iff num (fun s hs => hnum s (Parse.Isec.isCoord_isDecimal hs)) content).2

theorem C01_parse_prf (content : Str) : Parse.Prf.parsePrf content ≠ .error .diverge :=
  (EndsLoad.returns (C07_prf_no_panic content).1).ne

theorem C01_parse_aircraft (content : Str) : Parse.Icao.parseAircraft content ≠ .error .diverge :=
  (EndsLoad.returns (C05_aircraft_no_panic content)).ne

theorem C01_parse_airlines (content : Str) : Parse.Icao.parseAirlines content ≠ .error .diverge :=
  (EndsLoad.returns (C05_airlines_no_panic content)).ne

theorem C01_parse_airports (content : Str) : Parse.Icao.parseAirports content ≠ .error .diverge :=
  (EndsLoad.returns (C05_airports_no_panic content)).ne

theorem C01_parse_navdata (content : Str) : Parse.Icao.parseNavdataAirports (F := F) content ≠ .error .diverge :=
  (EndsLoad.returns (C05_navdata_no_panic content)).ne

theorem C01_parse_asr (content : Str) : Parse.Asr.parse (F := F) content ≠ .error .diverge := (EndsAsr.parse content).ne

variable {G : Type} [F64 G] [DmsArith F] [DecidableEq F] [Close F]

theorem C01_parse_sct (content : Str) : Parse.Sct.parse (F := F) content ≠ .error .diverge := (EndsSct.parse content).ne

theorem C01_parse_ese (content : Str) : Parse.Ese.parse (F := F) G content ≠ .error .diverge := (EndsEse.parse content).ne

theorem C01_parse_symbology (content : Str) : Parse.Symbology.parse (F := F) (G := G) content ≠ .error .diverge :=
  (EndsSymbology.parse content).ne

theorem C01_parse_topsky_settings (content : Str) : Parse.TopskySettings.parse content ≠ .error .diverge :=
  (EndsTopskySettings.parse content).ne

theorem C01_parse_topsky_symbols (content : Str) : Parse.Topsky.parseSymbols (F := F) content ≠ .error .diverge :=
  (EndsTopsky.parseSymbols content).ne

theorem C01_parse_topsky_maps (upper : Str → Str) (content : Str) :
    Parse.Topsky.parseMaps (F := F) (G := G) upper content ≠ .error .diverge :=
  (EndsTopsky.parseMaps upper content).ne

end

section
variable {F G : Type} [F64 F] [DmsArith F] [DecidableEq F] [FloatOps F] [Close F] [F64 G] [F32Ops G] [UnicodeTables]
  [LE F] [DecidableLE F]

/-- C118: loading a profile comes to an end, whatever the files contain, in whatever order hash maps are iterated over, whatever
the floats are and however points are taken from sets, as long as a point is taken from each set that is not empty. -/
theorem C118_load_ends {env : Env F G} (hc : Polygon.Spec.Chooses env.choose) (prf : Prf) :
    fromPrf env prf ≠ .error (.fault .diverge) :=
  (EndsLoad.fromPrf hc prf).ne

variable [JsonFloat F] [JsonFloat G]

/-- C118: so does loading with overlays, if evaluating the overlays does. -/
theorem C118_overlays_end {env : Env F G} (hc : Polygon.Spec.Chooses env.choose) (prf : Prf) (overlays : List Path) :
    fromPrfWithOverlays env prf overlays ≠ .error (.fault .diverge) := by
  refine (EndsLoad.endsF_bind (EndsLoad.fromPrf hc prf) fun a => ⟨?_⟩).ne
  unfold applyOverlays
  split
  · intro h; cases h
  · split <;> (intro h; cases h)

/-- C118: and so does loading from a TOML file. -/
theorem C118_setup_ends {env : SetupEnv F G} (hc : Polygon.Spec.Chooses env.choose) (file : Path) :
    fromAdaptationToml env file ≠ .error (.adaptation (.fault .diverge)) := by
  have parts {A B : Type} {x : Except SetupFailure A} {f : A → Except SetupFailure B} (hx : ∀ e, x ≠ .error (.adaptation e))
      (hf : ∀ a, f a ≠ .error (.adaptation (.fault .diverge))) : (x >>= f) ≠ .error (.adaptation (.fault .diverge)) := by
    cases x with
    | ok a => exact hf a
    | error e => intro h; cases h; exact hx _ rfl
  have both {A B : Type} {x : Except SetupFailure A} {f : A → Except SetupFailure B} (hx : ∀ e, x ≠ .error (.adaptation e))
      (hf : ∀ a e, f a ≠ .error (.adaptation e)) : ∀ e, (x >>= f) ≠ .error (.adaptation e) := by
    intro e
    cases x with
    | ok a => exact hf a e
    | error e' => intro h; cases h; exact hx _ rfl
  have read (p : Path) : ∀ e, env.readFile p ≠ .error (.adaptation e) := by
    intro e
    unfold SetupEnv.readFile
    split <;> (intro h; cases h)
  have norm (d p) : ∀ e, normalisePath env d p ≠ .error (.adaptation e) := by
    intro e
    unfold normalisePath
    repeat' first | (intro h; cases h; done) | split
  have norms (d) (l) : ∀ e, List.mapM (normalisePath env d) l ≠ .error (.adaptation e) := by
    induction l with
    | nil => intro e h; cases h
    | cons x l ih =>
      rw [List.mapM_cons]
      exact both (norm d x) fun _ => both ih fun _ e h => by cases h
  unfold fromAdaptationToml
  refine parts ?_ fun x => parts (read _) fun bytes => parts ?_ fun prf => ?_
  · unfold parseSetup
    refine both (read _) fun bytes => ?_
    intro e
    split
    · intro h; cases h
    · split
      · intro h; cases h
      · exact both (norm _ _) (fun _ => both (norms _ _) fun _ e h => by cases h) e
  · intro e
    unfold parseProfile
    split
    · intro h; cases h
    · intro h; cases h
    · split <;> (intro h; cases h)
  · have := C118_overlays_end (env := env.toEnv) hc prf x.2
    split
    · intro h; cases h
    · rename_i e he
      intro h
      cases h
      exact this he

end

/-- The hypothesis is met by an environment in which a whole adaptation is loaded. -/
example : Polygon.Spec.Chooses (AdaptationExample.env AdaptationExample.files).choose ∧
    (@fromPrf Int Int _ _ _ _ _ _ _ asciiTables _ _ (AdaptationExample.env AdaptationExample.files) AdaptationExample.prf).isOk = true :=
  ⟨Polygon.chooses_head?, by decide +kernel⟩

end Verif.Props
