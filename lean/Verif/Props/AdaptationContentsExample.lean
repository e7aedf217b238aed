import Verif.Props.AdaptationContents
import Verif.Props.AdaptationExample
/-!
# The contents of an adaptation that is loaded

The files of `Verif.Props.AdaptationExample` with a larger TopSky and with squawks: the hypotheses of C81–C86 are met, and their
conclusions say something.
-/

namespace Verif.Props.AdaptationExample
open Verif.Adaptation Verif.Spec.Adaptation Verif.Proofs.Adaptation
open Verif.PrfPaths (Prf Path)

attribute [local instance] asciiTables

/-- The text of `squawks.json` -/
def squawksText : Str := lines [c!"{ \"NonDiscreteColor\": \"#ff0000\", \"NonDiscreteMessage\": \"N\\u0044\",\r",
  c!"\t\"NonDiscrete\": [\"1000\"], \"Squawks\": [{\"message\": \"EM\", \"code\": \"7700\", \"color\": \"#00FF00\"}] }"]

def richFiles : List (Str × Str) :=
  [(c!"TopSkySettings.txt", c!"Setup_COOPANS=0\nTrack_HistoryDots=3\n"),
   (c!"TopSkyMaps.txt", lines [c!"COLORDEF:red:1:2:3", c!"LINESTYLEDEF:FINE:255:-:1,5", c!"SYMBOLDEF:VOR", c!"MOVETO:1:2",
     c!"MAP:x", c!"COLOR:red", c!"TEXT:MUN:abc", c!"MAP:x", c!"COLOR:nothing", c!"COLOR:Assumed", c!"FOLDER:y", c!"LINE:MUN:ABC"]),
   (c!"squawks.json", squawksText)] ++ files

def richPrf : Prf := { prf with settings := prf.settings ++ [((c!"Plugins", c!"Plugin1"), c!"\\Squawks.dll"),
  ((c!"RecentFiles", c!"Recent2"), c!"\\x.asr")] }

def richEnv : Env Int Int := env richFiles

/-- The world can be loaded. -/
theorem rich_loads : ∃ a, fromPrf richEnv richPrf = .ok a := by
  have h : loaded (fromPrf richEnv richPrf) (fun _ => ()) = .inr () := by decide +kernel
  cases ha : fromPrf richEnv richPrf with
  | ok a => exact ⟨a, rfl⟩
  | error e => rw [ha] at h; cases h

theorem rich_order : AnyOrder richEnv := fun _ _ _ l => List.reverse_perm l

/-- The three files of TopSky can be used. -/
theorem rich_topsky : ∃ t, TopskyIs richEnv richPrf (some t) := by
  have h1 : PrfPaths.topskyPath richPrf (richEnv.order .settings richPrf.settings) = .ok (some [c!"home"]) := by decide +kernel
  have h2 : ∀ o : Parse.Topsky.Outcome (Parse.Topsky.Topsky Int Int), (match o with | .ok _ => true | _ => false) = true →
      ∃ t, o = .ok t := by
    intro o ho
    cases o <;> simp_all
  obtain ⟨t, ht⟩ := h2 (Parse.Topsky.parse richEnv.upper (text richEnv (PrfPaths.join [c!"home"] c!"TopSkySettings.txt"))
        (text richEnv (PrfPaths.join [c!"home"] c!"TopSkySymbols.txt")) (text richEnv (PrfPaths.join [c!"home"] c!"TopSkyMaps.txt")))
    (by decide +kernel)
  exact ⟨t, _, h1, ht⟩

theorem rich_squawks : SquawksAre richEnv richPrf (some [⟨some c!"7700", none, c!"EM"⟩]) := by
  have h : (JsonText.readBytes richEnv.fits (bytes squawksText)).bind Squawks.readJson =
      some ⟨⟨255, 0, 0, 255⟩, c!"ND", [c!"1000"], [(⟨some c!"7700", none, c!"EM"⟩, ⟨0, 255, 0, 255⟩)]⟩ := by decide +kernel
  obtain ⟨j, h1, h2⟩ := Option.bind_eq_some_iff.1 h
  exact ⟨[c!"home", c!"squawks.json"], bytes squawksText, j, _, by decide +kernel, by decide +kernel,
    Proofs.JsonText.readBytes_iff.1 h1, (Proofs.Squawks.read_iff _ _).1 h2, rfl⟩

/-- The files that the other theorems speak of. -/
example : (∃ sct, Parsed richEnv richPrf .sct (Parse.Sct.parse (F := Int)) sct) ∧ (∃ ese, Parsed richEnv richPrf .ese (Parse.Ese.parse (F := Int) Int) ese) ∧
    (∃ sy, Parsed richEnv richPrf .symbology (Parse.Symbology.parse (F := Int) (G := Int)) sy) ∧
    (∃ m, Parsed richEnv richPrf .airports Parse.Icao.parseAirports m) ∧
    (∃ m, Parsed richEnv richPrf .navdata (Parse.Icao.parseNavdataAirports (F := Int)) m) := by
  obtain ⟨a, h⟩ := rich_loads
  obtain ⟨s⟩ := steps h
  exact ⟨⟨_, required_ok.1 s.hsct⟩, ⟨_, required_ok.1 s.hese⟩, ⟨_, required_ok.1 s.hsymbology⟩, ⟨_, required_ok.1 s.hairports⟩,
    ⟨_, required_ok.1 s.hnavdata⟩⟩

/-- Loading succeeds and the result has the property. -/
def gives (r : Except Failure (Adaptation Int Int)) (p : Adaptation Int Int → Bool) : Bool :=
  match r with
  | .ok a => p a
  | .error _ => false

/-- C81: `red` is that of TopSky, and without TopSky that of the sector file. -/
example : gives (fromPrf richEnv richPrf) (fun a =>
    decide (Colours.get a.otherColours a.settings.coopans c!"red" = some ⟨1, 2, 3, 255⟩) &&
    decide (a.roleColours .assumed = (Colours.builtin false c!"Assumed").getD ⟨0, 0, 0, 0⟩) &&
    decide (a.mapColours .sid = ⟨255, 0, 0, 255⟩)) = true := by decide +kernel

example : gives (fromPrf (env (files.filter fun f => f.1 ≠ c!"TopSkyMaps.txt")) prf) (fun a =>
    decide (Colours.get a.otherColours a.settings.coopans c!"red" = some ⟨255, 0, 0, 255⟩)) = true := by decide +kernel

/-- C82: settings. -/
example : gives (fromPrf richEnv richPrf) (fun a =>
    decide (a.settings.coopans = false) && decide (a.settings.historyDots.count = 3) &&
    decide (a.settings.asrFiles = [[c!"home", c!"x.asr"]]) && decide (a.settings.specialUseCodes.get? c!"7700" = some c!"EM") &&
    decide ((a.settings.maps.lineStyles .sid).width = 2)) = true := by decide +kernel

/-- C83: symbols and line styles. -/
example : gives (fromPrf richEnv richPrf) (fun a =>
    decide (a.symbols .vor = [.move (1, 2)]) && decide (a.symbols .airport = [.move (1, 2)]) &&
    decide (a.symbols .ndb = Settings.defaultNdb id) &&
    decide (a.otherSymbols.get? c!"VOR" = some [.move (1, 2)]) && decide (a.lineStyles.get? c!"FINE" = some (some [(1, 5)]))) = true := by
  decide +kernel

/-- C84: a VOR of the sector file, an airport of the navdata, and a SID with the waypoint that is known. -/
example : gives (fromPrf richEnv richPrf) (fun a =>
    decide ((a.locations.vors.getVec c!"MUN").map (·.coordinate) = [(39610, 172810)]) &&
    decide ((a.locations.airports.get? c!"EDDM").map (·.coordinate) = some (11, 48)) &&
    decide ((a.locations.airports.get? c!"EDDM").bind (·.name) = some c!"Munich Intl") &&
    decide ((Locations.Spec.stored a.locations.sids c!"EDDM" c!"MUN1A").map (fun p => p.waypoints.map (·.designator)) = [[c!"MUN"]])) = true := by
  decide +kernel

/-- C85: two folders with a map each. -/
example : gives (fromPrf richEnv richPrf) (fun a =>
    letI := world Int Int
    decide ((a.maps.map fun e => (e.1, e.2.maps.map fun m => m.1)) = [(c!"AUTO", [c!"x"]), (c!"y", [c!"x"])])) = true := by decide +kernel

/-- C86: the coast, with a second line of which only the VOR is known. -/
example : gives (fromPrf richEnv richPrf) (fun a =>
    decide ((a.sctItems.geo.getVec c!"coast").map (fun c => c.colour) = [⟨1, 2, 3, 255⟩]) &&
    decide ((a.sctItems.geo.getVec c!"coast").map (fun c => c.lines) = [[[(39600, 172800), (39600, 172820)], [(39610, 172810)]]])) = true := by
  decide +kernel

end Verif.Props.AdaptationExample
