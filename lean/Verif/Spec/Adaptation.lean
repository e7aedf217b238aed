import Verif.Model.Adaptation
import Verif.Spec.Squawks
import Verif.Spec.JsonText
/-!
# Specification of loading an adaptation

Which files are read, and in what state they are.
-/

namespace Verif.Spec.Adaptation
open Verif.Adaptation
open Verif.PrfPaths (Prf Path)
open Verif.Display (F32Ops)
open Verif.Dms (DmsArith)
open Verif.Parse.SymbolRule (Close)

section
variable {F G : Type} [F64 F] [DmsArith F] [DecidableEq F] [Close F] [F64 G] [F32Ops G] [UnicodeTables]

/-- The required files in the order in which they are read. -/
def files : List File := [.sct, .ese, .airways, .symbology, .airports, .navdata, .aircraft, .airlines]

/-- Where the profile says a file is. -/
def path (prf : Prf) : File → Run Path
  | .sct => PrfPaths.sctPath prf
  | .ese => PrfPaths.esePath prf
  | .airways => PrfPaths.airwaysPath prf
  | .symbology => PrfPaths.symbologyPath prf
  | .airports => PrfPaths.airportsPath prf
  | .navdata => PrfPaths.navdataAirportsPath prf
  | .aircraft => PrfPaths.aircraftPath prf
  | .airlines => PrfPaths.airlinesPath prf

/-- What parsing the text of a file ends with. -/
def outcome (env : Env F G) (s : Str) : File → Run Unit
  | .sct => (Parse.Sct.parse (F := F) s).map fun _ => ()
  | .ese => (Parse.Ese.parse (F := F) G s).map fun _ => ()
  | .airways => (parseAirways env s).map fun _ => ()
  | .symbology => (Parse.Symbology.parse (F := F) (G := G) s).map fun _ => ()
  | .airports => (Parse.Icao.parseAirports s).map fun _ => ()
  | .navdata => (Parse.Icao.parseNavdataAirports (F := F) s).map fun _ => ()
  | .aircraft => (Parse.Icao.parseAircraft s).map fun _ => ()
  | .airlines => (Parse.Icao.parseAirlines s).map fun _ => ()

/-- The file at `p` has the text `s`. -/
def TextAt (env : Env F G) (p : Path) (s : Str) : Prop :=
  ∃ bytes, env.read p = some bytes ∧ s = Decode.readToString env.lossy bytes

/-- The file is there and can be parsed. -/
def Good (env : Env F G) (prf : Prf) (f : File) : Prop :=
  ∃ p s, path prf f = .ok p ∧ TextAt env p s ∧ outcome env s f = .ok ()

/-- The file cannot be read from `p`. -/
def Unreadable (env : Env F G) (prf : Prf) (f : File) (p : Path) : Prop := path prf f = .ok p ∧ env.read p = none

/-- The file is there, but parsing it gives an error. -/
def Invalid (env : Env F G) (prf : Prf) (f : File) : Prop :=
  ∃ p s, path prf f = .ok p ∧ TextAt env p s ∧ outcome env s f = .error .parseError

/-- `f` is the first file that is not good. -/
def FirstBad (env : Env F G) (prf : Prf) (f : File) : Prop :=
  ∃ pre post, files = pre ++ f :: post ∧ (∀ g ∈ pre, Good env prf g) ∧ ¬ Good env prf f

/-- The profile names this file: a required one, one of the three of TopSky, or the one with the squawks. -/
def Named (env : Env F G) (prf : Prf) (p : Path) : Prop :=
  (∃ f, path prf f = .ok p) ∨
  (∃ dir, PrfPaths.topskyPath prf (env.order .settings prf.settings) = .ok (some dir) ∧
    p ∈ [c!"TopSkySettings.txt", c!"TopSkySymbols.txt", c!"TopSkyMaps.txt"].map (PrfPaths.join dir)) ∨
  PrfPaths.squawksPath prf (env.order .settings prf.settings) = .ok (some p)

/-- The file `f` is at the place that the profile names, has the text `s`, and parsing it gives `a`. -/
def Parsed {A : Type} (env : Env F G) (prf : Prf) (f : File) (parse : Str → Run A) (a : A) : Prop :=
  ∃ p s, path prf f = .ok p ∧ TextAt env p s ∧ parse s = .ok a

/-- There is no TopSky that can be used: none is named, or a file is missing or cannot be parsed. -/
def NoTopsky (env : Env F G) (prf : Prf) : Prop :=
  ∃ dir, PrfPaths.topskyPath prf (env.order .settings prf.settings) = .ok dir ∧ ∀ d, dir = some d →
    (Parse.Topsky.parse (F := F) (G := G) env.upper (text env (PrfPaths.join d c!"TopSkySettings.txt"))
        (text env (PrfPaths.join d c!"TopSkySymbols.txt")) (text env (PrfPaths.join d c!"TopSkyMaps.txt")) = .missing ∨
      Parse.Topsky.parse (F := F) (G := G) env.upper (text env (PrfPaths.join d c!"TopSkySettings.txt"))
        (text env (PrfPaths.join d c!"TopSkySymbols.txt")) (text env (PrfPaths.join d c!"TopSkyMaps.txt")) = .fault .parseError)

/-- There are no squawks that can be used: no file is named, or it cannot be read, is not JSON, or does not say what it should. -/
def NoSquawks (env : Env F G) (prf : Prf) : Prop :=
  ∃ path, PrfPaths.squawksPath prf (env.order .settings prf.settings) = .ok path ∧
    ∀ p bytes j x, path = some p → env.read p = some bytes → JsonText.Document env.fits bytes j → ¬ Squawks.Says j x

/-- The order of the entries of a `HashMap` is any order. -/
def AnyOrder (env : Env F G) : Prop := ∀ (site : Site) {K V : Type} (l : List (K × V)), (env.order site l).Perm l

/-- The sector `id` of the ESE file is `e`, someone controls it, its border is closed, and the point is inside of it and
between its levels. -/
def Around {L : Type} (env : Env F G) (q : SectorIndex.Env F L) (ese : Parse.Ese.Ese F) (p : F × F) (level : L) (id : Str)
    (e : EseAirspace.Sector (List (Parse.Point F))) : Prop :=
  ese.sectors.get? id = some e ∧ e.ownerPriority ≠ [] ∧
  (∃ border, Polygon.polygonFromEse env.quantize env.dequantize env.choose (e.border.map fun l => l.map fun p => (p.x, p.y)) =
      .ok (some border) ∧ q.contains (env.ccw border) p = true) ∧
  q.le (q.asF32 e.bottom) level = true ∧ q.lt level (q.asF32 e.top) = true

/-- `v` is the volume of a sector of the ESE file that someone controls and whose border is closed: it has its id, its levels and
its border. -/
def VolumeOfEse (env : Env F G) (ese : Parse.Ese.Ese F) (v : Sectors.Volume (SectorIndex.Border F)) : Prop :=
  ∃ e border, ese.sectors.get? v.id = some e ∧ e.ownerPriority ≠ [] ∧
    Polygon.polygonFromEse env.quantize env.dequantize env.choose (e.border.map fun l => l.map fun p => (p.x, p.y)) =
      .ok (some border) ∧
    v.lowerLevel = e.bottom ∧ v.upperLevel = e.top ∧ v.lateralBorder = env.ccw border

end
end Verif.Spec.Adaptation
