import Verif.Parse.Airway
import Verif.Parse.Icao
import Verif.Model.Constraints
import Verif.Base.Radix
/-!
# Texts of airways, wake turbulence categories and constraints

`impl Display for AirwayType` and `for AirwayFix` (`/repo/src/adaptation/locations/airways.rs`), `for Wtc`
(`/repo/src/adaptation/icao.rs`) and `for Constraint` (`/repo/src/ese.rs`).
-/

namespace Verif.Texts
open Verif.AirwayGraph Verif.Parse

/-- `AirwayType::fmt`, airways.rs 311-320 -/
def airwayType : AirwayType → Str
  | .high => c!"H"
  | .low => c!"L"
  | .both => c!"B"
  | .unknown => []

/-- The text of the minimum level in `AirwayFix::fmt`, airways.rs 330-331 -/
def level : Option Nat → Str
  | none => []
  | some lvl => padZero 5 (showRadix 10 lvl)

/-- `AirwayFix::fmt`, airways.rs 322-335.  `show6` is `format!("{:.6}", _)`. -/
def airwayFix {F : Type} (show6 : F → Str) (a : AirwayFix (Point F)) : Str :=
  a.fix.designator ++ ['\t'] ++ show6 a.fix.coordinate.y ++ ['\t'] ++ show6 a.fix.coordinate.x ++ ['\t'] ++ level a.minimumLevel ++ ['\t'] ++
    (if a.validDirection then c!"Y" else c!"N")

/-- `Wtc::fmt`, icao.rs 40-50 -/
def wtc : Parse.Icao.Wtc → Str
  | .light => c!"L"
  | .medium => c!"M"
  | .heavy => c!"H"
  | .super => c!"J"
  | .unknown => c!"?"

/-- `{:<width$}` of a text -/
def padRight (width : Nat) (s : Str) : Str := s ++ List.replicate (width - s.length) ' '

/-- `Constraint::fmt`, ese.rs 283-306 -/
def constraint (c : Constraints.Constraint) : Str :=
  padRight 8 (c.fix.getD c!"*") ++ c!" " ++ padRight 30 c.exitSector ++ c!" → " ++ padRight 30 c.entrySector ++
    (match c.climbLevel with
      | some cl => c!"  FL" ++ showRadix 10 (cl / 100)
      | none => []) ++
    (match c.descentLevel with
      | some dl => c!"  FL" ++ showRadix 10 (dl / 100)
      | none => []) ++
    (match c.departureRunway.or c.arrivalRunway with
      | some rwy => c!"  [" ++ rwy ++ c!"]"
      | none => [])

end Verif.Texts
