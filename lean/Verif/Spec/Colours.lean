import Verif.Model.Colours
/-!
# Specification of colours

The hexadecimal digits, and the names under which users configure the elements of the display.
-/

namespace Verif.Colours

/-- The value of each hexadecimal digit. -/
def hexTable : List (Char × Nat) :=
  [('0', 0), ('1', 1), ('2', 2), ('3', 3), ('4', 4), ('5', 5), ('6', 6), ('7', 7), ('8', 8), ('9', 9),
   ('a', 10), ('b', 11), ('c', 12), ('d', 13), ('e', 14), ('f', 15),
   ('A', 10), ('B', 11), ('C', 12), ('D', 13), ('E', 14), ('F', 15)]

/-- `s` is `#` followed by the hexadecimal digits of the three components, two each. -/
def Denotes (s : Str) (r g b : Nat) : Prop :=
  ∃ r1 r0 g1 g0 b1 b0 : Char × Nat,
    r1 ∈ hexTable ∧ r0 ∈ hexTable ∧ g1 ∈ hexTable ∧ g0 ∈ hexTable ∧ b1 ∈ hexTable ∧ b0 ∈ hexTable ∧
    s = ['#', r1.1, r0.1, g1.1, g0.1, b1.1, b0.1] ∧
    r = 16 * r1.2 + r0.2 ∧ g = 16 * g1.2 + g0.2 ∧ b = 16 * b1.2 + b0.2

/-- The symbology item that configures an element of the display in EuroScope. -/
def ownItem : MapElement → Str × Str
  | .fixSymbol => (c!"Fixes", c!"symbol")
  | .fixName => (c!"Fixes", c!"name")
  | .airportSymbol => (c!"Airports", c!"symbol")
  | .airportName => (c!"Airports", c!"name")
  | .ndbSymbol => (c!"NDBs", c!"symbol")
  | .ndbName => (c!"NDBs", c!"name")
  | .ndbFrequency => (c!"NDBs", c!"frequency")
  | .vorSymbol => (c!"VORs", c!"symbol")
  | .vorName => (c!"VORs", c!"name")
  | .vorFrequency => (c!"VORs", c!"frequency")
  | .lowAirwayLine => (c!"Low airways", c!"line")
  | .lowAirwayName => (c!"Low airways", c!"name")
  | .highAirwayLine => (c!"High airways", c!"line")
  | .highAirwayName => (c!"High airways", c!"name")
  | .sid => (c!"Sids", c!"line")
  | .star => (c!"Stars", c!"line")
  | .artccBoundary => (c!"ARTCC boundary", c!"line")
  | .artccLowBoundary => (c!"ARTCC low boundary", c!"line")
  | .artccHighBoundary => (c!"ARTCC high boundary", c!"line")
  | .geo => (c!"Geo", c!"line")
  | .runwayCentreline => (c!"Runways", c!"centerline")
  | .runwayExtendedCentreline => (c!"Runways", c!"extended centerline")
  | .runwayName => (c!"Runways", c!"name")
  | .freeText => (c!"Other", c!"freetext")
  | .activeBackground => (c!"Sector", c!"active sector background")
  | .inactiveBackground => (c!"Sector", c!"inactive sector background")

/-- The TopSky colour that configures a state of tracks or a part of the interface. -/
def roleName : Role → Str
  | .assumed => c!"Assumed"
  | .advanced => c!"Concerned"
  | .concerned => c!"Redundant"
  | .unconcerned => c!"Unconcerned"
  | .flightLeg => c!"Flight_Leg"
  | .predictedAlert => c!"Warning"
  | .currentAlert => c!"Urgency"
  | .reaction => c!"Proposition_In"
  | .cleared => c!"Rwy_Locked"
  | .vfr => c!"VFR"
  | .foreground => c!"Foreground"
  | .background => c!"Background"
  | .armed => c!"Arm"
  | .windowTitleBackgroundSelected => c!"Background"
  | .textInput => c!"Field_Highlight"
  | .warning => c!"Warning"
  | .alert => c!"Urgency"

/-- The built-in colour of a name: the second of its two in the table with COOPANS, and the first
without; opaque. -/
def builtin (coopans : Bool) (name : Str) : Option Colour :=
  match defaultColours.find? (fun entry => entry.1 = name) with
  | some (_, plain, coop) =>
    (if coopans then coop else plain).map fun (r, g, b) => ⟨r, g, b, 255⟩
  | none => none

end Verif.Colours
