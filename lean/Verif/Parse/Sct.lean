import Verif.Grammar.Sct
import Verif.Model.Colours
import Verif.Model.Dms
import Verif.Model.Lines
import Verif.Parse.Asr
/-!
# `/repo/src/sct.rs`: reading sector files

`F` is `f64`.  `Coord` and `Point` of the `geo` crate are both `Point F`.  Two locations that compare
equal are identified (`0.0` and `-0.0`; `NaN` cannot be written).
-/

namespace Verif.Parse.Sct
open Verif.Peg
open Verif.Peg.Sct (Rule skip)
open Verif.Dms
open Verif.Colours (Colour fromEuroscope)

/-- `Location`, lib.rs 142-145 -/
inductive Loc (F : Type)
  | fix (designator : Str)
  | coordinate (p : Point F)
  deriving DecidableEq

/-- `Airport`, sct.rs 39-44 -/
structure Airport (F : Type) where
  designator : Str
  coordinate : Point F
  ctrAirspace : Str
  deriving DecidableEq

/-- `Airway`, sct.rs 46-51 -/
structure Airway (F : Type) where
  designator : Str
  start : Loc F
  stop : Loc F
  deriving DecidableEq

/-- `Fix`, adaptation/locations/mod.rs 28-31 -/
structure Fix (F : Type) where
  designator : Str
  coordinate : Point F
  deriving DecidableEq

/-- `VOR` and `NDB`, adaptation/locations/mod.rs 73-84 -/
structure Navaid (F : Type) where
  designator : Str
  frequency : Str
  coordinate : Point F
  deriving DecidableEq

/-- `Runway`, adaptation/locations/mod.rs 86-92 -/
structure Runway (F : Type) where
  designators : Str × Str
  headings : Nat × Nat
  location : Point F × Point F
  aerodrome : Str
  deriving DecidableEq

/-- `Region`, sct.rs 53-58 -/
structure Region (F : Type) where
  name : Str
  colourName : Str
  polygon : List (Point F)
  deriving DecidableEq

/-- `Label`, sct.rs 60-65 -/
structure Label (F : Type) where
  name : Str
  coordinate : Loc F
  colourName : Str
  deriving DecidableEq

/-- `Geo`, `Sid`, `Star` and `Artcc`, sct.rs 73-95 -/
structure Drawing (F : Type) where
  name : Str
  lineGroups : List (Lines.Group (Loc F))
  deriving DecidableEq

/-- `SctInfo`, sct.rs 118-128 -/
structure Info (F : Type) where
  name : Str
  defaultCallsign : Str
  defaultAirport : Str
  centrePoint : Point F
  milesPerDegLat : F
  milesPerDegLng : F
  magneticVariation : F
  scaleFactor : F
  deriving DecidableEq

/-- `Sct`, sct.rs 97-116 -/
structure Sct (F : Type) where
  info : Info F
  colours : Map Str Colour
  airports : List (Airport F)
  fixes : List (Fix F)
  ndbs : List (Navaid F)
  vors : List (Navaid F)
  runways : List (Runway F)
  sids : List (Drawing F)
  stars : List (Drawing F)
  artccsHigh : List (Drawing F)
  artccs : List (Drawing F)
  artccsLow : List (Drawing F)
  highAirways : List (Airway F)
  lowAirways : List (Airway F)
  regions : List (Region F)
  labels : List (Label F)
  geo : List (Drawing F)
  deriving DecidableEq

/-- `Section`, sct.rs 486-505 -/
inductive Section (F : Type)
  | info (i : Info F)
  | airport (l : List (Airport F))
  | fixes (l : List (Fix F))
  | highAirways (l : List (Airway F))
  | lowAirways (l : List (Airway F))
  | ndbs (l : List (Navaid F))
  | vors (l : List (Navaid F))
  | runways (l : List (Runway F))
  | sid (l : List (Drawing F))
  | star (l : List (Drawing F))
  | artccHigh (l : List (Drawing F))
  | artcc (l : List (Drawing F))
  | artccLow (l : List (Drawing F))
  | regions (l : List (Region F))
  | labels (l : List (Label F))
  | geo (l : List (Drawing F))
  | unsupported

/-- `SectionName`, sct.rs 507-526 -/
inductive SectionName
  | info | airport | highAirway | lowAirway | fixes | ndbs | vors | runways | sid | star
  | artccHigh | artcc | artccLow | regions | labels | geo | unsupported
  deriving DecidableEq, Repr

/-- `inner.next().unwrap().as_str()` -/
def nextStr (ts : List (Tree Rule)) : Run (Str × List (Tree Rule)) := do
  let (t, ts) ← next ts
  return (t.asStr, ts)

/-- `inner.next().unwrap().as_str().parse::<uN>().unwrap()` with `bound = 2 ^ N` -/
def nextUnsigned (bound : Nat) (ts : List (Tree Rule)) : Run (Nat × List (Tree Rule)) := do
  let (s, ts) ← nextStr ts
  let n ← unwrap (parseUnsigned 10 bound s)
  return (n, ts)

section
variable {F : Type} [F64 F]

/-- `parse_coordinate_part`, sct.rs 528-541 -/
def parseCoordinatePart (pair : Tree Rule) : Run (DegMinSec F) := do
  let (hemi, coordinatePart) ← nextStr pair.inner
  let sign ← Sign.ofHemi hemi
  let (deg, coordinatePart) ← nextUnsigned (2 ^ 16) coordinatePart
  let (min, coordinatePart) ← nextUnsigned (2 ^ 8) coordinatePart
  let (s, _) ← nextStr coordinatePart
  let sec ← unwrap (F64.ofText s)
  return { sign, deg, min, sec }

variable [DmsArith F]

/-- `parse_coordinate`, sct.rs 543-548 -/
def parseCoordinate (pair : Tree Rule) : Run (Point F) := do
  let (a, coordinate) ← next pair.inner
  let y ← parseCoordinatePart a
  let (b, _) ← next coordinate
  let x ← parseCoordinatePart b
  return fromDegMinSec y x

/-- `parse_coordinate(inner.next().unwrap())` -/
def nextCoordinate (ts : List (Tree Rule)) : Run (Point F × List (Tree Rule)) := do
  let (t, ts) ← next ts
  let p ← parseCoordinate t
  return (p, ts)

/-- `location.find(|pair| matches!(pair.as_rule(), Rule::sct_coordinate))`, sct.rs 554-556: the first
such pair and the pairs after it -/
def findCoordinate : List (Tree Rule) → Run (Tree Rule × List (Tree Rule))
  | [] => .error .panic
  | t :: ts => if t.asRule = .sct_coordinate then .ok (t, ts) else findCoordinate ts

/-- `parse_airport`, sct.rs 550-566 -/
def parseAirport (pair : Tree Rule) : Run (Airport F) := do
  let (designator, location) ← nextStr pair.inner
  let (c, location) ← findCoordinate location
  let coordinate ← parseCoordinate c
  let (ctrAirspace, _) ← nextStr location
  return { designator, coordinate, ctrAirspace }

/-- `parse_location`, sct.rs 568-574 -/
def parseLocation (pair : Tree Rule) : Run (Loc F) :=
  match pair.asRule with
  | .sct_coordinate => do
    let p ← parseCoordinate pair
    return .coordinate p
  | .airway_fix => do
    let (s, _) ← nextStr pair.inner
    return .fix s
  | _ => .error .panic

/-- `parse_location(inner.next().unwrap())` -/
def nextLocation (ts : List (Tree Rule)) : Run (Loc F × List (Tree Rule)) := do
  let (t, ts) ← next ts
  let p ← parseLocation t
  return (p, ts)

/-- `parse_airway`, sct.rs 576-592 -/
def parseAirway (pair : Tree Rule) : Run (Option (Airway F)) := do
  let (designator, airway) ← nextStr pair.inner
  match airway with
  | a :: b :: _ => do
    let start ← parseLocation a
    let stop ← parseLocation b
    return some { designator, start, stop }
  | _ => return none

/-- `parse_fix`, sct.rs 594-608 -/
def parseFix (pair : Tree Rule) : Run (Option (Fix F)) :=
  match pair.asRule with
  | .fix => do
    let (designator, fix) ← nextStr pair.inner
    let (coordinate, _) ← nextCoordinate fix
    return some { designator, coordinate }
  | _ => .ok none

/-- The body of `parse_vor` and `parse_ndb`, sct.rs 612-621 and 733-742 -/
def parseNavaid (pair : Tree Rule) : Run (Navaid F) := do
  let (designator, location) ← nextStr pair.inner
  let (frequency, location) ← nextStr location
  let (coordinate, _) ← nextCoordinate location
  return { designator, frequency, coordinate }

/-- `parse_ndb`, sct.rs 610-626 -/
def parseNdb (pair : Tree Rule) : Run (Option (Navaid F)) :=
  match pair.asRule with
  | .location => some <$> parseNavaid pair
  | _ => .ok none

/-- `parse_vor`, sct.rs 732-743 -/
def parseVor (pair : Tree Rule) : Run (Navaid F) := parseNavaid pair

/-- `parse_region`, sct.rs 628-639 -/
def parseRegion (pair : Tree Rule) : Run (Region F) := do
  let (name, region) ← nextStr pair.inner
  let (colourName, region) ← nextStr region
  let polygon ← region.mapM parseCoordinate
  return { name, colourName, polygon }

/-- `parse_label`, sct.rs 641-652 -/
def parseLabel (pair : Tree Rule) : Run (Label F) := do
  let (name, label) ← nextStr pair.inner
  let (coordinate, label) ← nextLocation label
  let (colourName, _) ← nextStr label
  return { name, coordinate, colourName }

/-- The reading of one line in `parse_line_groups`, sct.rs 656-659 -/
def parseColouredLine (pair : Tree Rule) : Run (Lines.ColouredLine (Loc F)) := do
  let (start, line) ← nextLocation pair.inner
  let (stop, line) ← nextLocation line
  return { start, stop, colour := line.head?.map Tree.asStr }

/-- `parse_line_groups`, sct.rs 654-698.  The lines are read first and then merged; in the code the
two steps alternate, which makes no difference as the merging does not fail. -/
def parseLineGroups [DecidableEq F] (lines : List (Tree Rule)) : Run (List (Lines.Group (Loc F))) := do
  let ls ← lines.mapM parseColouredLine
  return Lines.lineGroups ls

/-- `parse_geo`, `parse_sid`, `parse_star` and `parse_artcc`, sct.rs 700-730 -/
def parseDrawing [DecidableEq F] (pair : Tree Rule) : Run (Drawing F) := do
  let (name, lines) ← nextStr pair.inner
  let lineGroups ← parseLineGroups lines
  return { name, lineGroups }

/-- `parse_runway`, sct.rs 745-761 -/
def parseRunway (pair : Tree Rule) : Run (Runway F) := do
  let (d1, runway) ← nextStr pair.inner
  let (d2, runway) ← nextStr runway
  let (h1, runway) ← nextUnsigned (2 ^ 32) runway
  let (h2, runway) ← nextUnsigned (2 ^ 32) runway
  let (l1, runway) ← nextCoordinate runway
  let (l2, runway) ← nextCoordinate runway
  let (aerodrome, _) ← nextStr runway
  return { designators := (d1, d2), headings := (h1, h2), location := (l1, l2), aerodrome }
end

/-- `parse_colour_definition`, sct.rs 793-803 -/
def parseColourDefinition (pair : Tree Rule) : Run (Option (Str × Colour)) := do
  let (name, pairs) ← nextStr pair.inner
  let (s, _) ← nextStr pairs
  let n ← unwrap (parseSigned (2 ^ 31) s)
  return (fromEuroscope n).map fun c => (name, c)

/-- `store_colour`, sct.rs 805-810 -/
def storeColour (colours : Map Str Colour) (pair : Tree Rule) : Run (Map Str Colour) := do
  let d ← parseColourDefinition pair
  match d with
  | some (name, c) => return colours.insert name c
  | none => return colours

section
variable {F : Type} [F64 F] [DmsArith F]

/-- `0.0` -/
def zero (F : Type) [F64 F] : F := Parse.Asr.lit F c!"0" c!"0" (by decide)

/-- `SctInfo::default()`, sct.rs 118 -/
def Info.default (F : Type) [F64 F] : Info F where
  name := []
  defaultCallsign := []
  defaultAirport := []
  centrePoint := { x := zero F, y := zero F }
  milesPerDegLat := zero F
  milesPerDegLng := zero F
  magneticVariation := zero F
  scaleFactor := zero F

/-- The local variables of `parse_info_section`, sct.rs 764-766, and the colours -/
structure InfoState (F : Type) where
  info : Info F
  i : Nat
  y : DegMinSec F
  colours : Map Str Colour

/-- The `match i` in the loop of `parse_info_section`, sct.rs 772-785 -/
def infoLine (s : InfoState F) (pair : Tree Rule) : Run (InfoState F) :=
  match s.i with
  | 0 => .ok { s with info := { s.info with name := pair.asStr } }
  | 1 => .ok { s with info := { s.info with defaultCallsign := pair.asStr } }
  | 2 => .ok { s with info := { s.info with defaultAirport := pair.asStr } }
  | 3 => do
    let y ← parseCoordinatePart pair
    return { s with y }
  | 4 => do
    let x ← parseCoordinatePart pair
    return { s with info := { s.info with centrePoint := fromDegMinSec s.y x } }
  | 5 => do
    let v ← unwrap (F64.ofText pair.asStr)
    return { s with info := { s.info with milesPerDegLat := v } }
  | 6 => do
    let v ← unwrap (F64.ofText pair.asStr)
    return { s with info := { s.info with milesPerDegLng := v } }
  | 7 => do
    let v ← unwrap (F64.ofText pair.asStr)
    return { s with info := { s.info with magneticVariation := v } }
  | 8 => do
    let v ← unwrap (F64.ofText pair.asStr)
    return { s with info := { s.info with scaleFactor := v } }
  | _ => .error .panic

/-- The body of the loop in `parse_info_section`, sct.rs 769-788 -/
def infoStep (s : InfoState F) (pair : Tree Rule) : Run (InfoState F) :=
  if pair.asRule = .colour_definition then do
    let colours ← storeColour s.colours pair
    return { s with colours }
  else do
    let s ← infoLine s pair
    return { s with i := s.i + 1 }

/-- `parse_info_section`, sct.rs 763-791.  `DegMinSec::default()` is `(Sign::Pos, 0, 0, 0.0)`. -/
def parseInfoSection (pair : Tree Rule) (colours : Map Str Colour) : Run (Info F × Map Str Colour) := do
  let s ← pair.inner.foldlM infoStep
    { info := Info.default F, i := 0, y := { sign := .pos, deg := 0, min := 0, sec := zero F }, colours }
  return (s.info, s.colours)

/-- `pairs.filter_map(|pair| if colour definition { store_colour(..); None } else { f(pair) })
.collect()`, the shape of every list section, sct.rs 820-1050 -/
def entries {A : Type} (f : Tree Rule → Run (Option A)) :
    Map Str Colour → List (Tree Rule) → Run (List A × Map Str Colour)
  | colours, [] => .ok ([], colours)
  | colours, pair :: pairs =>
    if pair.asRule = .colour_definition then do
      let colours ← storeColour colours pair
      entries f colours pairs
    else do
      let a ← f pair
      let (l, colours) ← entries f colours pairs
      return (a.toList ++ l, colours)

variable [DecidableEq F]

/-- `parse_independent_section`, sct.rs 812-1056 -/
def parseSection (pair : Tree Rule) (colours : Map Str Colour) :
    Run ((SectionName × Section F) × Map Str Colour) :=
  let list {A : Type} (f : Tree Rule → Run (Option A)) (name : SectionName) (mk : List A → Section F) :
      Run ((SectionName × Section F) × Map Str Colour) := do
    let (l, colours) ← entries f colours pair.inner
    return ((name, mk l), colours)
  match pair.asRule with
  | .info_section => do
    let (i, colours) ← parseInfoSection pair colours
    return ((.info, .info i), colours)
  | .airport_section => list (fun t => some <$> parseAirport t) .airport .airport
  | .fixes_section => list parseFix .fixes .fixes
  | .ndb_section => list parseNdb .ndbs .ndbs
  | .vor_section => list (fun t => some <$> parseVor t) .vors .vors
  | .runway_section => list (fun t => some <$> parseRunway t) .runways .runways
  | .sid_section => list (fun t => some <$> parseDrawing t) .sid .sid
  | .star_section => list (fun t => some <$> parseDrawing t) .star .star
  | .artcc_high_section => list (fun t => some <$> parseDrawing t) .artccHigh .artccHigh
  | .artcc_section => list (fun t => some <$> parseDrawing t) .artcc .artcc
  | .artcc_low_section => list (fun t => some <$> parseDrawing t) .artccLow .artccLow
  | .high_airway_section => list parseAirway .highAirway .highAirways
  | .low_airway_section => list parseAirway .lowAirway .lowAirways
  | .region_section => list (fun t => some <$> parseRegion t) .regions .regions
  | .labels_section => list (fun t => some <$> parseLabel t) .labels .labels
  | .geo_section => list (fun t => some <$> parseDrawing t) .geo .geo
  | _ => .ok ((.unsupported, .unsupported), colours)

/-- The `filter_map` over the pairs of the file, sct.rs 1068-1075 -/
def parseSections : Map Str Colour → List (Tree Rule) →
    Run (List (SectionName × Section F) × Map Str Colour)
  | colours, [] => .ok ([], colours)
  | colours, pair :: pairs =>
    if pair.asRule = .colour_definition then do
      let colours ← storeColour colours pair
      parseSections colours pairs
    else do
      let (s, colours) ← parseSection pair colours
      let (l, colours) ← parseSections colours pairs
      return (s :: l, colours)

/-- The assembly of the result, sct.rs 1079-1165 -/
def assemble (sections : Map SectionName (Section F)) (colours : Map Str Colour) : Sct F where
  info := match sections.get? .info with | some (.info i) => i | _ => Info.default F
  colours := colours
  airports := match sections.get? .airport with | some (.airport l) => l | _ => []
  fixes := match sections.get? .fixes with | some (.fixes l) => l | _ => []
  ndbs := match sections.get? .ndbs with | some (.ndbs l) => l | _ => []
  vors := match sections.get? .vors with | some (.vors l) => l | _ => []
  runways := match sections.get? .runways with | some (.runways l) => l | _ => []
  sids := match sections.get? .sid with | some (.sid l) => l | _ => []
  stars := match sections.get? .star with | some (.star l) => l | _ => []
  artccsHigh := match sections.get? .artccHigh with | some (.artccHigh l) => l | _ => []
  artccs := match sections.get? .artcc with | some (.artcc l) => l | _ => []
  artccsLow := match sections.get? .artccLow with | some (.artccLow l) => l | _ => []
  highAirways := match sections.get? .highAirway with | some (.highAirways l) => l | _ => []
  lowAirways := match sections.get? .lowAirway with | some (.lowAirways l) => l | _ => []
  regions := match sections.get? .regions with | some (.regions l) => l | _ => []
  labels := match sections.get? .labels with | some (.labels l) => l | _ => []
  geo := match sections.get? .geo with | some (.geo l) => l | _ => []

/-- `Sct::parse`, sct.rs 1058-1166, after `read_to_string` -/
def parse [UnicodeTables] (content : Str) : Run (Sct F) := do
  let pairs ← run skip Peg.Sct.sct content
  let (p, _) ← next pairs
  let (sections, colours) ← parseSections [] p.inner
  return assemble (Map.ofList sections) colours
end

end Verif.Parse.Sct
