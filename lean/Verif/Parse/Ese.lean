import Verif.Grammar.Ese
import Verif.Model.Dms
import Verif.Model.EseAirspace
import Verif.Model.Locations
/-!
# `/repo/src/ese.rs`

`F` is `f64`, `G` is `f32` (used for the radius of circles only).  The types of SIDs and STARs (ese.rs
359-372, 560-564) are those of `Verif.Model.Locations`.
-/

namespace Verif.Parse.Ese
open Verif.Peg
open Verif.Peg.Ese (Rule skip)
open Verif.Dms Verif.EseAirspace Verif.Constraints
open Verif.Locations (SidStar EseProcedure)

/-- `Position`, ese.rs 33-45 -/
structure Position (F : Type) where
  name : Str
  callsign : Str
  frequency : Str
  identifier : Str
  prefix_ : Str
  middle : Str
  suffix : Str
  squawkRange : Option (Nat × Nat)
  visibilityPoints : List (Point F)
  deriving DecidableEq

/-- `CircleSectorLine`, ese.rs 87-91 -/
structure CircleSectorLine (G : Type) where
  center : Str
  radius : G

/-- `SectorSubsetting`, ese.rs 104-114 -/
inductive SectorSubsetting
  | owner (l : List Str)
  | alternativeOwner (s : Str) (l : List Str)
  | border (l : List Str)
  | active (icao designator : Str)
  | departureAirports (l : List Str)
  | arrivalAirports (l : List Str)
  | guest

/-- `Section`, ese.rs 383-389 -/
inductive Section (F : Type)
  | positions (m : Map Str (Position F))
  | sectors (s : Map Str (Sector (List (Point F))) × List Constraint)
  | sidsStars (l : List SidStar)
  | unsupported

/-- `SectionName`, ese.rs 391-397 -/
inductive SectionName
  | position
  | airspace
  | sidsStars
  | unsupported
  deriving DecidableEq, Repr

/-- `Ese`, ese.rs 374-380.  A `SectorLine` (ese.rs 63-68) is its list of points. -/
structure Ese (F : Type) where
  positions : Map Str (Position F)
  sectors : Map Str (Sector (List (Point F)))
  constraints : List Constraint
  sidsStars : List SidStar

/-- `inner.next().unwrap().as_str()` -/
def nextStr (ts : List (Tree Rule)) : Run (Str × List (Tree Rule)) := do
  let (t, ts) ← next ts
  return (t.asStr, ts)

/-- `inner.next().unwrap().as_str().parse::<uN>().unwrap()` with `bound = 2 ^ N` -/
def nextUnsigned (bound : Nat) (ts : List (Tree Rule)) : Run (Nat × List (Tree Rule)) := do
  let (s, ts) ← nextStr ts
  let n ← unwrap (parseUnsigned 10 bound s)
  return (n, ts)

section
variable {F : Type} [F64 F]

/-- `parse_coordinate_part`, ese.rs 399-415 -/
def parseCoordinatePart (pair : Tree Rule) : Run (DegMinSec F) := do
  let (part, _) ← next pair.inner
  let (hemi, coordinatePart) ← nextStr part.inner
  let sign ← Sign.ofHemi hemi
  let (deg, coordinatePart) ← nextUnsigned (2 ^ 16) coordinatePart
  let (min, coordinatePart) ← nextUnsigned (2 ^ 8) coordinatePart
  let (s, _) ← nextStr coordinatePart
  let sec ← unwrap (F64.ofText s)
  return { sign, deg, min, sec }

/-- `parse_coordinate`, ese.rs 417-423 -/
def parseCoordinate [DmsArith F] (pair : Tree Rule) : Run (Point F) := do
  let (a, coordinate) ← next pair.inner
  let lat ← parseCoordinatePart a
  let (b, _) ← next coordinate
  let lng ← parseCoordinatePart b
  return fromDegMinSec lat lng

/-- `MSAW::parse`, ese.rs 53-61: the identifier, the altitude and the points -/
def parseMsaw [DmsArith F] (pair : Tree Rule) : Run (Str × Nat × List (Point F)) := do
  let (id, msaw) ← nextStr pair.inner
  let (altitude, msaw) ← nextUnsigned (2 ^ 32) msaw
  let points ← msaw.mapM parseCoordinate
  return (id, altitude, points)

/-- `SectorLine::parse`, ese.rs 70-84 -/
def parseSectorLine [DmsArith F] (pair : Tree Rule) : Run (Str × List (Point F)) := do
  let (id, sectorline) ← nextStr pair.inner
  let (_, coords) := sectorline.partition fun t => t.asRule = .display
  let points ← coords.mapM parseCoordinate
  return (id, points)
end

/-- `CircleSectorLine::parse`, ese.rs 93-101 -/
def parseCircleSectorLine {G : Type} [F64 G] (pair : Tree Rule) : Run (Str × CircleSectorLine G) := do
  let (id, circle) ← nextStr pair.inner
  let (center, circle) ← nextStr circle
  let (s, _) ← nextStr circle
  let radius ← unwrap (F64.ofText s)
  return (id, { center, radius })

/-- `Sector::parse_subsettings`, ese.rs 208-247 -/
def parseSubsettings (pair : Tree Rule) : Run SectorSubsetting :=
  match pair.asRule with
  | .owner => .ok (.owner (pair.inner.map Tree.asStr))
  | .altowner => do
    let (s, altowner) ← nextStr pair.inner
    return .alternativeOwner s (altowner.map Tree.asStr)
  | .border => .ok (.border (pair.inner.map Tree.asStr))
  | .guest => .ok .guest
  | .active => do
    let (icao, active) ← nextStr pair.inner
    let (designator, _) ← nextStr active
    return .active icao designator
  | .depapt => .ok (.departureAirports (pair.inner.map Tree.asStr))
  | .arrapt => .ok (.arrivalAirports (pair.inner.map Tree.asStr))
  | _ => .error .panic

/-- `Sector::parse`, ese.rs 133-206: the names of the border lines and the sector without border -/
def parseSector {L : Type} (pair : Tree Rule) : Run (List Str × Sector L) := do
  let (id, sector) ← nextStr pair.inner
  let (bottom, sector) ← nextUnsigned (2 ^ 32) sector
  let (top, sector) ← nextUnsigned (2 ^ 32) sector
  let subsettings ← sector.mapM parseSubsettings
  let ownerPriority := (subsettings.findSome? fun | .owner l => some l | _ => none).getD []
  let departureAirports := (subsettings.findSome? fun | .departureAirports l => some l | _ => none).getD []
  let arrivalAirports := (subsettings.findSome? fun | .arrivalAirports l => some l | _ => none).getD []
  let border := (subsettings.findSome? fun | .border l => some l | _ => none).getD []
  let runwayFilter := subsettings.filterMap fun | .active icao d => some (icao, d) | _ => none
  return (border, { id, bottom, top, ownerPriority, departureAirports, arrivalAirports, runwayFilter,
                    border := [] })

/-- `parse_wildcard_string`, ese.rs 250-256 -/
def parseWildcardString (pair : Tree Rule) : Run (Option Str) :=
  match pair.asRule with
  | .wildcard => .ok none
  | .colon_delimited_text => .ok (some pair.asStr)
  | .designator => .ok (some pair.asStr)
  | _ => .error .panic

/-- `parse_wildcard_u32`, ese.rs 258-264 -/
def parseWildcardU32 (pair : Tree Rule) : Run (Option Nat) :=
  match pair.asRule with
  | .wildcard => .ok none
  | .integer => do
    let n ← unwrap (parseUnsigned 10 (2 ^ 32) pair.asStr)
    return some n
  | _ => .error .panic

/-- `Constraint::parse`, ese.rs 309-335 -/
def parseConstraint (pair : Tree Rule) : Run Constraint := do
  let (t, cop) ← next pair.inner
  let previousFix ← parseWildcardString t
  let (t, cop) ← next cop
  let departureRunway ← parseWildcardString t
  let (t, cop) ← next cop
  let fix ← parseWildcardString t
  let (t, cop) ← next cop
  let subsequentFix ← parseWildcardString t
  let (t, cop) ← next cop
  let arrivalRunway ← parseWildcardString t
  let (exitSector, cop) ← nextStr cop
  let (entrySector, cop) ← nextStr cop
  let (t, cop) ← next cop
  let climbLevel ← parseWildcardU32 t
  let (t, cop) ← next cop
  let descentLevel ← parseWildcardU32 t
  let (description, _) ← nextStr cop
  return { previousFix, departureRunway, subsequentFix, arrivalRunway, fix, exitSector, entrySector,
           climbLevel, descentLevel, description }

/-- `parse_squawk_range`, ese.rs 448-458 -/
def parseSquawkRange (maybePair : Option (Tree Rule)) : Run (Option (Nat × Nat)) :=
  match maybePair with
  | none => .ok none
  | some pair =>
    if pair.asRule = .squawk_range then do
      let (squawkBegin, squawkRange) ← nextUnsigned (2 ^ 16) pair.inner
      let (squawkEnd, _) ← nextUnsigned (2 ^ 16) squawkRange
      return some (squawkBegin, squawkEnd)
    else .ok none

section
variable {F : Type} [F64 F] [DmsArith F]

/-- `parse_position`, ese.rs 460-488 -/
def parsePosition (pair : Tree Rule) : Run (Str × Position F) := do
  let (name, position) ← nextStr pair.inner
  let (callsign, position) ← nextStr position
  let (frequency, position) ← nextStr position
  let (identifier, position) ← nextStr position
  let (middle, position) ← nextStr position
  let (prefix_, position) ← nextStr position
  let (suffix, position) ← nextStr position
  let position := position.drop 2
  let squawkRange ← parseSquawkRange position.head?
  let visibilityPoints ← position.tail.mapM parseCoordinate
  return (identifier, { name, callsign, frequency, identifier, prefix_, middle, suffix, squawkRange,
                        visibilityPoints })

variable {G : Type} [F64 G]

/-- `parse_airspace`, ese.rs 435-446.  The contents of an `Msaw` value are never used, but computing
them may panic. -/
def parseAirspace (pair : Tree Rule) : Run (Statement (List (Point F)) (CircleSectorLine G)) :=
  match pair.asRule with
  | .sectorline => do
    let (id, l) ← parseSectorLine pair
    return .sectorLine id l
  | .sector => do
    let (border, s) ← parseSector pair
    return .sector border s
  | .cop => do
    let c ← parseConstraint pair
    return .cop c
  | .fir_cop => do
    let c ← parseConstraint pair
    return .firCop c
  | .display_sectorline => .ok .displaySectorline
  | .circle_sectorline => do
    let (id, l) ← parseCircleSectorLine pair
    return .circleSectorLine id l
  | .msaw => do
    let _ ← parseMsaw (F := F) pair
    return .msaw
  | _ => .error .panic
end

/-- `parse_sid_star`, ese.rs 565-597 -/
def parseSidStar (pair : Tree Rule) : Run SidStar := do
  let rule := pair.asRule
  let (airport, sidStar) ← nextStr pair.inner
  let (runwayPair, sidStar) ← next sidStar
  let runway ← match runwayPair.asRule with
    | .runway_designator => (.ok (some runwayPair.asStr) : Run (Option Str))
    | .none => .ok none
    | _ => .error .panic
  let (name, sidStar) ← nextStr sidStar
  let (route, _) ← next sidStar
  let waypoints := route.inner.map Tree.asStr
  match rule with
  | .sid => return .sid { name, airport, runway, waypoints }
  | .star => return .star { name, airport, runway, waypoints }
  | _ => .error .panic

section
variable {F : Type} [F64 F] [DmsArith F] (G : Type) [F64 G]

/-- `parse_section`, ese.rs 599-631 -/
def parseSection (pair : Tree Rule) : Run (SectionName × Section F) :=
  match pair.asRule with
  | .position_section => do
    let l ← pair.inner.mapM parsePosition
    return (.position, .positions (Map.ofList l))
  | .airspace_section => do
    let l ← pair.inner.mapM (parseAirspace (G := G))
    return (.airspace, .sectors (airspace l))
  | .sidsstars_section => do
    let l ← pair.inner.mapM parseSidStar
    return (.sidsStars, .sidsStars l)
  | _ => .ok (.unsupported, .unsupported)

/-- The part of `Ese::parse` behind the parsing of the sections, ese.rs 645-663 -/
def assemble (sections : Map SectionName (Section F)) : Ese F :=
  let positions := match sections.get? .position with
    | some (.positions positions) => positions
    | _ => []
  let sectors := match sections.get? .airspace with
    | some (.sectors sectors) => sectors
    | _ => ([], [])
  let sidsStars := match sections.get? .sidsStars with
    | some (.sidsStars sidsStars) => sidsStars
    | _ => []
  { positions, sectors := sectors.1, constraints := sectors.2, sidsStars }

/-- `Ese::parse`, ese.rs 634-665, from the decoded text on -/
def parse [UnicodeTables] (content : Str) : Run (Ese F) := do
  let pairs ← run skip Peg.Ese.ese content
  let (p, _) ← next pairs
  let sections ← p.inner.mapM (parseSection G)
  return assemble (Map.ofList sections)
end

end Verif.Parse.Ese
