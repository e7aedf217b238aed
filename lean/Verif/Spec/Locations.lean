import Verif.Model.Locations
/-!
# What location lookup should do
-/

namespace Verif.Locations.Spec
open FloatOps

variable {F : Type}

/-! ### Coordinate waypoints -/

/-- An abbreviated latitude (1, 3 or 5 digits) gets a leading zero. -/
def padLat (s : Str) : Str := if s.length % 2 = 1 then '0' :: s else s

/-- An abbreviated longitude (2, 4 or 6 digits) gets a leading zero. -/
def padLng (s : Str) : Str := if s.length % 2 = 0 then '0' :: s else s

/-- `d` is the coordinate waypoint with latitude digits `lat`, hemisphere `ns`, longitude digits
`lng` and hemisphere `we`. -/
structure IsCoordinateWaypoint (d lat : Str) (ns : Char) (lng : Str) (we : Char) : Prop where
  shape : d = lat ++ [ns] ++ lng ++ [we]
  latDigits : ∀ c ∈ lat, isAsciiDigit c = true
  lngDigits : ∀ c ∈ lng, isAsciiDigit c = true
  latLength : 1 ≤ lat.length ∧ lat.length ≤ 6
  lngLength : 2 ≤ lng.length ∧ lng.length ≤ 7
  northSouth : ns = 'N' ∨ ns = 'S'
  westEast : we = 'E' ∨ we = 'W'
  /-- an abbreviated field does not start with a zero -/
  latLead : lat.length % 2 = 1 → lat.head? ≠ some '0'
  lngLead : lng.length % 2 = 0 → lng.head? ≠ some '0'
  /-- both are given in degrees, or degrees and minutes, or degrees, minutes and seconds -/
  precision : (padLng lng).length = (padLat lat).length + 1

/-- Degrees of `k` digits, and minutes and seconds of two digits as far as present. -/
def angle [FloatOps F] (k : Nat) (s : Str) : F :=
  let deg : F := ofNat (digitsValue (s.take k))
  let min : F := ofNat (digitsValue ((s.drop k).take 2))
  let sec : F := ofNat (digitsValue (s.drop (k + 2)))
  if s.length ≤ k then deg
  else if s.length ≤ k + 2 then add deg (div min (ofNat 60))
  else add (add deg (div min (ofNat 60))) (div sec (ofNat 3600))

/-- The fix a coordinate waypoint stands for. -/
def coordinateFix [FloatOps F] (lat : Str) (ns : Char) (lng : Str) (we : Char) : Fix F :=
  ⟨padLat lat ++ [ns] ++ padLng lng ++ [we],
    (mul (if we = 'E' then ofNat 1 else negOne) (angle 3 (padLng lng)),
     mul (if ns = 'N' then ofNat 1 else negOne) (angle 2 (padLat lat)))⟩

/-! ### Lookup -/

/-- The first alternative that is present. -/
def firstOf {α : Type} (l : List (Option α)) : Option α := l.findSome? id

/-- A runway waypoint: a four-byte airport and a two- or three-byte runway designator of it. -/
def runwayWaypoint (db : Db F) (d : Str) : Option (Fix F) :=
  if byteLen d = 6 ∨ byteLen d = 7 then do
    let (ad, rwy) ← splitAtByte 4 d
    let airport ← db.airports.get? ad
    let r ← airport.runways.find? fun r => r.designators.1 = rwy ∨ r.designators.2 = rwy
    some ⟨airport.designator ++ rwy,
      if r.designators.1 = rwy then r.location.1 else r.location.2⟩
  else none

/-- What the tables say about a designator, in order of precedence. -/
def tableEntries (db : Db F) (d : Str) : List (Option (Fix F)) :=
  [ (db.vors.getVec d).head?.map fun v => ⟨v.designator, v.coordinate⟩,
    (db.ndbs.getVec d).head?.map fun v => ⟨v.designator, v.coordinate⟩,
    (db.fixes.getVec d).head?,
    (db.airports.get? d).map fun a => ⟨a.designator, a.coordinate⟩,
    runwayWaypoint db d ]

/-- No character is a decimal digit other than 0 to 9. -/
def OnlyAsciiDigits [UnicodeTables] (d : Str) : Prop :=
  ∀ c ∈ d, UnicodeTables.decimal c = true → isAsciiDigit c = true

/-- `d` is name, three digits of bearing, three digits of range. -/
structure IsRangeBearing (d fix bearing range : Str) : Prop where
  shape : d = fix ++ bearing ++ range
  fixLength : 2 ≤ fix.length ∧ fix.length ≤ 5
  fixChars : ∀ c ∈ fix, isAsciiDigit c = true ∨ isAsciiUpper c = true
  bearingLength : bearing.length = 3
  rangeLength : range.length = 3
  bearingDigits : ∀ c ∈ bearing, isAsciiDigit c = true
  rangeDigits : ∀ c ∈ range, isAsciiDigit c = true

/-- No name of a multimap is without entries. -/
def NoEmptyEntries {K V : Type} (m : MultiMap K V) : Prop := ∀ e ∈ m, e.2 ≠ []

/-! ### Airports -/

/-- What the airport table should have for a designator: the sector file's (last) airport, else the
navdata airport; the name from navdata, else ICAO; the country from ICAO. -/
def airportOf (sct : SctData F) (navdata : List (Str × NavdataAirport F))
    (icao : List (Str × IcaoAirport)) (d : Str) : Option (Airport F) :=
  let nav := (navdata.find? fun e => e.1 = d).map (·.2)
  let ic := (icao.find? fun e => e.1 = d).map (·.2)
  let name := (nav.map (·.name)).or (ic.map (·.name))
  let country := ic.map (·.country)
  match sct.airports.reverse.find? fun a => a.designator = d with
  | some a => some ⟨d, a.coordinate, name, country, sct.runways.filter fun r => r.aerodrome = d⟩
  | none => nav.map fun n => ⟨d, n.location, name, country, []⟩

/-- The SIDs resp. STARs among a list of procedures. -/
def sidsOf (l : List SidStar) : List EseProcedure :=
  l.filterMap fun | .sid s => some s | .star _ => none
def starsOf (l : List SidStar) : List EseProcedure :=
  l.filterMap fun | .star s => some s | .sid _ => none

/-- The procedures stored under an airport and name. -/
def stored (m : Map Str (MultiMap Str (Procedure F))) (airport name : Str) : List (Procedure F) :=
  match m.get? airport with
  | some am => am.getVec name
  | none => []

end Verif.Locations.Spec
