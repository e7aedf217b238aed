import Verif.Base.Map
import Verif.Base.Unicode
import Verif.Base.Lit
import Verif.Model.AirwayGraph
/-!
# Locations

Models `/repo/src/adaptation/locations/mod.rs` (all but the tests).

* A floating point number is an element of an arbitrary type `F` with the operations used
  (`FloatOps`); a `Point` is the pair of its `x` (longitude) and `y` (latitude).
* `Geodesic.destination` (with the conversion from nautical miles to metres) is the operation `dest`.
* The two regular expressions are modelled by functions returning their capture groups; the class
  `\d` is the Unicode class `decimal`.
* Frequencies, headings and airspace classes are copied and not interpreted.
* `HashMap`s that are iterated over (`icao_airports`, `navdata_airports`) are given as lists of
  their entries in iteration order.
-/

namespace Verif.Locations

/-- The floating point operations used by `locations/mod.rs`. -/
class FloatOps (F : Type) where
  /-- `str::parse::<f64>` of a numeral with that value -/
  ofNat : Nat → F
  add : F → F → F
  div : F → F → F
  mul : F → F → F
  /-- the literal `-1.0` -/
  negOne : F
  /-- `Geodesic.destination(origin, bearing, range.get::<meter>())`, range in nautical miles -/
  dest : F × F → F → F → F × F

abbrev Point (F : Type) := F × F

abbrev Fix (F : Type) := AirwayGraph.Fix (Point F)

/-- `NDB` and `VOR`, locations/mod.rs 73-84 -/
structure Navaid (F : Type) where
  designator : Str
  frequency : Str
  coordinate : Point F
deriving DecidableEq

/-- `Runway`, locations/mod.rs 86-92 -/
structure Runway (F : Type) where
  designators : Str × Str
  headings : Nat × Nat
  location : Point F × Point F
  aerodrome : Str
deriving DecidableEq

/-- `Airport`, locations/mod.rs 94-101 -/
structure Airport (F : Type) where
  designator : Str
  coordinate : Point F
  name : Option Str
  country : Option Str
  runways : List (Runway F)
deriving DecidableEq

/-- `SID` and `STAR`, locations/mod.rs 129-143 -/
structure Procedure (F : Type) where
  name : Str
  airport : Str
  runway : Option Str
  waypoints : List (Fix F)

/-- `Locations`, locations/mod.rs 156-165 (the airway graph is modelled separately). -/
structure Db (F : Type) where
  fixes : MultiMap Str (Fix F)
  vors : MultiMap Str (Navaid F)
  ndbs : MultiMap Str (Navaid F)
  airports : Map Str (Airport F)
  sids : Map Str (MultiMap Str (Procedure F))
  stars : Map Str (MultiMap Str (Procedure F))

/-- `sct::Airport`, sct.rs 40-45 -/
structure SctAirport (F : Type) where
  designator : Str
  coordinate : Point F
  ctrAirspace : Str
deriving DecidableEq

/-- The parts of `Sct` used here, sct.rs 96-116 -/
structure SctData (F : Type) where
  airports : List (SctAirport F)
  fixes : List (Fix F)
  ndbs : List (Navaid F)
  vors : List (Navaid F)
  runways : List (Runway F)

/-- `ese::SID` / `ese::STAR`, ese.rs 359-372 -/
structure EseProcedure where
  name : Str
  airport : Str
  runway : Option Str
  waypoints : List Str
deriving DecidableEq

/-- `SidStar`, ese.rs -/
inductive SidStar where
  | sid (s : EseProcedure)
  | star (s : EseProcedure)
deriving DecidableEq

/-- `NavdataAirport`, navdata_airports.rs 10-15 -/
structure NavdataAirport (F : Type) where
  designator : Str
  name : Str
  location : Point F
deriving DecidableEq

/-- `IcaoAirport` (the fields used) -/
structure IcaoAirport where
  name : Str
  country : Str
deriving DecidableEq

variable {F : Type}

/-! ### The designator patterns -/

section
variable [UnicodeTables]

/-- `coord_regex().captures`, locations/mod.rs 167-170: `^(\d{1,6})(N|S)(\d{2,7})(E|W)$`.  As `N`
and `S` are no digits, group 1 can only be the longest prefix of digits, and likewise group 3. -/
def coordCaptures (d : Str) : Option (Str × Char × Str × Char) :=
  let lat := d.takeWhile UnicodeTables.decimal
  match d.dropWhile UnicodeTables.decimal with
  | ns :: rest =>
    let lng := rest.takeWhile UnicodeTables.decimal
    match rest.dropWhile UnicodeTables.decimal with
    | [we] =>
      if 1 ≤ lat.length ∧ lat.length ≤ 6 ∧ (ns = 'N' ∨ ns = 'S') ∧
          2 ≤ lng.length ∧ lng.length ≤ 7 ∧ (we = 'E' ∨ we = 'W')
      then some (lat, ns, lng, we) else none
    | _ => none
  | [] => none

/-- `range_bearing_regex().captures`, locations/mod.rs 172-175: `^([0-9A-Z]{2,5})(\d{3})(\d{3})$`.
The last two groups are the last six characters. -/
def rangeBearingCaptures (d : Str) : Option (Str × Str × Str) :=
  let n := d.length - 6
  let fix := d.take n
  let bearing := (d.drop n).take 3
  let range := (d.drop n).drop 3
  if 8 ≤ d.length ∧ d.length ≤ 11 ∧ fix.all (fun c => isAsciiDigit c || isAsciiUpper c) ∧
      bearing.all UnicodeTables.decimal ∧ range.all UnicodeTables.decimal
  then some (fix, bearing, range) else none

variable [FloatOps F]
open FloatOps

/-- `str::parse::<f64>().unwrap()` of a string of `\d` characters: fails unless they are ASCII. -/
def parseF64 (s : Str) : Run F := if isNumeral s then .ok (ofNat (digitsValue s)) else .error .panic

/-- `s[a..b].parse::<f64>().unwrap()` -/
def parseSlice (s : Str) (a b : Nat) : Run F := do
  let t ← unwrap (sliceBytes s a b)
  parseF64 t

/-- Padding of an abbreviated field, locations/mod.rs 332-341 and 342-351; `none`: rejected. -/
def normalise (s : Str) (short : Nat → Bool) : Option Str :=
  if short (byteLen s) then
    if s.head? = some '0' then none else some ('0' :: s)
  else some s

/-- `lat`, locations/mod.rs 356-362 -/
def latValue (s : Str) : Run F :=
  match byteLen s with
  | 2 => parseF64 s
  | 4 => do
    let d ← parseSlice s 0 2
    let m ← parseSlice s 2 4
    .ok (add d (div m (ofNat 60)))
  | 6 => do
    let d ← parseSlice s 0 2
    let m ← parseSlice s 2 4
    let sec ← parseSlice s 4 6
    .ok (add (add d (div m (ofNat 60))) (div sec (ofNat 3600)))
  | _ => .error .panic

/-- `lng`, locations/mod.rs 363-369 -/
def lngValue (s : Str) : Run F :=
  match byteLen s with
  | 3 => parseF64 s
  | 5 => do
    let d ← parseSlice s 0 3
    let m ← parseSlice s 3 5
    .ok (add d (div m (ofNat 60)))
  | 7 => do
    let d ← parseSlice s 0 3
    let m ← parseSlice s 3 5
    let sec ← parseSlice s 5 7
    .ok (add (add d (div m (ofNat 60))) (div sec (ofNat 3600)))
  | _ => .error .panic

/-- `convert_coordinate`, locations/mod.rs 328-380 -/
def convertCoordinate (d : Str) : Run (Option (Fix F)) :=
  match coordCaptures d with
  | none => .ok none
  | some (lat, ns, lng, we) =>
    match normalise lat (fun n => n == 1 || n == 3 || n == 5) with
    | none => .ok none
    | some nlat =>
      match normalise lng (fun n => n == 2 || n == 4 || n == 6) with
      | none => .ok none
      | some nlng =>
        if byteLen nlng - byteLen nlat ≠ 1 then .ok none
        else do
          let y ← latValue nlat
          let x ← lngValue nlng
          .ok (some ⟨nlat ++ [ns] ++ nlng ++ [we],
            (mul (if we = 'E' then ofNat 1 else negOne) x,
             mul (if ns = 'N' then ofNat 1 else negOne) y)⟩)

/-! ### Lookup -/

/-- The closure of `convert_rwy`, locations/mod.rs 390-403 -/
def runwayFix (airport : Airport F) (rwyDesignator : Str) (rwy : Runway F) : Option (Fix F) :=
  if rwy.designators.1 = rwyDesignator then
    some ⟨airport.designator ++ rwy.designators.1, rwy.location.1⟩
  else if rwy.designators.2 = rwyDesignator then
    some ⟨airport.designator ++ rwy.designators.2, rwy.location.2⟩
  else none

/-- `convert_rwy`, locations/mod.rs 382-404 -/
def Db.convertRwy (db : Db F) (d : Str) : Option (Fix F) :=
  if 6 ≤ byteLen d ∧ byteLen d ≤ 7 then
    (splitAtByte 4 d).bind fun p =>
      (db.airports.get? p.1).bind fun airport =>
        airport.runways.findSome? (runwayFix airport p.2)
  else none

/-- `convert_fix`, locations/mod.rs 406-423 -/
def Db.convertFix (db : Db F) (d : Str) : Option (Fix F) :=
  ((db.vors.get d).map fun vor => (⟨vor.designator, vor.coordinate⟩ : Fix F)).or
  (((db.ndbs.get d).map fun ndb => (⟨ndb.designator, ndb.coordinate⟩ : Fix F)).or
  ((db.fixes.get d).or
  (((db.airports.get? d).map fun ap => (⟨ap.designator, ap.coordinate⟩ : Fix F)).or
  (db.convertRwy d))))

/-- `convert_range_bearing`, locations/mod.rs 312-326 -/
def Db.convertRangeBearing (db : Db F) (d : Str) : Run (Option (Fix F)) :=
  match rangeBearingCaptures d with
  | none => .ok none
  | some (fix, b, r) => do
    let bearing ← parseF64 b
    let range ← parseF64 r
    .ok ((db.convertFix fix).map fun f => ⟨d, dest f.coordinate bearing range⟩)

/-- `convert_designator`, locations/mod.rs 425-429.  The arguments of `Option::or` are evaluated
eagerly. -/
def Db.convertDesignator (db : Db F) (d : Str) : Run (Option (Fix F)) := do
  let c ← convertCoordinate d
  let r ← db.convertRangeBearing d
  .ok (((db.convertFix d).or c).or r)

/-- `Location`, lib.rs 142-145 -/
inductive Location (F : Type) where
  | fix (name : Str)
  | coordinate (p : Point F)
deriving DecidableEq

/-- `convert_location`, locations/mod.rs 305-310 -/
def Db.convertLocation (db : Db F) : Location F → Run (Option (Point F))
  | .coordinate c => .ok (some c)
  | .fix wpt => do
    let f ← db.convertDesignator wpt
    .ok (f.map (·.coordinate))

/-- `contains_designator`, locations/mod.rs 431-437 -/
def Db.containsDesignator (db : Db F) (d : Str) : Bool :=
  Map.contains db.vors d || Map.contains db.ndbs d || Map.contains db.fixes d ||
  Map.contains db.airports d || (db.convertRwy d).isSome

/-- `contains_nav_element`, locations/mod.rs 439-455.  `MultiMap::get` yields the first entry. -/
def Db.containsNavElement [AirwayGraph.Quantize (Point F)] (db : Db F) (d : Str) (p : Point F) :
    Bool :=
  let q := AirwayGraph.quantize p
  (db.vors.get d).any (fun v => AirwayGraph.quantize v.coordinate == q) ||
  (db.ndbs.get d).any (fun v => AirwayGraph.quantize v.coordinate == q) ||
  (db.fixes.get d).any (fun v => AirwayGraph.quantize v.coordinate == q)

/-! ### Construction -/

/-- `Airport::from_sct_airports`, locations/mod.rs 103-126 -/
def fromSctAirports (airports : List (SctAirport F)) (runways : List (Runway F)) :
    Map Str (Airport F) :=
  Map.ofList (airports.map fun ap =>
    (ap.designator,
      { coordinate := ap.coordinate
        runways := runways.filter fun r => r.aerodrome = ap.designator
        designator := ap.designator
        name := none
        country := none }))

/-- The fold over the navdata airports, locations/mod.rs 197-216 -/
def addNavdata (airports : Map Str (Airport F)) (e : Str × NavdataAirport F) : Map Str (Airport F) :=
  match airports.get? e.1 with
  | some ap => airports.insert e.1 { ap with name := some (ap.name.getD e.2.name) }
  | none => airports.insert e.1 ⟨e.1, e.2.location, some e.2.name, none, []⟩

/-- The fold over the ICAO airports, locations/mod.rs 217-228 -/
def addIcao (airports : Map Str (Airport F)) (e : Str × IcaoAirport) : Map Str (Airport F) :=
  match airports.get? e.1 with
  | some ap => airports.insert e.1
      { ap with name := some (ap.name.getD e.2.name), country := some (ap.country.getD e.2.country) }
  | none => airports

/-- `filter_map(|wpt| locations.convert_designator(&wpt))`, locations/mod.rs 245-259, 279-293 -/
def Db.convertWaypoints (db : Db F) : List Str → Run (List (Fix F))
  | [] => .ok []
  | w :: ws => do
    let f ← db.convertDesignator w
    let fs ← db.convertWaypoints ws
    .ok (match f with
      | some f => f :: fs
      | none => fs)

/-- `entry(airport).and_modify(insert).or_insert_with(from_iter)`, locations/mod.rs 264-271, 296-302 -/
def addProcedure (m : Map Str (MultiMap Str (Procedure F))) (p : Procedure F) :
    Map Str (MultiMap Str (Procedure F)) :=
  match m.get? p.airport with
  | some am => m.insert p.airport (am.insert p.name p)
  | none => m.insert p.airport (MultiMap.insert [] p.name p)

/-- The closure of the loop over `ese.sids_stars`, locations/mod.rs 238-303 -/
def Db.addSidStar (db : Db F) : SidStar → Run (Db F)
  | .sid s => do
    let ws ← db.convertWaypoints s.waypoints
    .ok { db with sids := addProcedure db.sids ⟨s.name, s.airport, s.runway, ws⟩ }
  | .star s => do
    let ws ← db.convertWaypoints s.waypoints
    .ok { db with stars := addProcedure db.stars ⟨s.name, s.airport, s.runway, ws⟩ }

def Db.addSidStars (db : Db F) : List SidStar → Run (Db F)
  | [] => .ok db
  | s :: l => do
    let db ← db.addSidStar s
    db.addSidStars l

/-- The database before SIDs and STARs are added, locations/mod.rs 185-237 -/
def baseDb (sct : SctData F) (navdata : List (Str × NavdataAirport F))
    (icao : List (Str × IcaoAirport)) : Db F where
  fixes := sct.fixes.foldl (fun m f => m.insert f.designator f) []
  vors := sct.vors.foldl (fun m f => m.insert f.designator f) []
  ndbs := sct.ndbs.foldl (fun m f => m.insert f.designator f) []
  airports := icao.foldl addIcao
    (navdata.foldl addNavdata (fromSctAirports sct.airports sct.runways))
  sids := []
  stars := []

/-- `Locations::from_euroscope`, locations/mod.rs 178-303 -/
def fromEuroscope (sct : SctData F) (sidsStars : List SidStar)
    (icao : List (Str × IcaoAirport)) (navdata : List (Str × NavdataAirport F)) : Run (Db F) :=
  (baseDb sct navdata icao).addSidStars sidsStars

end
end Verif.Locations
