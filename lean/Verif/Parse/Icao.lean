import Verif.Grammar.IcaoAircraft
import Verif.Grammar.IcaoAirlines
import Verif.Grammar.IcaoAirports
import Verif.Grammar.NavdataAirports
import Verif.Base.Num
import Verif.Base.Map
import Verif.Parse.Isec
/-!
# `/repo/src/icao_aircraft.rs`, `icao_airlines.rs`, `icao_airports.rs`, `navdata_airports.rs` and
`/repo/src/adaptation/icao.rs`

All parsers are modelled from the decoded text on.
-/

namespace Verif.Parse.Icao
open Verif.Peg

/-- `Wtc`, adaptation/icao.rs 8-16. -/
inductive Wtc where
  | light | medium | heavy | super | unknown
  deriving DecidableEq, Repr

/-- `Wtc::from_str`, adaptation/icao.rs 24-37.  A text of one byte is a single ASCII character. -/
def Wtc.fromStr : Str → Option Wtc
  | ['L'] => some .light
  | ['M'] => some .medium
  | ['H'] => some .heavy
  | ['J'] => some .super
  | ['-'] => some .unknown
  | _ => none

/-- `AircraftType`, adaptation/icao.rs 52-61. -/
inductive AircraftType where
  | landplane | seaplane | amphibian | gyrocopter | helicopter | tiltrotor | unknown
  deriving DecidableEq, Repr

/-- `AircraftType::from_str`, adaptation/icao.rs 69-84. -/
def AircraftType.fromStr : Str → Option AircraftType
  | ['L'] => some .landplane
  | ['S'] => some .seaplane
  | ['A'] => some .amphibian
  | ['G'] => some .gyrocopter
  | ['H'] => some .helicopter
  | ['T'] => some .tiltrotor
  | ['-'] => some .unknown
  | _ => none

/-- `EngineType`, adaptation/icao.rs 87-95. -/
inductive EngineType where
  | jet | turboprop | piston | electric | rocket | unknown
  deriving DecidableEq, Repr

/-- `EngineType::from_str`, adaptation/icao.rs 103-117. -/
def EngineType.fromStr : Str → Option EngineType
  | ['J'] => some .jet
  | ['T'] => some .turboprop
  | ['P'] => some .piston
  | ['E'] => some .electric
  | ['R'] => some .rocket
  | ['-'] => some .unknown
  | _ => none

/-- `Aircraft`, adaptation/icao.rs 131-140. -/
structure Aircraft where
  designator : Str
  wtc : Wtc
  aircrafttype : AircraftType
  numEngines : Nat
  enginetype : EngineType
  manufacturer : Str
  name : Str
  deriving DecidableEq, Repr

/-- `AircraftMap`, adaptation/icao.rs 120-121. -/
abbrev AircraftMap := Map Str Aircraft

/-- `AircraftMap::wtc`, adaptation/icao.rs 123-129. -/
def wtcOf (m : AircraftMap) (acType : Option Str) : Wtc :=
  match acType.bind (Map.get? m) with
  | some ac => ac.wtc
  | none => .unknown

/-- `IcaoAirport`, adaptation/icao.rs 142-147. -/
structure IcaoAirport where
  designator : Str
  name : Str
  country : Str
  deriving DecidableEq, Repr

/-- `Airline`, icao_airlines.rs 35-46. -/
structure Airline where
  designator : Str
  name : Str
  callsign : Str
  country : Str
  deriving DecidableEq, Repr

/-- `NavdataAirport`, navdata_airports.rs 10-15. -/
structure NavdataAirport (F : Type) where
  designator : Str
  name : Str
  location : Point F
  deriving DecidableEq, Repr

/-- The closure of the fold of `parse_aircraft`, icao_aircraft.rs 35-58. -/
def stepAircraft (acc : AircraftMap) (pair : Tree IcaoAircraft.Rule) : Run AircraftMap :=
  if pair.asRule = .definition then do
    let (designator, line) ← next pair.inner
    let (wtc, line) ← next line
    let wtc ← unwrap (Wtc.fromStr wtc.asStr)
    let (aircrafttype, line) ← next line
    let aircrafttype ← unwrap (AircraftType.fromStr aircrafttype.asStr)
    let (numEngines, line) ← next line
    let numEngines := (parseUnsigned 10 256 numEngines.asStr).getD 0
    let (enginetype, line) ← next line
    let enginetype ← unwrap (EngineType.fromStr enginetype.asStr)
    let (manufacturer, line) ← next line
    let (name, _) ← next line
    return Map.insertIfNew acc designator.asStr
      { designator := designator.asStr, wtc, aircrafttype, numEngines, enginetype,
        manufacturer := manufacturer.asStr, name := name.asStr }
  else .ok acc

/-- `parse_aircraft`, icao_aircraft.rs 26-61. -/
def parseAircraft [UnicodeTables] (content : Str) : Run AircraftMap := do
  let pairs ← run IcaoAircraft.skip IcaoAircraft.aircraft content
  let (p, _) ← next pairs
  p.inner.foldlM stepAircraft []

/-- The closure of the fold of `parse_airports`, icao_airports.rs 35-49. -/
def stepAirport (acc : Map Str IcaoAirport) (pair : Tree IcaoAirports.Rule) : Run (Map Str IcaoAirport) :=
  if pair.asRule = .definition then do
    let (designator, line) ← next pair.inner
    let (name, line) ← next line
    let (country, _) ← next line
    return Map.insertIfNew acc designator.asStr
      { designator := designator.asStr, name := name.asStr, country := country.asStr }
  else .ok acc

/-- `parse_airports`, icao_airports.rs 26-52. -/
def parseAirports [UnicodeTables] (content : Str) : Run (Map Str IcaoAirport) := do
  let pairs ← run IcaoAirports.skip IcaoAirports.aircraft content
  let (p, _) ← next pairs
  p.inner.foldlM stepAirport []

/-- The closure of the fold of `parse_navdata_airports`, navdata_airports.rs 42-57. -/
def stepNavdata {F : Type} [F64 F] (acc : Map Str (NavdataAirport F)) (pair : Tree NavdataAirports.Rule) :
    Run (Map Str (NavdataAirport F)) :=
  if pair.asRule = .definition then do
    let (designator, line) ← next pair.inner
    let (lat, line) ← next line
    let lat ← unwrap (F64.ofText lat.asStr)
    let (lon, line) ← next line
    let lon ← unwrap (F64.ofText lon.asStr)
    let (name, _) ← next line
    return Map.insertIfNew acc designator.asStr
      { designator := designator.asStr, name := name.asStr, location := { x := lon, y := lat } }
  else .ok acc

/-- `parse_navdata_airports`, navdata_airports.rs 33-60. -/
def parseNavdataAirports {F : Type} [F64 F] [UnicodeTables] (content : Str) :
    Run (Map Str (NavdataAirport F)) := do
  let pairs ← run NavdataAirports.skip NavdataAirports.airports content
  let (p, _) ← next pairs
  p.inner.foldlM stepNavdata []

/-! `icao_airlines.rs` uses the derived `FromPest`: a struct takes the pair of its rule, each `inner`
field the next inner pair, which must be of the field's rule; `Vec<T>` takes pairs as long as `T`
does, and left-over pairs are an error (`expect("infallible")` then panics). -/

/-- `Airline::from_pest`, derived, icao_airlines.rs 34-46; `none`: `NoMatch`. -/
def airlineFromPest (pair : Tree IcaoAirlines.Rule) : Option (Run Airline) :=
  if pair.asRule = .definition then
    some <| do
      let field (r : IcaoAirlines.Rule) (ts : List (Tree IcaoAirlines.Rule)) :
          Run (Str × List (Tree IcaoAirlines.Rule)) := do
        let (t, ts) ← next ts
        if t.asRule = r then return (t.asStr, ts) else .error .panic
      let (designator, line) ← field .designator pair.inner
      let (name, line) ← field .name line
      let (callsign, line) ← field .callsign line
      let (country, line) ← field .country line
      if line = [] then return { designator, name, callsign, country } else .error .panic
  else none

/-- `Vec<Airline>::from_pest`. -/
def airlinesFromPest : List (Tree IcaoAirlines.Rule) → Run (List Airline × List (Tree IcaoAirlines.Rule))
  | [] => .ok ([], [])
  | t :: ts =>
    match airlineFromPest t with
    | none => .ok ([], t :: ts)
    | some a => do
      let a ← a
      let (as, rest) ← airlinesFromPest ts
      return (a :: as, rest)

/-- `Airlines::from_pest`, derived, icao_airlines.rs 23-32: the airlines, then `EOI`. -/
def fromPest (pairs : List (Tree IcaoAirlines.Rule)) : Run (List Airline) := do
  let (p, _) ← next pairs
  if p.asRule = .airlines then do
    let (definitions, rest) ← airlinesFromPest p.inner
    match rest with
    | [.node .EOI _ _] => return definitions
    | _ => .error .panic
  else .error .panic

/-- `parse_airlines`, icao_airlines.rs 57-68. -/
def parseAirlines (content : Str) : Run (Map Str Airline) := do
  let pairs ← run IcaoAirlines.skip IcaoAirlines.airlines content
  let definitions ← fromPest pairs
  return definitions.foldl (fun acc airline => Map.insertIfNew acc airline.designator airline) []

end Verif.Parse.Icao
