import Verif.Grammar.Airway
import Verif.Parse.Isec
/-!
# `/repo/src/airway.rs`
-/

namespace Verif.Parse.Airway
open Verif.Peg Verif.Peg.Airway
open Verif.AirwayGraph

variable {F : Type} [F64 F] [Quantize (Point F)]

/-- `parse_coord`, airway.rs 26-31. -/
def parseCoord {F : Type} [F64 F] (pair : Tree Rule) : Run (Point F) := do
  let (lat, coord) ← next pair.inner
  let lat ← unwrap (F64.ofText lat.asStr)
  let (lng, _) ← next coord
  let lng ← unwrap (F64.ofText lng.asStr)
  return { x := lng, y := lat }

/-- `parse_level`, airway.rs 33-39. -/
def parseLevel (pair : Tree Rule) : Run (Option Nat) :=
  match pair.asRule with
  | .not_established => .ok none
  | .level => do
    let n ← unwrap (parseUnsigned 10 (2 ^ 32) pair.asStr)
    return some n
  | _ => .error .panic

/-- `AirwayFix::parse`, airway.rs 41-63. -/
def parseAirwayFix {F : Type} [F64 F] (pair : Tree Rule) : Run (Option (AirwayFix (Point F))) :=
  match pair.asRule with
  | .no_neighbour => .ok none
  | .neighbour => do
    let (designator, airwayFix) ← next pair.inner
    let (c, airwayFix) ← next airwayFix
    let coordinate ← parseCoord c
    let (l, airwayFix) ← next airwayFix
    let minimumLevel ← parseLevel l
    let (v, _) ← next airwayFix
    return some { fix := { designator := designator.asStr, coordinate }
                  validDirection := v.asStr = c!"Y"
                  minimumLevel }
  | _ => .error .panic

/-- `AirwayType::parse`, airway.rs 65-75. -/
def parseAirwayType (pair : Tree Rule) : Run AirwayType :=
  if pair.asStr = c!"H" then .ok .high
  else if pair.asStr = c!"L" then .ok .low
  else if pair.asStr = c!"B" then .ok .both
  else if pair.asStr = [] then .ok .unknown
  else .error .panic

/-- One round of the loop over the two neighbours, airway.rs 103-113. -/
def insertNeighbour (airway fixName : Str) (fix : Point F) (airwayType : AirwayType) (acc : Graph (Point F))
    (pair : Tree Rule) : Run (Graph (Point F)) := do
  match ← parseAirwayFix pair with
  | some segment => acc.insertOrUpdateSegment ⟨airway, fixName, fix, segment, airwayType⟩
  | none => .ok acc

/-- The closure of the fold, airway.rs 91-117. -/
def step (acc : Graph (Point F)) (pair : Tree Rule) : Run (Graph (Point F)) :=
  if pair.asRule = .airway then do
    let (fixName, line) ← next pair.inner
    let (c, line) ← next line
    let fix ← parseCoord c
    let (airway, line) ← next line
    let (ty, line) ← next line
    let airwayType ← parseAirwayType ty
    let (n1, line) ← next line
    let acc ← insertNeighbour airway.asStr fixName.asStr fix airwayType acc n1
    let (n2, _) ← next line
    insertNeighbour airway.asStr fixName.asStr fix airwayType acc n2
  else .ok acc

/-- `parse_airway_txt`, airway.rs 79-119, from the decoded text on. -/
def parseAirwayTxt (content : Str) : Run (Graph (Point F)) := do
  let pairs ← run skip airways content
  let (p, _) ← next pairs
  p.inner.foldlM step Graph.empty

end Verif.Parse.Airway
