import Verif.Base.Map
import Verif.Base.Sep
import Verif.Base.Lit
/-!
# Constraints and two-key maps

Models `Constraint::key`, `/repo/src/ese.rs` 337-355, `extract_constraints`,
`/repo/src/adaptation/constraints.rs` 7-26, and the serialisation of `TwoKeyMap`,
`/repo/src/lib.rs` 150-164.
-/

namespace Verif.Constraints

/-- `Constraint`, ese.rs 266-282.  The field `coord_timing` is always `None` after parsing and is
omitted. -/
structure Constraint where
  previousFix : Option Str
  departureRunway : Option Str
  subsequentFix : Option Str
  arrivalRunway : Option Str
  fix : Option Str
  exitSector : Str
  entrySector : Str
  climbLevel : Option Nat
  descentLevel : Option Nat
  description : Str
deriving DecidableEq, Repr

/-- The inner `opt`, ese.rs 342-344 -/
def opt (f : Option Str) : Str := f.getD c!"*"

/-- `Constraint::key`, ese.rs 341-355 -/
def key (c : Constraint) : Str :=
  opt c.previousFix ++ '#' :: (opt c.departureRunway ++ '#' :: (opt c.subsequentFix ++ '#' ::
    (opt c.arrivalRunway ++ '#' :: (opt c.fix ++ '#' :: (c.exitSector ++ '#' :: c.entrySector)))))

/-- The closure `keyed`, constraints.rs 24 -/
def keyed (v : List Constraint) : Map Str Constraint := Map.ofList (v.map fun c => (key c, c))

/-- `extract_constraints`, constraints.rs 7-26: the departure and the destination table -/
def extract (constraints : List Constraint) : Map Str Constraint × Map Str Constraint :=
  let kept := constraints.filter fun c => !(c.climbLevel.isNone && c.descentLevel.isNone)
  let p := kept.partition fun c => c.climbLevel.isSome
  (keyed p.1, keyed p.2)

/-- The text of a pair of keys, lib.rs 161 (and 189 for `TwoKeyMultiMap`) -/
def pairKey (k : Str × Str) : Str := k.1 ++ ':' :: k.2

/-- The entries written by `TwoKeyMap::serialize`, lib.rs 150-164, in iteration order. -/
def serializeTwoKey {V : Type} (m : Map (Str × Str) V) : List (Str × V) :=
  m.map fun e => (pairKey e.1, e.2)

/-- The entries written by `TwoKeyMultiMap::serialize`, lib.rs 178-192, in iteration order. `iter` of the
library `multimap` gives every key once, with the first value of its vector (`v[0]`: a panic if the vector
is empty). -/
def serializeTwoKeyMulti {V : Type} (m : MultiMap (Str × Str) V) : Run (List (Str × V)) :=
  m.mapM fun e => match e.2 with
    | [] => .error .panic
    | v :: _ => .ok (pairKey e.1, v)

end Verif.Constraints
