import Verif.Model.Double
import Verif.Model.AirwayGraph
/-!
# Quantised positions

Models `Quantize`, `/repo/src/adaptation/mod.rs` 364-385, and the comparison and hashing of `Fix` and `GraphPosition`,
`/repo/src/adaptation/locations/mod.rs` 33-71.  The log messages are left out.
-/

namespace Verif.Model
open Verif.Parse (Point)
open Verif.AirwayGraph (Fix Quantize quantize)

namespace Rounding
variable (R : Rounding)

/-- `q`, adaptation/mod.rs 368-370: the product is rounded, `round` is half away from zero and exact, `as i64` saturates. -/
def micro (x : R.Num) : Int :=
  let d : Double := x
  let n := ⌊R.rnd (d.mag * 1000000) + 1 / 2⌋
  if d.neg then max (-2 ^ 63) (-n) else min (2 ^ 63 - 1) n

/-- `Quantize for Coord` and `for Point`, adaptation/mod.rs 375-385 -/
instance : Quantize (Point R.Num) := ⟨fun p => (R.micro p.x, R.micro p.y)⟩

end Rounding

variable {P : Type} [Quantize P]

/-- `PartialEq for Fix`, locations/mod.rs 49-58 -/
def fixEq (a b : Fix P) : Bool := a.designator == b.designator && quantize a.coordinate == quantize b.coordinate

/-- `Hash for Fix`, locations/mod.rs 33-47: a hasher of state `S` is fed with the text and the two numbers. -/
def fixHash {S : Type} (text : Str → S → S) (number : Int → S → S) (a : Fix P) (state : S) : S :=
  let q := quantize a.coordinate
  number q.2 (number q.1 (text a.designator state))

/-- `PartialEq for GraphPosition`, locations/mod.rs 65-69 -/
def positionEq (a b : P) : Bool := quantize a == quantize b

end Verif.Model
