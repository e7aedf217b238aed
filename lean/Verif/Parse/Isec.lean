import Verif.Grammar.Isec
import Verif.Base.Num
import Verif.Base.Map
import Verif.Model.AirwayGraph
/-!
# `/repo/src/isec.rs`
-/

namespace Verif.Parse

/-- `geo::Point<f64>` -/
structure Point (F : Type) where
  x : F
  y : F
  deriving DecidableEq, Repr

end Verif.Parse

namespace Verif.Parse.Isec
open Verif.Peg Verif.Peg.Isec
open Verif.AirwayGraph (Fix)

variable {F : Type}

/-- `struct IsecMap(MultiMap<String, Fix>)`, isec.rs 19-20. -/
abbrev IsecMap (F : Type) := MultiMap Str (Fix (Point F))

/-- `parse_coord`, isec.rs 49-54. -/
def parseCoord [F64 F] (pair : Tree Rule) : Run (Point F) := do
  let (lat, coord) ← next pair.inner
  let lat ← unwrap (F64.ofText lat.asStr)
  let (lng, _) ← next coord
  let lng ← unwrap (F64.ofText lng.asStr)
  return { x := lng, y := lat }

/-- The fold step of `parse_isec_txt`, isec.rs 65-77. -/
def step [F64 F] (acc : IsecMap F) (pair : Tree Rule) : Run (IsecMap F) :=
  if pair.asRule = .wpt then do
    let (d, isecLine) ← next pair.inner
    let designator := d.asStr
    let (c, _) ← next isecLine
    let coordinate ← parseCoord c
    return MultiMap.insert acc designator { designator, coordinate }
  else .ok acc

/-- `parse_isec_txt`, isec.rs 56-80, from the decoded text on (`read_to_string` is modelled
separately). -/
def parseIsecTxt [F64 F] (content : Str) : Run (IsecMap F) := do
  let pairs ← run skip wpts content
  let (p, _) ← next pairs
  p.inner.foldlM step []

/-! `impl Display for IsecMap`, isec.rs 22-40.  `show6` is `format!("{:.6}", _)`. -/

/-- `{:>width}` -/
def padLeft (width : Nat) (s : Str) : Str := List.replicate (width - s.length) ' ' ++ s

/-- One line of the output, isec.rs 28-34. -/
def showLine (show6 : F → Str) (fix : Fix (Point F)) : Str :=
  fix.designator ++ ['\t'] ++ padLeft 10 (show6 fix.coordinate.y) ++ ['\t'] ++
    padLeft 11 (show6 fix.coordinate.x) ++ c!"\t15\n"

/-- `flat_iter().sorted_by_key(designator)`, isec.rs 24-27.  The hash map iterates over its keys in
an unspecified order: `m` lists its entries in that order.  `sorted_by_key` is a stable sort. -/
def sortedFixes (le : Str → Str → Bool) (m : IsecMap F) : List (Fix (Point F)) :=
  ((m.flatMap fun e => e.2.map fun f => (e.1, f)).mergeSort fun a b => le a.1 b.1).map (·.2)

/-- `Display for IsecMap`, isec.rs 23-39. -/
def display (le : Str → Str → Bool) (show6 : F → Str) (m : IsecMap F) : Str :=
  (sortedFixes le m).flatMap (showLine show6)

end Verif.Parse.Isec
