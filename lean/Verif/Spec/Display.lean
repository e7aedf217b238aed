import Verif.Base.Num
import Verif.Model.Display
/-!
# Specification of the settings of an adaptation

Only the result types (`LineKind`, `LabelKind`) are taken from the model.
-/

namespace Verif.Spec.Display
open Verif.Display (LineKind LabelKind)

/-- The item of the symbology file that sets the style of a kind of lines: folder and name. -/
def lineItems : List (LineKind × Str × Str) :=
  [(.runwayCentreline, c!"Runways", c!"centerline"), (.geo, c!"Geo", c!"line"),
   (.sid, c!"Sids", c!"line"), (.star, c!"Stars", c!"line"),
   (.highAirways, c!"High airways", c!"line"), (.lowAirways, c!"Low airways", c!"line"),
   (.artccHigh, c!"ARTCC high boundary", c!"line"), (.artcc, c!"ARTCC boundary", c!"line"),
   (.artccLow, c!"ARTCC low boundary", c!"line")]

/-- The item of the symbology file that sets the alignment and size of a kind of labels: folder and name. -/
def labelItems : List (LabelKind × Str × Str) :=
  [(.vor, c!"VORs", c!"name"), (.ndb, c!"NDBs", c!"name"), (.fix, c!"Fixes", c!"name"),
   (.airport, c!"Airports", c!"name"), (.runway, c!"Runways", c!"name")]

/-- The text of decimal digits. -/
def digitsText (ds : List (Fin 10)) : Str := ds.map fun d => Char.ofNat ('0'.toNat + d.val)

/-- The number written by decimal digits. -/
def digitsNumber (ds : List (Fin 10)) : Nat := ds.foldl (fun n d => 10 * n + d.val) 0

/-- `s` is a decimal numeral for the 32-bit number `n`, possibly with a plus sign. -/
def IsU32 (s : Str) (n : Nat) : Prop :=
  n < 4294967296 ∧ ∃ ds : List (Fin 10), ds ≠ [] ∧ digitsNumber ds = n ∧ (s = digitsText ds ∨ s = '+' :: digitsText ds)

end Verif.Spec.Display
