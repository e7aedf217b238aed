import Verif.Base.Core
import Verif.Base.Lit
import Verif.Parse.Isec
/-!
# Degrees, minutes and seconds

Models `Sign`, `DegMinSec` and `from_deg_min_sec`, `/repo/src/lib.rs` 35-106 and 126-129.
-/

namespace Verif.Dms
open Verif.Parse (Point)

/-- `Sign`, lib.rs 37-42 -/
inductive Sign
  | pos
  | neg
  deriving DecidableEq, Repr

/-- `From<&str> for Sign`, lib.rs 53-60 -/
def Sign.ofHemi (hemi : Str) : Run Sign :=
  if hemi = c!"N" ∨ hemi = c!"E" ∨ hemi = c!"n" ∨ hemi = c!"e" then .ok .pos
  else if hemi = c!"S" ∨ hemi = c!"W" ∨ hemi = c!"s" ∨ hemi = c!"w" then .ok .neg
  else .error .panic

/-- `DegMinSec`, lib.rs 62 -/
structure DegMinSec (F : Type) where
  sign : Sign
  deg : Nat
  min : Nat
  sec : F
  deriving DecidableEq

/-- The floating-point expression `(deg + min / 60.0 + sec / 3600.0) * sign`, lib.rs 102-105.  The
arithmetic is a parameter. -/
class DmsArith (F : Type) where
  value : DegMinSec F → F

/-- `from_deg_min_sec`, lib.rs 97-106 and 127-129 -/
def fromDegMinSec {F : Type} [DmsArith F] (lat lng : DegMinSec F) : Point F :=
  { y := DmsArith.value lat, x := DmsArith.value lng }

end Verif.Dms
