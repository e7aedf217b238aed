import Verif.Model.DmsFmt
import Verif.Base.Num
/-!
# Doubles that are read and printed

`R.Num` is the type of doubles with the rounding `R`, with the operations the parsers need.
-/

namespace Verif.Model
open Verif.Dms

/-- The doubles with this rounding. -/
def Rounding.Num (_ : Rounding) : Type := Double

namespace Rounding
variable (R : Rounding)

/-- `0.0` and `-0.0` are different here, which `==` identifies. -/
instance : DecidableEq R.Num := inferInstanceAs (DecidableEq Double)

/-- The digits in front of the dot and the digits behind it. -/
def decimalValue (s : Str) : Rat :=
  let whole := s.takeWhile (· ≠ '.')
  let frac := (s.dropWhile (· ≠ '.')).drop 1
  digitsValue whole + digitsValue frac / 10 ^ frac.length

/-- `str::parse::<f64>`.  It is only used for decimal numerals; that other texts are rejected is not modelled. -/
def ofText (s : Str) : R.Num :=
  let unsigned := if s.head? = some '-' ∨ s.head? = some '+' then s.drop 1 else s
  (⟨s.head? == some '-', R.rnd (decimalValue unsigned)⟩ : Double)

instance : F64 R.Num := ⟨fun s => some (R.ofText s), fun _ _ => rfl⟩

/-- `(deg + min / 60.0 + sec / 3600.0) * sign`, lib.rs 98-105.  The product with ±1 is exact. -/
def fromDegMinSec (d : DegMinSec R.Num) : R.Num :=
  let sec : Double := d.sec
  let q := if sec.neg then -sec.mag else sec.mag
  let sum := R.rnd (R.rnd (R.rnd d.deg + R.rnd (R.rnd d.min / 60)) + R.rnd (q / 3600))
  (⟨(d.sign == .neg) != decide (sum < 0), |sum|⟩ : Double)

instance : DmsArith R.Num := ⟨R.fromDegMinSec⟩

end Rounding
end Verif.Model
