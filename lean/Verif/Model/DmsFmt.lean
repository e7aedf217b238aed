import Mathlib.Data.Rat.Floor
import Mathlib.Algebra.Order.Ring.Abs
import Verif.Base.Radix
import Verif.Base.Lit
import Verif.Model.Dms
/-!
# Coordinates as degrees, minutes and seconds (`/repo/src/lib.rs`)

Floating-point numbers are rationals with a sign (zero has one, too); every operation is exact and then rounded.  About rounding
only what holds for IEEE doubles is assumed.
-/

namespace Verif.Model
open Verif.Dms

/-- Rounding to doubles, and to the three decimals of `{:.3}`. -/
structure Rounding where
  /-- rounding to the nearest double -/
  rnd : Rat → Rat
  /-- The result is at most half a unit in the last place away: relative error 2⁻⁵³ for normal numbers, absolute error 2⁻¹⁰⁷⁵ below. -/
  near : ∀ x, |x| ≤ 2 ^ 1000 → |rnd x - x| ≤ |x| / 2 ^ 53 + 1 / 2 ^ 1075
  /-- Integers up to 2⁵³ are doubles. -/
  nat : ∀ n : Nat, n ≤ 2 ^ 53 → rnd n = n
  /-- Rounding keeps the sign. -/
  nonneg : ∀ x, 0 ≤ x → 0 ≤ rnd x
  /-- The thousandths printed by `{:.3}`. -/
  milli : Rat → Nat
  /-- They are a nearest integer. -/
  milli_near : ∀ x, 0 ≤ x → |1000 * x - milli x| ≤ 1 / 2

/-- A double: sign and magnitude. -/
structure Double where
  neg : Bool
  mag : Rat
  deriving DecidableEq

namespace Rounding
variable (R : Rounding)

/-- `(deg + min / 60.0 + sec / 3600.0) * sign`, lib.rs 98-105, for seconds that are not negative.  The product with ±1 is exact. -/
def fromDms (sign : Sign) (deg min : Nat) (sec : Rat) : Double :=
  { neg := sign == .neg, mag := R.rnd (R.rnd (R.rnd deg + R.rnd (R.rnd min / 60)) + R.rnd (sec / 3600)) }

/-- `f64::fract` of a number that is not negative; `x - x.trunc()` is exact. -/
def fract (x : Rat) : Rat := x - x.floor

/-- `as u8` of an integral double that is not negative: saturates. -/
def asU8 (x : Rat) : Nat := min 255 x.floor.toNat

/-- `decimal_to_dms`, lib.rs 64-82. -/
def decimalToDms (x : Double) (isLatitude : Bool) : Nat × Nat × Rat × Char :=
  let abs := x.mag
  let degrees := asU8 abs
  let minutesF := R.rnd (fract abs * 60)
  let minutes := asU8 minutesF
  let seconds := R.rnd (fract minutesF * 60)
  let direction := match isLatitude, x.neg with
    | true, false => 'N'
    | true, true => 'S'
    | false, false => 'E'
    | false, true => 'W'
  (degrees, minutes, seconds, direction)

/-- `{sec:06.3}` of a number that is not negative. -/
def fmtSec (sec : Rat) : Str := padZero 6 (showRadix 10 (R.milli sec / 1000) ++ '.' :: padZero 3 (showRadix 10 (R.milli sec % 1000)))

/-- `lat_deg_min_sec_fmt`, `lng_deg_min_sec_fmt`, lib.rs 108-124.  `min + 1` does not overflow: minutes are at most 60. -/
def fmt (x : Double) (isLatitude : Bool) : Str :=
  let (deg, min, sec, dir) := R.decimalToDms x isLatitude
  let carry := decide (|R.rnd (sec - 60)| < R.rnd (1 / 1000000))
  let min := min + carry.toNat
  let sec := if carry then 0 else sec
  dir :: (padZero 3 (showRadix 10 deg) ++ '.' :: (padZero 2 (showRadix 10 min) ++ '.' :: R.fmtSec sec))

end Rounding

end Verif.Model
