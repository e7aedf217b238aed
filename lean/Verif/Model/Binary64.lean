import Mathlib.Data.Int.Log
import Verif.Model.Double
/-!
# IEEE 754 binary64

Doubles as such: a magnitude is a rational number `m · 2 ^ e` with `m < 2 ^ 53` and `e ≥ -1074`, and results of operations are rounded to
the nearest one, ties to even.  Infinity is left out: it takes magnitudes from `2 ^ 1024`.
-/

namespace Verif.Model.Binary64

/-- The nearest integer, ties to even. -/
def roundEven (x : Rat) : Int :=
  if x - ⌊x⌋ < 1 / 2 then ⌊x⌋
  else if 1 / 2 < x - ⌊x⌋ then ⌊x⌋ + 1
  else if ⌊x⌋ % 2 = 0 then ⌊x⌋ else ⌊x⌋ + 1

/-- The exponent of the unit in the last place at `x`. -/
def place (x : Rat) : Int := max (-1074) (Int.log 2 |x| - 52)

/-- Rounding to the nearest double, ties to even (IEEE 754, `roundTiesToEven`), up to `2 ^ 1024`. -/
def rnd (x : Rat) : Rat := roundEven (x / 2 ^ place x) * 2 ^ place x

/-- `format!("{:.6}", x)`, isec.rs 32-33: the nearest millionths, ties to even, with the sign of `x` even if they are 0. -/
def show6 (x : Double) : Str :=
  let k := (roundEven (x.mag * 1000000)).toNat
  (if x.neg then ['-'] else []) ++ (showRadix 10 (k / 1000000) ++ '.' :: padZero 6 (showRadix 10 (k % 1000000)))

end Verif.Model.Binary64
