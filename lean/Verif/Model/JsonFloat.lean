import Verif.Model.Binary64
import Verif.Model.JsonText
/-!
# How `serde_json` reads a number as `f64`

Models `parse_integer`, `parse_number`, `parse_decimal`, `parse_long_integer`, `parse_decimal_overflow`, `parse_exponent` and
`f64_from_parts` of `serde_json` without its feature `float_roundtrip`, which Cargo.toml does not ask for (/repo/src/adaptation/mod.rs 308
reads the coordinates of an adaptation this way).  The digits are taken for an integer of 64 bits, which is rounded, and then multiplied
with a power of ten, or divided by one.

Numbers that are too large for `f64` are an error (`JsonText`, `fits`), so that infinity need not be modelled here; exponents beyond
the range of `i32` are not distinguished from others.
-/

namespace Verif.JsonFloat
open Verif.Model.Binary64 (rnd)

/-- Digits are appended to `sig` as long as the result fits into 64 bits: the result, and how many digits were appended.  The others
are ignored. -/
def accumulate : Nat → Str → Nat × Nat
  | sig, [] => (sig, 0)
  | sig, c :: s =>
    if 2 ^ 64 ≤ 10 * sig + (c.toNat - 48) then (sig, 0)
    else ((accumulate (10 * sig + (c.toNat - 48)) s).1, (accumulate (10 * sig + (c.toNat - 48)) s).2 + 1)

/-- `f64_from_parts`, negative exponents: the table of powers ends with 10³⁰⁸. -/
def divide (f : Rat) (k : Nat) : Rat :=
  if k ≤ 308 then rnd (f / rnd (10 ^ k))
  else if f = 0 then 0
  else divide (rnd (f / rnd (10 ^ 308))) (k - 308)
termination_by k

/-- `f64_from_parts` -/
def fromParts (sig : Nat) (e : Int) : Option Rat :=
  if 0 ≤ e then
    if e ≤ 308 then some (rnd (rnd sig * rnd (10 ^ e.toNat)))
    else if sig = 0 then some 0 else none
  else some (divide (rnd sig) (-e).toNat)

/-- The digits in front of the dot, behind it, and the exponent -/
def fromDigits (whole frac : Str) (e : Int) : Option Rat :=
  let w := accumulate 0 whole
  let f := accumulate w.1 frac
  fromParts f.1 (e + ((whole.length : Int) - w.2) - f.2)

/-- A number without a sign -/
def unsigned (s : Str) : Option Rat :=
  let whole := s.takeWhile isAsciiDigit
  if whole.isEmpty ∨ (whole.head? = some '0' ∧ 1 < whole.length) then none
  else
    match JsonText.fraction (s.dropWhile isAsciiDigit) with
    | none => none
    | some (frac, s) => (JsonText.exponent s).bind fun e => fromDigits whole frac e

/-- The text of a number is read as `f64`. -/
def read : Str → Option Rat
  | [] => none
  | c :: s => if c = '-' then (unsigned s).map fun q => -q else unsigned (c :: s)

end Verif.JsonFloat
