import Verif.Base.Core
/-!
# The text of a coordinate

`N048.21.13.456`: hemisphere, three digits for degrees, two for minutes, two for seconds and three for thousandths of a second.
-/

namespace Verif.Spec.Dms

/-- A decimal digit. -/
def digit (n : Nat) : Char := Char.ofNat (48 + n)

/-- The last two digits of a number. -/
def two (n : Nat) : Str := [digit (n / 10 % 10), digit (n % 10)]

/-- The last three digits of a number. -/
def three (n : Nat) : Str := [digit (n / 100 % 10), digit (n / 10 % 10), digit (n % 10)]

/-- The letter of the hemisphere. -/
def hemisphere (isLatitude negative : Bool) : Char :=
  if isLatitude then if negative then 'S' else 'N' else if negative then 'W' else 'E'

/-- The text for degrees, minutes and thousandths of a second. -/
def text (hemi : Char) (deg min milli : Nat) : Str :=
  hemi :: (three deg ++ '.' :: (two min ++ '.' :: (two (milli / 1000) ++ '.' :: three (milli % 1000))))

end Verif.Spec.Dms
