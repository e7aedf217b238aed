import Verif.Model.Double
/-!
# Coordinates of sector files
-/

namespace Verif.Spec.SctWrite

/-- The value of a double. -/
def value {R : Model.Rounding} (x : R.Num) : Rat :=
  let d : Model.Double := x
  if d.neg then -d.mag else d.mag

/-- An angle of whole degrees, minutes and thousandths of a second, as it is computed from them; zero has no sign. -/
def Whole (R : Model.Rounding) (x : R.Num) : Prop :=
  ∃ sign deg min milli, deg ≤ 255 ∧ min ≤ 59 ∧ milli ≤ 59999 ∧ (sign = .neg → 0 < deg + min + milli) ∧
    x = R.fromDms sign deg min (R.rnd ((milli : Nat) / 1000))

end Verif.Spec.SctWrite
