import Mathlib.Algebra.Field.Rat
import Mathlib.Algebra.Order.Ring.Rat
import Mathlib.Algebra.Order.Group.Abs
/-!
# What a double is (IEEE 754 binary64)
-/

namespace Verif.Spec.Binary64

/-- `m · 2 ^ e` is written with all 53 bits, or with the least exponent. -/
def Normalised (m e : Int) : Prop := |m| < 2 ^ 53 ∧ -1074 ≤ e ∧ (2 ^ 52 ≤ |m| ∨ e = -1074)

/-- A finite number with at most 53 significant bits, none of them below `2 ^ -1074`.  (Overflow to infinity is left out.) -/
def IsDouble (q : Rat) : Prop := ∃ m e : Int, |m| < 2 ^ 53 ∧ -1074 ≤ e ∧ q = m * 2 ^ e

/-- No double is nearer to `x`; if two are equally near, the last bit of this one is 0. -/
def IsRounded (x r : Rat) : Prop :=
  IsDouble r ∧ (∀ q, IsDouble q → |r - x| ≤ |q - x|) ∧
    ∀ q, IsDouble q → |r - x| = |q - x| → q ≠ r → ∃ m e : Int, Normalised m e ∧ r = m * 2 ^ e ∧ m % 2 = 0

end Verif.Spec.Binary64
