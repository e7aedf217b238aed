import Verif.Base.Num
import Verif.Parse.Isec
/-!
# Numerals with at most six decimals
-/

namespace Verif.Spec.Quantize
open Verif.Parse (Point)

/-- The text is a decimal numeral with at most six decimals, and it stands for `n` millionths, of this sign. -/
def Millionths (s : Str) (neg : Bool) (n : Nat) : Prop :=
  ∃ sg ds fs z, s = sg ++ ds ++ (if fs = [] then [] else '.' :: fs) ∧ (if neg then sg = ['-'] else sg = [] ∨ sg = ['+']) ∧
    IsDigits ds ∧ (∀ c ∈ fs, isAsciiDigit c = true) ∧ fs.length + z = 6 ∧ n = digitsValue (ds ++ fs ++ List.replicate z '0')

/-- The number with its sign. -/
def signed (neg : Bool) (n : Nat) : Int := if neg then -n else n

end Verif.Spec.Quantize
