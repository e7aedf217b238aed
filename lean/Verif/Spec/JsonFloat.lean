import Verif.Spec.Binary64
/-!
# The shortest text of a double

Rust and Jsonnet print a double with as few digits as possible such that it is the double that is nearest to what is printed.
-/

namespace Verif.Spec.JsonFloat
open Verif.Spec.Binary64

/-- A decimal number with `p` digits (or less) -/
def Decimal (p : Nat) (q : Rat) : Prop := ∃ (s : Nat) (e : Int), s < 10 ^ p ∧ |q| = s * 10 ^ e

/-- The double `x` is printed as `q`, and not with less digits. -/
def Shortest (x q : Rat) : Prop := IsRounded q x ∧ ∃ p, Decimal p q ∧ ∀ p' q', IsRounded q' x → Decimal p' q' → p ≤ p'

end Verif.Spec.JsonFloat
