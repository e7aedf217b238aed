import Verif.Base.Num
import Verif.Base.Lit
import Verif.Model.Settings
/-!
# Specification of the drawing rules of symbols

A drawing rule is a keyword followed by numbers, e.g. `ARC 0 0 5.5 0 360`; in front of each number is a
colon or a space.  Only the result type `SymbolRule` is taken from the model.
-/

namespace Verif.Spec.Drawing
open Verif.Settings (SymbolRule)

/-- A drawing rule with its numbers as they are written. -/
inductive Drawing
  | move (x y : Str)
  | line (x y : Str)
  | pixel (x y : Str)
  | arc (x y r a b : Str)
  | ellipticArc (x y rx ry a b : Str)
  | filledArc (x y r a b : Str)
  | filledEllipticArc (x y rx ry a b : Str)
  | circle (x y r : Str)
  | ellipse (x y rx ry : Str)
  | rect (x1 y1 x2 y2 : Str)
  | polygon (p : Str × Str) (ps : List (Str × Str))

def Drawing.keyword : Drawing → Str
  | .move .. => c!"MOVETO"
  | .line .. => c!"LINETO"
  | .pixel .. => c!"SETPIXEL"
  | .arc .. => c!"ARC"
  | .ellipticArc .. => c!"ARC"
  | .filledArc .. => c!"FILLARC"
  | .filledEllipticArc .. => c!"FILLARC"
  | .circle .. => c!"ELLIPSE"
  | .ellipse .. => c!"ELLIPSE"
  | .rect .. => c!"FILLRECT"
  | .polygon .. => c!"POLYGON"

/-- The coordinates and radii, written in front of the angles. -/
def Drawing.lengths : Drawing → List Str
  | .move x y => [x, y]
  | .line x y => [x, y]
  | .pixel x y => [x, y]
  | .arc x y r _ _ => [x, y, r]
  | .ellipticArc x y rx ry _ _ => [x, y, rx, ry]
  | .filledArc x y r _ _ => [x, y, r]
  | .filledEllipticArc x y rx ry _ _ => [x, y, rx, ry]
  | .circle x y r => [x, y, r]
  | .ellipse x y rx ry => [x, y, rx, ry]
  | .rect x1 y1 x2 y2 => [x1, y1, x2, y2]
  | .polygon p ps => (p :: ps).flatMap fun q => [q.1, q.2]

/-- The angles. -/
def Drawing.angles : Drawing → List Str
  | .arc _ _ _ a b => [a, b]
  | .ellipticArc _ _ _ _ a b => [a, b]
  | .filledArc _ _ _ a b => [a, b]
  | .filledEllipticArc _ _ _ _ a b => [a, b]
  | _ => []

/-- Angles are whole numbers, everything else may have a fraction. -/
def Drawing.Valid (d : Drawing) : Prop := (∀ n ∈ d.lengths, IsDecimal n) ∧ ∀ n ∈ d.angles, IsInteger n

/-- The number is an `i64`. -/
def FitsI64 (n : Str) : Prop := -(2 ^ 63 : Int) ≤ intValue n ∧ intValue n < 2 ^ 63

instance (n : Str) : Decidable (FitsI64 n) := inferInstanceAs (Decidable (_ ∧ _))

def Drawing.Fits (d : Drawing) : Prop := ∀ n ∈ d.angles, FitsI64 n

instance (d : Drawing) : Decidable d.Fits := inferInstanceAs (Decidable (∀ n ∈ d.angles, FitsI64 n))

/-- Numbers with a colon or a space in front of each. -/
inductive IsArgs : List Str → Str → Prop
  | nil : IsArgs [] []
  | cons (d : Char) (n : Str) (ns : List Str) (t : Str) : (d = ':' ∨ d = ' ') → IsArgs ns t →
      IsArgs (n :: ns) (d :: (n ++ t))

/-- The text of a drawing rule. -/
def Drawing.IsText (d : Drawing) (s : Str) : Prop :=
  d.Valid ∧ ∃ t, IsArgs (d.lengths ++ d.angles) t ∧ s = d.keyword ++ t

section
variable {F : Type} (num : Str → F) (close : F → F → Bool)

/-- The remainder by 360, with the sign of the number. -/
def angle (n : Str) : Int := (intValue n).tmod 360

/-- What a drawing rule stands for; `num` is the value of a number and `close` tells whether two radii
differ by less than the machine epsilon. -/
def Drawing.value : Drawing → SymbolRule F
  | .move x y => .move (num x, num y)
  | .line x y => .line (num x, num y)
  | .pixel x y => .pixel (num x, num y)
  | .arc x y r a b => .arc (num x, num y) (num r) (angle a) (angle b)
  | .ellipticArc x y rx ry a b =>
    if close (num rx) (num ry) then .arc (num x, num y) (num rx) (angle a) (angle b)
    else .ellipticArc (num x, num y) (num rx) (num ry) (angle a) (angle b)
  | .filledArc x y r a b => .filledArc (num x, num y) (num r) (angle a) (angle b)
  | .filledEllipticArc x y rx ry a b =>
    if close (num rx) (num ry) then .filledArc (num x, num y) (num rx) (angle a) (angle b)
    else .filledEllipticArc (num x, num y) (num rx) (num ry) (angle a) (angle b)
  | .circle x y r => .filledArc (num x, num y) (num r) 0 0
  | .ellipse x y rx ry => .filledEllipticArc (num x, num y) (num rx) (num ry) 0 0
  | .rect x1 y1 x2 y2 => .polygon [(num x1, num y1), (num x2, num y1), (num x2, num y2), (num x1, num y2)]
  | .polygon p ps => .polygon ((p :: ps).map fun q => (num q.1, num q.2))

end

end Verif.Spec.Drawing
