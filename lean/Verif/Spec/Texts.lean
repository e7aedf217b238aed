import Verif.Parse.Isec
import Verif.Spec.Airway
import Verif.Model.Constraints
/-!
# Specification for printed airways and constraints

A row of airway.txt as data, with the segments it stands for; the columns of a printed constraint.
-/

namespace Verif.Spec.Texts
open Verif.AirwayGraph Verif.Parse

/-- A row of airway.txt: a fix on an airway, and its neighbours on both sides. -/
structure Row (F : Type) where
  fix : Fix (Point F)
  airway : Str
  type : AirwayType
  before : Option (AirwayFix (Point F))
  behind : Option (AirwayFix (Point F))

/-- A row gives one segment for each neighbour. -/
def Row.segments {F : Type} (r : Row F) : List (Segment (Point F)) :=
  (r.before.toList ++ r.behind.toList).map fun a => ⟨r.airway, r.fix.designator, r.fix.coordinate, a, r.type⟩

/-- The fixes of a row -/
def Row.fixes {F : Type} (r : Row F) : List (Fix (Point F)) :=
  r.fix :: (r.before.toList ++ r.behind.toList).map AirwayFix.fix

/-- The minimum levels of a row -/
def Row.levels {F : Type} (r : Row F) : List Nat :=
  (r.before.toList ++ r.behind.toList).filterMap AirwayFix.minimumLevel

/-- The field of a table that starts at a column (counted from 0) and has a width, without the blanks that fill it up -/
def column (start width : Nat) (line : Str) : Str :=
  ((((line.drop start).take width).reverse).dropWhile fun c => decide (c = ' ')).reverse

/-- A text that fits in a column: it is not too long and does not end with a blank. -/
def Fits (width : Nat) (s : Str) : Prop := s.length ≤ width ∧ s.getLast? ≠ some ' '

instance (width : Nat) (s : Str) : Decidable (Fits width s) := inferInstanceAs (Decidable (_ ∧ _))

end Verif.Spec.Texts
