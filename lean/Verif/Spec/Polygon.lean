import Verif.Model.Polygon
/-!
# What a border polygon should be
-/

namespace Verif.Polygon.Spec

variable {V : Type} [DecidableEq V]

/-- How often a line between `a` and `b`, in either direction, occurs in `l`. -/
def lineCount (l : List (V × V)) (a b : V) : Nat :=
  l.countP fun e => e = (a, b) ∨ e = (b, a)

/-- The number of line ends at `v`. -/
def degree (lines : List (V × V)) (v : V) : Nat :=
  lines.countP (fun e => e.1 = v) + lines.countP (fun e => e.2 = v)

/-- `v` is an end point of some line. -/
def IsPoint (lines : List (V × V)) (v : V) : Prop := ∃ l ∈ lines, l.1 = v ∨ l.2 = v

/-- `b` can be reached from `a` along lines. -/
inductive Reach (lines : List (V × V)) : V → V → Prop
  | refl (a : V) : Reach lines a a
  | step {a b c : V} : Reach lines a b → ((b, c) ∈ lines ∨ (c, b) ∈ lines) → Reach lines a c

/-- All lines hang together. -/
def Connected (lines : List (V × V)) : Prop :=
  ∀ a b, IsPoint lines a → IsPoint lines b → Reach lines a b

/-- Every point touches an even number of line ends. -/
def EvenDegrees (lines : List (V × V)) : Prop := ∀ v, degree lines v % 2 = 0

/-- `ring` is a closed walk that runs along each line exactly once and along nothing else. -/
structure IsCircuit (lines : List (V × V)) (ring : List V) : Prop where
  nonempty : ring ≠ []
  closed : ring.head? = ring.getLast?
  covers : ∀ a b, lineCount (pairs ring) a b = lineCount lines a b

/-- A choice of an element, as made by a hash set's iteration order. -/
def Chooses (choose : List V → Option V) : Prop :=
  ∀ l, (l = [] → choose l = none) ∧ (l ≠ [] → ∃ x ∈ l, choose l = some x)

end Verif.Polygon.Spec
