import Verif.Model.Contains
import Verif.Spec.Polygon
/-!
# What it means to be in a polygon

Nothing here mentions rays, winding loops or orientation tests.
-/

namespace Verif.Contains.Spec

/-- `p` is on the straight line from `a` to `b`, ends included. -/
def OnLine (a b p : Coord) : Prop :=
  ∃ t : Rat, 0 ≤ t ∧ t ≤ 1 ∧ p.1 = (1 - t) * a.1 + t * b.1 ∧ p.2 = (1 - t) * a.2 + t * b.2

/-- `p` is on one of the lines of the ring. -/
def OnBorder (ring : List Coord) (p : Coord) : Prop := ∃ l ∈ Polygon.pairs ring, OnLine l.1 l.2 p

/-- `p` is a weighted mean of `a`, `b` and `c` to which each contributes: strictly inside the triangle, if that has an area. -/
def InTriangle (a b c p : Coord) : Prop :=
  ∃ x y z : Rat, 0 < x ∧ 0 < y ∧ 0 < z ∧ x + y + z = 1 ∧
    p.1 = x * a.1 + y * b.1 + z * c.1 ∧ p.2 = x * a.2 + y * b.2 + z * c.2

/-- Twice the area of the triangle, positive if it is passed counter-clockwise. -/
def area2 (a b c : Coord) : Rat := (b.1 - a.1) * (c.2 - a.2) - (b.2 - a.2) * (c.1 - a.1)

open Classical in
/-- How often the triangle, passed once, goes round `p`: once, once backwards, or not at all. -/
noncomputable def around (a b c p : Coord) : Int :=
  if InTriangle a b c p then (if 0 < area2 a b c then 1 else if area2 a b c < 0 then -1 else 0) else 0

/-- How often the ring goes round `p`: the sum over the triangles that its lines span with a point `o`. -/
noncomputable def turns (o : Coord) (ring : List Coord) (p : Coord) : Int :=
  ((Polygon.pairs ring).map fun l => around o l.1 l.2 p).sum

/-- `o` is a point from which `p` is not in line with a point of the ring: with it the triangles do not have `p` on their sides. -/
def Clear (o : Coord) (ring : List Coord) (p : Coord) : Prop := ∀ v ∈ ring, ¬ OnLine o v p

/-- The lines form one loop in which each point is passed once. -/
def SimpleLoop {V : Type} [DecidableEq V] (lines : List (V × V)) : Prop :=
  ∀ v, Polygon.Spec.degree lines v ≤ 2

end Verif.Contains.Spec
