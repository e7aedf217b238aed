import Verif.Model.SectorIndex
/-!
# Point in polygon

Models what `Polygon::contains(&Point)` of `geo` 0.33.1 does, as called in
`/repo/src/adaptation/sector_index.rs` 86 for a volume's `lateral_border`, which `Volume::new` makes with `Polygon::new(border, vec![])`,
`/repo/src/adaptation/sectors.rs` 41-56.

* The source of `geo` is not in `/repo`; the functions below are modelled after its published source, named in each comment.
* A coordinate is the exact rational value of a finite double.  The only arithmetic done on coordinates is the sign of a determinant,
  which `geo` computes exactly (`robust::orient2d`, an adaptive exact predicate), so rational arithmetic is what the code does.
* A polygon has no holes here (`vec![]`).
-/

namespace Verif.Contains

/-- `geo::Coord<f64>` with its exact values -/
abbrev Coord := Rat × Rat

/-- `geo::Orientation` -/
inductive Orientation where
  | counterClockwise | clockwise | collinear
deriving DecidableEq

/-- The determinant of which `robust::orient2d(pa, pb, pc)` is the exact sign. -/
def det (a b c : Coord) : Rat := (a.1 - c.1) * (b.2 - c.2) - (a.2 - c.2) * (b.1 - c.1)

/-- `RobustKernel::orient2d`, geo/src/algorithm/kernels/robust.rs -/
def orient2d (a b c : Coord) : Orientation :=
  if 0 < det a b c then .counterClockwise else if det a b c < 0 then .clockwise else .collinear

/-- `geo::coordinate_position::CoordPos` -/
inductive CoordPos where
  | onBoundary | inside | outside
deriving DecidableEq

/-- `value_in_between`, geo/src/utils.rs -/
def valueInBetween (v b₁ b₂ : Rat) : Bool :=
  if b₁ < b₂ then decide (b₁ ≤ v) && decide (v ≤ b₂) else decide (b₂ ≤ v) && decide (v ≤ b₁)

/-- The body of the loop of `coord_pos_relative_to_ring`, geo/src/algorithm/coordinate_position.rs: what a line adds to the winding
number, or `none` if the coordinate is on it. -/
def crossing (c : Coord) (line : Coord × Coord) : Option Int :=
  if line.1.2 ≤ c.2 then
    if c.2 ≤ line.2.2 then
      if orient2d line.1 line.2 c = .counterClockwise ∧ line.2.2 ≠ c.2 then some 1
      else if orient2d line.1 line.2 c = .collinear ∧ valueInBetween c.1 line.1.1 line.2.1 = true then none
      else some 0
    else some 0
  else if line.2.2 ≤ c.2 then
    if orient2d line.1 line.2 c = .clockwise then some (-1)
    else if orient2d line.1 line.2 c = .collinear ∧ valueInBetween c.1 line.1.1 line.2.1 = true then none
    else some 0
  else some 0

/-- The loop of `coord_pos_relative_to_ring` -/
def windingLoop (c : Coord) : List (Coord × Coord) → Int → CoordPos
  | [], w => if w = 0 then .outside else .inside
  | l :: ls, w =>
    match crossing c l with
    | none => .onBoundary
    | some k => windingLoop c ls (w + k)

/-- `coord_pos_relative_to_ring`, geo/src/algorithm/coordinate_position.rs -/
def coordPosRelativeToRing (c : Coord) (ring : List Coord) : CoordPos :=
  match ring with
  | [] => .outside
  | [p] => if c = p then .onBoundary else .outside
  | ring => windingLoop c (Polygon.pairs ring) 0

/-- `LineString::close`, geo-types/src/geometry/line_string.rs, called by `Polygon::new` -/
def close {α : Type} [DecidableEq α] (l : List α) : List α :=
  match l.head? with
  | none => l
  | some p => if l.getLast? = some p then l else l ++ [p]

/-- `Contains<Coord> for Polygon`, geo/src/algorithm/contains/polygon.rs, for `Polygon::new(border, vec![])` -/
def contains (border : List Coord) (c : Coord) : Bool :=
  coordPosRelativeToRing c (close border) = .inside

/-- The external functions of the sector index with this point-in-polygon test; `val` is the exact value of a coordinate. -/
def withGeo {F L : Type} (val : F → Rat) (env : SectorIndex.Env F L) : SectorIndex.Env F L :=
  { env with contains := fun b p => contains (b.map fun q => (val q.1, val q.2)) (val p.1, val p.2) }

end Verif.Contains
