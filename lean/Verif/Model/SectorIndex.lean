import Verif.Model.Sectors
/-!
# The spatial index over sector volumes

Models `/repo/src/adaptation/sector_index.rs` 14-124 and the index methods of `Adaptation`,
`/repo/src/adaptation/mod.rs` 315-343.

* A coordinate value is an element of an arbitrary type `F` with the comparisons `≤` used by `geo`
  and `rstar` (a linear order in the theorems: polygon coordinates and query points are never NaN).
* A lateral border is the list of the points of the exterior ring.  `bounding_rect` is modelled;
  point-in-polygon (`Contains`) is a parameter.
* `rstar::RTree` is modelled by its specification: `locate_all_at_point` yields the entries whose
  rectangle contains the point (borders included), `locate_in_envelope_intersecting` the entries
  whose rectangle meets the envelope (borders included), both in an arbitrary order (`shuffle`).
* A level is an element of an arbitrary type `L` with Boolean comparisons; `asF32` is `u32 as f32`.
-/

namespace Verif.SectorIndex
open Verif.Sectors

variable {F L : Type}

abbrev Pt (F : Type) := F × F

/-- `geo::Rect` / `rstar::AABB`: lower and upper corner. -/
structure Rect (F : Type) where
  min : Pt F
  max : Pt F
deriving DecidableEq

abbrev Border (F : Type) := List (Pt F)

section
variable [LE F] [DecidableLE F]

def minF (a b : F) : F := if a ≤ b then a else b
def maxF (a b : F) : F := if a ≤ b then b else a

/-- `bounding_rect()` of a polygon's exterior (geo's `get_bounding_rect`): none without points. -/
def boundingRect (b : Border F) : Option (Rect F) :=
  match b with
  | [] => none
  | p :: ps => some (ps.foldl
      (fun r q => ⟨(minF r.min.1 q.1, minF r.min.2 q.2), (maxF r.max.1 q.1, maxF r.max.2 q.2)⟩)
      ⟨p, p⟩)

/-- `AABB::contains_point` -/
def Rect.containsPoint (r : Rect F) (p : Pt F) : Bool :=
  r.min.1 ≤ p.1 && p.1 ≤ r.max.1 && (r.min.2 ≤ p.2 && p.2 ≤ r.max.2)

/-- `AABB::intersects` -/
def Rect.intersects (r s : Rect F) : Bool :=
  r.min.1 ≤ s.max.1 && s.min.1 ≤ r.max.1 && (r.min.2 ≤ s.max.2 && s.min.2 ≤ r.max.2)

/-- `Entry`, sector_index.rs 12 -/
structure Entry (F : Type) where
  rect : Rect F
  sectorId : Str
  volume : Volume (Border F)

/-- The sectors and volumes of an adaptation, in iteration order. -/
structure Data (F : Type) where
  sectors : List (Str × Sector)
  volumes : Map Str (Volume (Border F))

/-- `build_tree`, sector_index.rs 21-38 (`rectangle_for`, 14-19, is `boundingRect`). -/
def buildTree (d : Data F) : List (Entry F) :=
  let candidates := (d.sectors.filter fun e => !e.2.positionPriority.isEmpty).flatMap fun e =>
    (e.2.volumes.filterMap fun id => d.volumes.get? id).map fun v => (e.2.id, v)
  candidates.filterMap fun c => (boundingRect c.2.lateralBorder).map fun r => ⟨r, c.1, c.2⟩

/-- The external functions used by the index. -/
structure Env (F L : Type) where
  /-- `Polygon::contains(&Point)` -/
  contains : Border F → Pt F → Bool
  /-- the order in which the R-tree yields entries -/
  shuffle : List (Entry F) → List (Entry F)
  /-- `u32 as f32` -/
  asF32 : Nat → L
  /-- `f32` comparison `a <= b` -/
  le : L → L → Bool
  /-- `f32` comparison `a < b` -/
  lt : L → L → Bool

variable (env : Env F L)

/-- `volumes_at`, sector_index.rs 78-88, on a tree -/
def volumesAt (tree : List (Entry F)) (p : Pt F) : List (Str × Volume (Border F)) :=
  ((env.shuffle (tree.filter fun e => e.rect.containsPoint p)).map
    fun e => (e.sectorId, e.volume)).filter fun v => env.contains v.2.lateralBorder p

/-- `volumes_near_line`, sector_index.rs 93-105, on a tree.  The bounding rectangle of a line is
that of its two end points. -/
def volumesNearLine (tree : List (Entry F)) (a b : Pt F) : List (Str × Volume (Border F)) :=
  let envelope : Rect F := ⟨(minF a.1 b.1, minF a.2 b.2), (maxF a.1 b.1, maxF a.2 b.2)⟩
  (env.shuffle (tree.filter fun e => e.rect.intersects envelope)).map
    fun e => (e.sectorId, e.volume)

/-- `str` comparison: lexicographic by code point. -/
def strLt : Str → Str → Bool
  | [], [] => false
  | [], _ :: _ => true
  | _ :: _, [] => false
  | a :: as, b :: bs => if a.toNat < b.toNat then true else if a = b then strLt as bs else false

/-- `min_by_key` on ids: the first of the least. -/
def minId : List Str → Option Str
  | [] => none
  | x :: xs =>
    match minId xs with
    | none => some x
    | some m => some (if strLt m x then m else x)

/-- `find_sector`, sector_index.rs 108-123, on a tree -/
def findSector (tree : List (Entry F)) (p : Pt F) (level : L) : Option Str :=
  minId (((volumesAt env tree p).filter fun v =>
    env.le (env.asF32 v.2.lowerLevel) level && env.lt level (env.asF32 v.2.upperLevel)).map (·.1))

/-! ### The cached index of an adaptation -/

/-- `Adaptation` as far as the index is concerned; `index` is the `OnceLock`. -/
structure Adaptation (F : Type) where
  data : Data F
  index : Option (List (Entry F))

/-- `get_or_build`, sector_index.rs 61-67: the tree used, and the index afterwards. -/
def Adaptation.getOrBuild (a : Adaptation F) : List (Entry F) × Adaptation F :=
  match a.index with
  | some t => (t, a)
  | none => (buildTree a.data, { a with index := some (buildTree a.data) })

/-- `rebuild`, sector_index.rs 70-73; `rebuild_sector_index`, mod.rs 320-322 -/
def Adaptation.rebuild (a : Adaptation F) : Adaptation F :=
  { a with index := some (buildTree a.data) }

/-- `Clone for SectorVolumeIndex`, sector_index.rs 50-58 -/
def Adaptation.clone (a : Adaptation F) : Adaptation F :=
  { data := a.data
    index := match a.index with
      | some t => some t
      | none => none }

/-- The queries, mod.rs 327-343 -/
inductive Query (F L : Type) where
  | findSector (p : Pt F) (level : L)
  | volumesAt (p : Pt F)
  | volumesNearLine (a b : Pt F)

inductive Answer (F : Type) where
  | sector (id : Option Str)
  | volumes (vs : List (Str × Volume (Border F)))

/-- A query against a tree -/
def answer (tree : List (Entry F)) : Query F L → Answer F
  | .findSector p level => .sector (findSector env tree p level)
  | .volumesAt p => .volumes (volumesAt env tree p)
  | .volumesNearLine a b => .volumes (volumesNearLine env tree a b)

/-- What can happen to an adaptation: a query, a direct mutation of the public fields `sectors` and
`volumes`, a rebuild of the index, or its replacement by a clone of it. -/
inductive Op (F L : Type) where
  | query (q : Query F L)
  | mutate (f : Data F → Data F)
  | rebuild
  | clone

def Adaptation.step (a : Adaptation F) : Op F L → Adaptation F
  | .query _ => a.getOrBuild.2
  | .mutate f => { a with data := f a.data }
  | .rebuild => a.rebuild
  | .clone => a.clone

/-- The adaptation after a history. -/
def Adaptation.run (a : Adaptation F) (ops : List (Op F L)) : Adaptation F :=
  ops.foldl Adaptation.step a

/-- The answer to a query. -/
def Adaptation.ask (a : Adaptation F) (q : Query F L) : Answer F :=
  answer env a.getOrBuild.1 q

end
end Verif.SectorIndex
