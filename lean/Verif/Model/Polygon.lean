import Verif.Base.Map
/-!
# Sector border polygon

Models `polygon_from_ese`, `/repo/src/adaptation/sectors.rs` lines 68-138.

* A vertex is a quantised coordinate; the type `V` of vertices is arbitrary with decidable
  equality (the code uses `Coord<i64>` as hash key).
* `Vec` is a list, pushed and popped at its end.
* `points.iter().next()` on a `HashSet` yields an arbitrary element: the start point is a parameter.
* The final conversion of the ring to `f64` degrees (129-131) is applied element-wise and is the
  parameter `dequantize` of `polygonFromEse`.
-/

namespace Verif.Polygon

variable {V : Type} [DecidableEq V]

/-- `LineString::lines()`: consecutive pairs of points. -/
def pairs {α : Type} : List α → List (α × α)
  | a :: b :: l => (a, b) :: pairs (b :: l)
  | _ => []

/-- `lines`, sectors.rs 70-79: the quantised lines of all border sector lines. -/
def borderLines {P : Type} (quantize : P → V) (border : List (List P)) : List (V × V) :=
  border.flatMap fun points => (pairs points).map fun l => (quantize l.1, quantize l.2)

/-- `adj_list.entry(k).or_default().push(v)`, sectors.rs 87-88 -/
def pushTo (m : Map V (List V)) (k v : V) : Map V (List V) :=
  m.insert k (((m.get? k).getD []) ++ [v])

/-- `*edge_count.entry(k).or_insert(0) += 1`, sectors.rs 89-90 -/
def bump (m : Map V Nat) (k : V) : Map V Nat :=
  m.insert k (((m.get? k).getD 0) + 1)

/-- `adj_list`, sectors.rs 80-95 -/
def adjacency (lines : List (V × V)) : Map V (List V) :=
  lines.foldl (fun m l => pushTo (pushTo m l.1 l.2) l.2 l.1) []

/-- `edge_count`, sectors.rs 80-95 -/
def edgeCount (lines : List (V × V)) : Map V Nat :=
  lines.foldl (fun m l => bump (bump m l.1) l.2) []

/-- `points`, sectors.rs 80-95: a set; the list may contain repetitions. -/
def points (lines : List (V × V)) : List V := lines.flatMap fun l => [l.1, l.2]

/-- `Vec::swap_remove` for an index in range: the last element takes the place of the removed one. -/
def swapRemove (l : List V) (pos : Nat) : List V :=
  match l.getLast? with
  | none => l
  | some last => (l.set pos last).dropLast

/-- State of the `while` loop, sectors.rs 103-105.  The stack has its top first. -/
structure State (V : Type) where
  adj : Map V (List V)
  stack : List V
  ring : List V
  current : V

/-- Removal of the reverse edge, sectors.rs 115-119 -/
def removeReverse (adj : Map V (List V)) (next current : V) : Map V (List V) :=
  match adj.get? next with
  | none => adj
  | some rev =>
    match rev.findIdx? (· = current) with
    | none => adj
    | some pos => adj.insert next (swapRemove rev pos)

/-- The `while` loop, sectors.rs 107-123.  `fuel` bounds the number of iterations; running out of it
is reported as divergence.  If `current` had no entry in `adj_list` the loop would spin for ever. -/
def loop : Nat → State V → Run (List V)
  | 0, _ => .error .diverge
  | fuel + 1, s =>
    match s.stack with
    | [] => .ok s.ring
    | top :: rest =>
      match s.adj.get? s.current with
      | none => loop fuel s
      | some neighbours =>
        match neighbours.getLast? with
        | none => loop fuel { s with ring := s.ring ++ [s.current], current := top, stack := rest }
        | some next =>
          loop fuel
            { s with
              stack := s.current :: s.stack
              adj := removeReverse (s.adj.insert s.current neighbours.dropLast) next s.current
              current := next }

/-- `polygon_from_ese`, sectors.rs 80-138, on the quantised lines; `start` is what
`points.iter().next()` returned.  The number of iterations allowed is shown to be sufficient. -/
def polygonFromLines (lines : List (V × V)) (start : Option V) : Run (Option (List V)) :=
  if !((edgeCount lines).map (·.2)).all (fun c => c % 2 == 0) then .ok none
  else
    match start with
    | none => .ok none
    | some start => do
      let ring ← loop (2 * lines.length + 2) ⟨adjacency lines, [start], [], start⟩
      if ring.length = lines.length + 1 then .ok (some ring) else .ok none

/-- `polygon_from_ese`, sectors.rs 69-138.  `choose` is the first element of the hash set of
points in its (arbitrary) iteration order. -/
def polygonFromEse {P : Type} (quantize : P → V) (dequantize : V → P)
    (choose : List V → Option V) (border : List (List P)) : Run (Option (List P)) := do
  let lines := borderLines quantize border
  let ring ← polygonFromLines lines (choose (points lines))
  .ok (ring.map (·.map dequantize))

end Verif.Polygon
