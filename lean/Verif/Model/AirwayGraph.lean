import Verif.Base.Map
/-!
# Airway graph

Models `/repo/src/adaptation/locations/airways.rs` (lines 14-309) and the parts of
`/repo/src/adaptation/locations/mod.rs` (29-71) and `/repo/src/adaptation/mod.rs` (364-385)
it depends on.

Simplifications:
* `geo::Point` is an arbitrary type `P` with a function `quantize : P → Int × Int`
  (`Quantize for Point`, adaptation/mod.rs 364-385); nothing about floating point is assumed.
* `u32` levels are natural numbers (they are only copied and compared here).
* `Arc<str>` is a string.
-/

namespace Verif.AirwayGraph

/-- `Quantize` for points, adaptation/mod.rs 364-385.  The arithmetic is left abstract. -/
class Quantize (P : Type) where
  quantize : P → Int × Int

export Quantize (quantize)

/-- `struct Fix`, locations/mod.rs 27-31 -/
structure Fix (P : Type) where
  designator : Str
  coordinate : P

/-- `enum AirwayType`, airways.rs 14-20 -/
inductive AirwayType where
  | high | low | both | unknown
  deriving DecidableEq, Repr

/-- `struct AirwayFix`, airways.rs 22-27 -/
structure AirwayFix (P : Type) where
  fix : Fix P
  validDirection : Bool
  minimumLevel : Option Nat

/-- `struct AirwayEdge`, airways.rs 29-36.  `FixId` is an index. -/
structure AirwayEdge where
  to : Nat
  validDirection : Bool
  minimumLevel : Option Nat
  maximumLevel : Option Nat
  airwayType : AirwayType
  deriving DecidableEq, Repr

/-- `struct GraphFix`, airways.rs 337-341 -/
structure GraphFix (P : Type) where
  position : P
  edges : Map Nat (List AirwayEdge)

/-- `struct AirwayGraph`, airways.rs 65-72 -/
structure Graph (P : Type) where
  fixes : List (GraphFix P)
  fixIdByName : Map Str (List Nat)
  fixNameById : List Str
  airwayIdByName : Map Str Nat
  airwayNameById : List Str

/-- `AirwayGraph::default()` (derived), airways.rs 65 -/
def Graph.empty {P : Type} : Graph P := ⟨[], [], [], [], []⟩

variable {P : Type} [Quantize P]

/-- `self.fixes[id.0]`: panics when out of bounds. -/
def Graph.fixAt (g : Graph P) (id : Nat) : Run (GraphFix P) := unwrap g.fixes[id]?

/-- `GraphPosition::eq`, locations/mod.rs 65-69 -/
def samePosition (a b : P) : Bool := quantize a == quantize b

/-- The loop of `get_or_insert_fix_id` (airways.rs 226-232) and of `find_fix_id` (206-208):
first id in the list whose position equals `pos`. -/
def Graph.findAt (g : Graph P) (pos : P) : List Nat → Run (Option Nat)
  | [] => .ok none
  | id :: ids => do
    let f ← g.fixAt id
    if samePosition f.position pos then .ok (some id) else g.findAt pos ids

/-- `add_fix_raw`, airways.rs 189-202 -/
def Graph.addFixRaw (g : Graph P) (pos : P) (name : Str) : Graph P × Nat :=
  let id := g.fixes.length
  ({ g with
      fixes := g.fixes ++ [⟨pos, []⟩]
      fixNameById := g.fixNameById ++ [name]
      fixIdByName := g.fixIdByName.insert name (((g.fixIdByName.get? name).getD []) ++ [id]) },
   id)

/-- `get_or_insert_fix_id`, airways.rs 225-234 -/
def Graph.getOrInsertFixId (g : Graph P) (pos : P) (name : Str) : Run (Graph P × Nat) := do
  match g.fixIdByName.get? name with
  | some ids =>
    match ← g.findAt pos ids with
    | some id => .ok (g, id)
    | none => .ok (g.addFixRaw pos name)
  | none => .ok (g.addFixRaw pos name)

/-- `get_or_insert_airway_id`, airways.rs 236-247 -/
def Graph.getOrInsertAirwayId (g : Graph P) (name : Str) : Graph P × Nat :=
  match g.airwayIdByName.get? name with
  | some id => (g, id)
  | none =>
    let id := g.airwayNameById.length
    ({ g with
        airwayNameById := g.airwayNameById ++ [name]
        airwayIdByName := g.airwayIdByName.insert name id }, id)

/-- The `match` on minimum levels, airways.rs 253-256 -/
def mergeMin : Option Nat → Option Nat → Option Nat
  | some a, some b => some (min a b)
  | x, none => x
  | none, x => x

/-- The `match` on maximum levels, airways.rs 257-260 -/
def mergeMax : Option Nat → Option Nat → Option Nat
  | some a, some b => some (max a b)
  | x, none => x
  | none, x => x

/-- Update of an existing edge, airways.rs 252-260 -/
def mergeEdge (edge new : AirwayEdge) : AirwayEdge :=
  { edge with
    validDirection := edge.validDirection || new.validDirection
    minimumLevel := mergeMin edge.minimumLevel new.minimumLevel
    maximumLevel := mergeMax edge.maximumLevel new.maximumLevel }

/-- `edges.iter_mut().find(|e| *e == &to_edge)` … `else push`, airways.rs 251-263.
Edges compare equal when their `to` agrees (airways.rs 38-42). -/
def upsertEdge (edges : List AirwayEdge) (new : AirwayEdge) : List AirwayEdge :=
  match edges with
  | [] => [new]
  | e :: es => if e.to = new.to then mergeEdge e new :: es else e :: upsertEdge es new

/-- `insert_or_update_edge`, airways.rs 249-264 -/
def Graph.insertOrUpdateEdge (g : Graph P) (src awy : Nat) (new : AirwayEdge) : Run (Graph P) := do
  let f ← g.fixAt src
  let edges := (f.edges.get? awy).getD []
  let f' := { f with edges := f.edges.insert awy (upsertEdge edges new) }
  .ok { g with fixes := g.fixes.set src f' }

/-- The arguments of one `insert_or_update_segment` call. -/
structure Segment (P : Type) where
  airway : Str
  fromName : Str
  fromPos : P
  segment : AirwayFix P
  airwayType : AirwayType

/-- `insert_or_update_segment`, airways.rs 153-187 -/
def Graph.insertOrUpdateSegment (g : Graph P) (s : Segment P) : Run (Graph P) := do
  let (g, selfId) ← g.getOrInsertFixId s.fromPos s.fromName
  let (g, toId) ← g.getOrInsertFixId s.segment.fix.coordinate s.segment.fix.designator
  let (g, awyId) := g.getOrInsertAirwayId s.airway
  let toEdge : AirwayEdge :=
    ⟨toId, s.segment.validDirection, s.segment.minimumLevel, none, s.airwayType⟩
  let g ← g.insertOrUpdateEdge selfId awyId toEdge
  let fromEdge : AirwayEdge :=
    ⟨selfId, false, s.segment.minimumLevel, none, s.airwayType⟩
  g.insertOrUpdateEdge toId awyId fromEdge

/-- A graph is only ever built by successive `insert_or_update_segment` calls on the default graph
(the fold in `/repo/src/airway.rs` 91-117). -/
def build (segs : List (Segment P)) : Run (Graph P) :=
  segs.foldlM (fun g s => g.insertOrUpdateSegment s) Graph.empty

/-- `find_fix_id`, airways.rs 204-209 -/
def Graph.findFixId (g : Graph P) (fix : Fix P) : Run (Option Nat) :=
  match g.fixIdByName.get? fix.designator with
  | none => .ok none
  | some ids => g.findAt fix.coordinate ids

/-- `is_fix_id_on_airway`, airways.rs 266-268 -/
def Graph.isFixIdOnAirway (g : Graph P) (id awy : Nat) : Run Bool := do
  let f ← g.fixAt id
  .ok (f.edges.contains awy)

/-- The search of `find_fix_on_airway`, airways.rs 213-214 -/
def Graph.findOnAirway (g : Graph P) (awy : Nat) : List Nat → Run (Option Nat)
  | [] => .ok none
  | id :: ids => do
    if ← g.isFixIdOnAirway id awy then .ok (some id) else g.findOnAirway awy ids

/-- `find_fix_on_airway`, airways.rs 211-215 -/
def Graph.findFixOnAirway (g : Graph P) (designator : Str) (awy : Nat) : Run (Option Nat) :=
  match g.fixIdByName.get? designator with
  | none => .ok none
  | some ids => g.findOnAirway awy ids

/-- The choice of the next edge in `traverse_airway`, airways.rs 298-304 -/
def nextEdge (edges : List AirwayEdge) (prev : Nat) : Option AirwayEdge :=
  match edges with
  | [e] => if e.to ≠ prev then some e else none
  | [e₁, e₂] => [e₁, e₂].find? (fun e => e.to ≠ prev)
  | _ => none

/-- `traverse_airway`, airways.rs 270-308.  `fuel` is `fixes.len() - count`: the code gives up
(returns `None`) once `count > fixes.len()`. -/
def Graph.traverse (g : Graph P) (endId awy : Nat) :
    Nat → Nat → AirwayEdge → Run (Option (List (Nat × Bool × Option Nat)))
  | 0, _, _ => .ok none
  | fuel + 1, prev, edge =>
    let current := edge.to
    let entry := (edge.to, edge.validDirection, edge.minimumLevel)
    if current = endId then .ok (some [entry])
    else do
      let f ← g.fixAt current
      match f.edges.get? awy with
      | none => .ok none
      | some edges =>
        match nextEdge edges prev with
        | none => .ok none
        | some edge' =>
          match ← g.traverse endId awy fuel current edge' with
          | none => .ok none
          | some rest => .ok (some (entry :: rest))

/-- The closure mapping an expanded id to the returned pair, airways.rs 132-146.
`isInternal` stands for `locations.contains_nav_element`. -/
def Graph.describe (g : Graph P) (isInternal : Str → P → Bool)
    (e : Nat × Bool × Option Nat) : Run (AirwayFix P × Bool) := do
  let designator ← unwrap g.fixNameById[e.1]?
  let f ← g.fixAt e.1
  .ok (⟨⟨designator, f.position⟩, e.2.1, e.2.2⟩, isInternal designator f.position)

/-- The `for edge in edges` loop, airways.rs 124-149 -/
def Graph.tryEdges (g : Graph P) (isInternal : Str → P → Bool) (startId endId awy : Nat) :
    List AirwayEdge → Run (Option (List (AirwayFix P × Bool)))
  | [] => .ok none
  | edge :: edges => do
    match ← g.traverse endId awy g.fixes.length startId edge with
    | none => g.tryEdges isInternal startId endId awy edges
    | some ids =>
      let out ← ids.mapM (g.describe isInternal)
      .ok (some out)

/-- Resolution of the start fix, airways.rs 87-90: by name and position, otherwise the first fix of
that name on the airway. -/
def Graph.resolveStart (g : Graph P) (start : Fix P) (awy : Nat) : Run (Option Nat) := do
  match ← g.findFixId start with
  | some id => .ok (some id)
  | none => g.findFixOnAirway start.designator awy

/-- `expand_airway_segment`, airways.rs 75-151.  Debug output is omitted, except that the index
expressions evaluated for it (98, 99, 108, 118, 119) are only evaluated when the log level is
enabled; they use ids that are also indexed elsewhere. -/
def Graph.expand (g : Graph P) (start : Fix P) (endName airway : Str)
    (isInternal : Str → P → Bool) : Run (Option (List (AirwayFix P × Bool))) := do
  match g.airwayIdByName.get? airway with
  | none => .ok none
  | some awy =>
    match ← g.resolveStart start awy with
    | none => .ok none
    | some startId =>
      if !(← g.isFixIdOnAirway startId awy) then .ok none
      else
        match ← g.findFixOnAirway endName awy with
        | none => .ok none
        | some endId =>
          let f ← g.fixAt startId
          match f.edges.get? awy with
          | none => .ok none
          | some edges =>
            if edges.length > 2 then .ok none
            else g.tryEdges isInternal startId endId awy edges

end Verif.AirwayGraph
