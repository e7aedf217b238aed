import Verif.Model.Locations
import Verif.Model.Colours
import Verif.Parse.Sct
/-!
# `/repo/src/adaptation/sct_items.rs`: the items of a sector file that are drawn

How a coordinate is printed with six digits behind the point is a parameter.  `geo::Coord` and `geo::Point` are pairs.
-/

namespace Verif.Model.SctItems
open Verif.Locations (Db Location FloatOps Point)
open Verif.Colours (Colour)

section
variable {F : Type}

/-- `geo::Coord` -/
def pair (p : Parse.Point F) : Point F := (p.x, p.y)

/-- `Location`, lib.rs 142-145 -/
def location : Parse.Sct.Loc F → Location F
  | .fix d => .fix d
  | .coordinate p => .coordinate (pair p)

/-- `ColouredLines`, sct_items.rs 17-21 -/
structure Coloured (F : Type) where
  colour : Colour
  lines : List (List (Point F))
deriving DecidableEq

/-- `Itertools::dedup` -/
def dedup {A : Type} [DecidableEq A] : List A → List A
  | [] => []
  | [a] => [a]
  | a :: b :: l => if a = b then dedup (b :: l) else a :: dedup (b :: l)

section
variable [FloatOps F] [UnicodeTables]

/-- `filter_map(|loc| locations.convert_location(loc))`, sct_items.rs 46-55 -/
def points (db : Db F) : List (Parse.Sct.Loc F) → Run (List (Point F))
  | [] => .ok []
  | l :: ls => do
    let p ← db.convertLocation (location l)
    let ps ← points db ls
    .ok (match p with
      | some p => p :: ps
      | none => ps)

variable [DecidableEq F]

/-- The closure over the lines, sct_items.rs 42-61 -/
def lines (db : Db F) : List (List (Parse.Sct.Loc F)) → Run (List (List (Point F)))
  | [] => .ok []
  | l :: ls => do
    let line ← points db l
    let rest ← lines db ls
    .ok (if (dedup line).isEmpty then rest else dedup line :: rest)

/-- `from_location_coloured_lines`, sct_items.rs 34-71.  `get` is `Colours::get` with the settings, `sid` is `colours.map.sid`. -/
def coloured (db : Db F) (get : Str → Option Colour) (sid : Colour) (g : Lines.Group (Parse.Sct.Loc F)) : Run (Option (Coloured F)) := do
  let ls ← lines db g.lines
  .ok (if ls.isEmpty then none else some ⟨(g.colour.bind get).getD sid, ls⟩)

/-- The closure over the groups of a drawing, sct_items.rs 181-196 and the like -/
def groups (db : Db F) (get : Str → Option Colour) (sid : Colour) (name : Str) :
    List (Lines.Group (Parse.Sct.Loc F)) → Run (List (Str × Coloured F))
  | [] => .ok []
  | g :: gs => do
    let c ← coloured db get sid g
    let rest ← groups db get sid name gs
    .ok (match c with
      | some c => (name, c) :: rest
      | none => rest)

/-- `flat_map` over the drawings, sct_items.rs 178-197 and the like -/
def allGroups (db : Db F) (get : Str → Option Colour) (sid : Colour) : List (Parse.Sct.Drawing F) → Run (List (Str × Coloured F))
  | [] => .ok []
  | d :: ds => do
    let a ← groups db get sid d.name d.lineGroups
    let b ← allGroups db get sid ds
    .ok (a ++ b)

end

/-- `collect::<MultiMap<_, _>>` -/
def collect {V : Type} (l : List (Str × V)) : MultiMap Str V := l.foldl (fun m e => m.insert e.1 e.2) []

/-- The drawings of one kind, sct_items.rs 178-197 and the like -/
def drawings [FloatOps F] [UnicodeTables] [DecidableEq F] (db : Db F) (get : Str → Option Colour) (sid : Colour) (ds : List (Parse.Sct.Drawing F)) :
    Run (MultiMap Str (Coloured F)) := do
  let l ← allGroups db get sid ds
  .ok (collect l)

/-! ### Airways -/

/-- `geo::Line` -/
structure Line (F : Type) where
  start : Point F
  stop : Point F
deriving DecidableEq

/-- `coord_hash`, sct_items.rs 29-31; `fmt` is `{:.6}` -/
def coordHash (fmt : F → Str) (p : Point F) : Str := 'x' :: (fmt p.1 ++ 'y' :: fmt p.2)

/-- `line_hash`, sct_items.rs 23-28 -/
def lineHash (fmt : F → Str) (l : Line F) : Str := coordHash fmt l.start ++ coordHash fmt l.stop

/-- `build_linestring`, sct_items.rs 74-99.  `fuel` bounds the depth of the recursion; the set of visited lines is a list. -/
def build [DecidableEq F] (fmt : F → Str) (adjacency : MultiMap Str (Line F)) : Nat → Point F → List Str → Run (List (Point F) × List Str)
  | 0, _, _ => .error .diverge
  | fuel + 1, point, visited =>
    match (adjacency.getVec (coordHash fmt point)).find? fun line => decide (lineHash fmt line ∉ visited) with
    | some next => do
      let r ← build fmt adjacency fuel (if next.start = point then next.stop else next.start) (lineHash fmt next :: visited)
      .ok (point :: r.1, r.2)
    | none => .ok ([point], visited)

/-- `adjacency`, sct_items.rs 121-129 -/
def adjacency (fmt : F → Str) (ls : List (Line F)) : MultiMap Str (Line F) :=
  collect (ls.flatMap fun l => [(coordHash fmt l.start, l), (coordHash fmt l.stop, l)])

/-- The fold, sct_items.rs 131-152 -/
def chain [DecidableEq F] (fmt : F → Str) (adj : MultiMap Str (Line F)) (fuel : Nat) :
    List (Line F) → List (List (Point F)) → List Str → Run (List (List (Point F)))
  | [], acc, _ => .ok acc
  | l :: ls, acc, visited =>
    if lineHash fmt l ∈ visited then chain fmt adj fuel ls acc visited
    else do
      let r ← build fmt adj fuel l.start (lineHash fmt l :: visited)
      chain fmt adj fuel ls (acc ++ [r.1]) r.2

/-- The lines of an airway joined together, sct_items.rs 121-152.  The recursion is no deeper than the number of lines. -/
def joined [DecidableEq F] (fmt : F → Str) (ls : List (Line F)) : Run (List (List (Point F))) :=
  chain fmt (adjacency fmt ls) (ls.length + 1) ls [] []

section
variable [FloatOps F] [UnicodeTables] [DecidableEq F]

/-- `lines` of `airway_to_multi_line_string`, sct_items.rs 107-119.  Both ends are `airway.start`, as in the code. -/
def airwayLines (db : Db F) : List (Parse.Sct.Airway F) → Run (List (Line F))
  | [] => .ok []
  | a :: l => do
    let start ← db.convertLocation (location a.start)
    let stop ← db.convertLocation (location a.start)
    let rest ← airwayLines db l
    .ok (match start, stop with
      | some s, some e => ⟨s, e⟩ :: rest
      | _, _ => rest)

/-- `airway_to_multi_line_string`, sct_items.rs 101-152 -/
def airwayToLines (fmt : F → Str) (db : Db F) (l : List (Parse.Sct.Airway F)) : Run (List (List (Point F))) := do
  let ls ← airwayLines db l
  joined fmt ls

/-- The closure over the names, sct_items.rs 224-227 and 236-239 -/
def namedAirways (fmt : F → Str) (db : Db F) : List (Str × List (Parse.Sct.Airway F)) → Run (List (Str × List (List (Point F))))
  | [] => .ok []
  | (name, l) :: rest => do
    let ls ← airwayToLines fmt db l
    let others ← namedAirways fmt db rest
    .ok ((name, ls) :: others)

/-- The airways of one kind, sct_items.rs 218-240.  `order` is the order in which the names are visited. -/
def airways (fmt : F → Str) (db : Db F) (order : List (Str × List (Parse.Sct.Airway F)) → List (Str × List (Parse.Sct.Airway F)))
    (l : List (Parse.Sct.Airway F)) : Run (MultiMap Str (List (List (Point F)))) := do
  let r ← namedAirways fmt db (order (collect (l.map fun a => (a.designator, a))))
  .ok (collect r)

end

/-- `SctItems`, sct_items.rs 154-168 -/
structure SctItems (F : Type) where
  sids : MultiMap Str (Coloured F)
  stars : MultiMap Str (Coloured F)
  highAirways : MultiMap Str (List (List (Point F)))
  lowAirways : MultiMap Str (List (List (Point F)))
  artccsHigh : MultiMap Str (Coloured F)
  artccs : MultiMap Str (Coloured F)
  artccsLow : MultiMap Str (Coloured F)
  geo : MultiMap Str (Coloured F)
  regions : MultiMap Str (Parse.Sct.Region F)
  labels : MultiMap Str (Parse.Sct.Label F)

/-- `SctItems::from_sct`, sct_items.rs 171-335 -/
def fromSct [FloatOps F] [UnicodeTables] [DecidableEq F] (fmt : F → Str)
    (order : List (Str × List (Parse.Sct.Airway F)) → List (Str × List (Parse.Sct.Airway F)))
    (sct : Parse.Sct.Sct F) (db : Db F) (get : Str → Option Colour) (sid : Colour) : Run (SctItems F) := do
  let sids ← drawings db get sid sct.sids
  let stars ← drawings db get sid sct.stars
  let high ← airways fmt db order sct.highAirways
  let low ← airways fmt db order sct.lowAirways
  let artccsHigh ← drawings db get sid sct.artccsHigh
  let artccs ← drawings db get sid sct.artccs
  let artccsLow ← drawings db get sid sct.artccsLow
  let geo ← drawings db get sid sct.geo
  .ok {
    sids, stars, highAirways := high, lowAirways := low, artccsHigh, artccs, artccsLow, geo
    regions := collect (sct.regions.map fun r => (r.name, r))
    labels := collect (sct.labels.map fun l => (l.name, l)) }

end
end Verif.Model.SctItems
