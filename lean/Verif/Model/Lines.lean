import Verif.Base.Core
/-!
# Merging lines

Models `MapLine::parse`, `/repo/src/topsky/map/mod.rs` 194-222, and `parse_line_groups`,
`/repo/src/sct.rs` 654-698, after the locations have been read from the parse tree.

`L` is the type of locations.  Locations that compare equal are identified (so `0.0` and `-0.0` are
the same coordinate; `NaN` cannot be written in either grammar).
-/

namespace Verif.Lines
variable {L : Type} [DecidableEq L]

/-- Update of the last element of a vector. -/
def modifyLast {α : Type} (f : α → α) : List α → List α
  | [] => []
  | [a] => [f a]
  | a :: b :: l => a :: modifyLast f (b :: l)

/-- The points of a new line, topsky/map/mod.rs 212-217, sct.rs 673-677 and 688-692 -/
def newLine (start stop : L) : List L := if start = stop then [start] else [start, stop]

/-- The closure of the fold in `MapLine::parse`, topsky/map/mod.rs 196-221 -/
def addLine (acc : List (List L)) (l : L × L) : List (List L) :=
  if acc.getLast?.bind (·.getLast?) = some l.1 then
    if l.1 ≠ l.2 then modifyLast (· ++ [l.2]) acc else acc
  else acc ++ [newLine l.1 l.2]

/-- `MapLine::parse`, topsky/map/mod.rs 194-222 -/
def mergeLines (lines : List (L × L)) : List (List L) := lines.foldl addLine []

/-- A line of a sector file: start, end and colour. -/
structure ColouredLine (L : Type) where
  start : L
  stop : L
  colour : Option Str
deriving DecidableEq

/-- `ColouredLines`, sct.rs -/
structure Group (L : Type) where
  colour : Option Str
  lines : List (List L)
deriving DecidableEq

/-- The closure of the fold in `parse_line_groups`, sct.rs 655-697 -/
def addColoured (acc : List (Group L)) (l : ColouredLine L) : List (Group L) :=
  if acc.getLast?.map (·.colour) = some l.colour then
    modifyLast (fun g => { g with lines := addLine g.lines (l.start, l.stop) }) acc
  else acc ++ [⟨l.colour, [newLine l.start l.stop]⟩]

/-- `parse_line_groups`, sct.rs 654-698 -/
def lineGroups (lines : List (ColouredLine L)) : List (Group L) := lines.foldl addColoured []

end Verif.Lines
