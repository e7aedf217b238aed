import Verif.Model.SctItems
import Mathlib.Data.List.Destutter
/-!
# The drawn items of a sector file: specification

`place` says where a location is, `none` for an unknown fix.
-/

namespace Verif.Spec.SctItems
open Verif.Model.SctItems (Coloured pair)
open Verif.Colours (Colour)
open Verif.Locations (Point)

section
variable {F : Type} [DecidableEq F] (place : Parse.Sct.Loc F → Option (Point F))

/-- The known points of a line, consecutive equal points once. -/
def line (l : List (Parse.Sct.Loc F)) : List (Point F) := (l.filterMap place).destutter (· ≠ ·)

/-- The lines of a group with a known point. -/
def lines (g : Lines.Group (Parse.Sct.Loc F)) : List (List (Point F)) := (g.lines.map (line place)).filter (· ≠ [])

/-- The colour of a group: the one it names, if it is defined. -/
def colour (get : Str → Option Colour) (default : Colour) (g : Lines.Group (Parse.Sct.Loc F)) : Colour := (g.colour.bind get).getD default

/-- What is drawn under a name: the groups of all drawings of this name in the order of the file, apart from those without points. -/
def drawn (get : Str → Option Colour) (default : Colour) (ds : List (Parse.Sct.Drawing F)) (name : Str) : List (Coloured F) :=
  (((ds.filter (·.name = name)).flatMap (·.lineGroups)).filter (lines place · ≠ [])).map fun g => ⟨colour get default g, lines place g⟩

end

/-- The table has the given entries under each name, and no names without entries. -/
def Holds {V : Type} (m : MultiMap Str V) (f : Str → List V) : Prop := ∀ n, m.get? n = if (f n).isEmpty then none else some (f n)

/-- All fixes and coordinates that have to be found. -/
def locations {F : Type} (s : Parse.Sct.Sct F) : List (Parse.Sct.Loc F) :=
  ((s.sids ++ s.stars ++ s.artccsHigh ++ s.artccs ++ s.artccsLow ++ s.geo).flatMap fun d => d.lineGroups.flatMap fun g => g.lines.flatten) ++
    (s.highAirways ++ s.lowAirways).map (·.start)

/-! ## Airways -/

/-- The segments of lines: pairs of consecutive points. -/
def segments {P : Type} (l : List (List P)) : List (P × P) := l.flatMap fun line => line.zip line.tail

/-- What should be drawn for an airway: a segment for each of its parts with known ends. -/
def airwaySegments {F : Type} (place : Parse.Sct.Loc F → Option (Point F)) (l : List (Parse.Sct.Airway F)) : List (Point F × Point F) :=
  l.filterMap fun a => (place a.start).bind fun s => (place a.stop).map fun e => (s, e)

/-- The elements of the list whose key does not occur in front of them. -/
def firsts {A K : Type} [DecidableEq K] (key : A → K) : List A → List A
  | [] => []
  | a :: l => a :: (firsts key l).filter fun b => key b ≠ key a

end Verif.Spec.SctItems
