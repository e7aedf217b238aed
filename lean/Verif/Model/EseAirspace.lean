import Verif.Model.Constraints
/-!
# The airspace section of an ESE file

Models `collect_sectors` and `combine_sectors_with_borders`, `/repo/src/ese.rs` 490-558, over the
statements read from the section.
-/

namespace Verif.EseAirspace
open Verif.Constraints

/-- `Sector`, ese.rs 117-130; `L` is the type of `SectorLine` values. -/
structure Sector (L : Type) where
  id : Str
  bottom : Nat
  top : Nat
  border : List L
  ownerPriority : List Str
  departureAirports : List Str
  arrivalAirports : List Str
  runwayFilter : List (Str × Str)
deriving DecidableEq

/-- `SectorRule`, ese.rs 425-433; `C` is the type of `CircleSectorLine` values, the contents of `Msaw`
are never used. -/
inductive Statement (L C : Type) where
  | sector (border : List Str) (s : Sector L)
  | sectorLine (id : Str) (l : L)
  | firCop (c : Constraint)
  | cop (c : Constraint)
  | circleSectorLine (id : Str) (l : C)
  | displaySectorline
  | msaw

/-- `SectorsLinesBorders`, ese.rs 490-496 -/
structure Collected (L C : Type) where
  sectors : Map Str (Sector L)
  circles : Map Str C
  lines : Map Str L
  borders : Map Str (List Str)
  constraints : List Constraint

variable {L C : Type}

/-- `collect_sectors`, ese.rs 497-533 -/
def collect (a : Collected L C) : Statement L C → Collected L C
  | .cop c => { a with constraints := a.constraints ++ [c] }
  | .firCop c => { a with constraints := a.constraints ++ [c] }
  | .sectorLine id l => { a with lines := a.lines.insert id l }
  | .circleSectorLine id l => { a with circles := a.circles.insert id l }
  | .sector border s =>
    { a with borders := a.borders.insert s.id border, sectors := a.sectors.insert s.id s }
  | .msaw => a
  | .displaySectorline => a

/-- The border of a sector, ese.rs 543-551 -/
def borderOf (a : Collected L C) (id : Str) : List L :=
  match a.borders.get? id with
  | some border => border.filterMap fun name => a.lines.get? name
  | none => []

/-- `combine_sectors_with_borders`, ese.rs 535-558.  Collecting the mapped entries into a new
`HashMap` keeps them, as their keys are unchanged and distinct. -/
def combine (a : Collected L C) : Map Str (Sector L) × List Constraint :=
  (a.sectors.map fun e => (e.1, { e.2 with border := borderOf a e.1 }), a.constraints)

/-- The airspace branch of `parse_section`, ese.rs 605-624 -/
def airspace (statements : List (Statement L C)) : Map Str (Sector L) × List Constraint :=
  combine (statements.foldl collect ⟨[], [], [], [], []⟩)

end Verif.EseAirspace
