import Verif.Model.Polygon
/-!
# Sectors and volumes

Models `Volume`, `Sector` and `Sectors::from_ese`, `/repo/src/adaptation/sectors.rs` 32-66, 141-195,
and the ESE sector data, `/repo/src/ese.rs` 117-130.

* `HashMap`/`HashSet` iteration orders are arbitrary: `ese.sectors` is given as the list of its
  entries in iteration order, and the order of the groups is a parameter.
* `HashSet` values are lists of which only membership is observed.
* `polygon` is `polygon_from_ese` (see `Verif.Model.Polygon`), `ccw` is `make_ccw_winding` followed
  by `Polygon::new`; the type `B` of lateral borders is arbitrary.
* `owner_priority`, airports and runway identifiers are strings.
-/

namespace Verif.Sectors

/-- `ese::Sector`, ese.rs 117-130 (the border is a list of sector lines' points). -/
structure EseSector (P : Type) where
  id : Str
  bottom : Nat
  top : Nat
  border : List (List P)
  ownerPriority : List Str
  departureAirports : List Str
  arrivalAirports : List Str
  runwayFilter : List (Str × Str)
deriving DecidableEq

/-- `Volume`, sectors.rs 32-39 -/
structure Volume (B : Type) where
  id : Str
  lowerLevel : Nat
  upperLevel : Nat
  lateralBorder : B
deriving DecidableEq

/-- `Sector`, sectors.rs 58-66 -/
structure Sector where
  id : Str
  positionPriority : List Str
  runwayFilter : List (List (Str × Str))
  volumes : List Str
  departureAerodromes : List Str
  arrivalAerodromes : List Str
deriving DecidableEq

/-- The key under which ESE sectors are grouped, sectors.rs 147 -/
abbrev GroupKey := List Str × List (Str × Str)

variable {P B : Type}

abbrev Groups (P : Type) := MultiMap GroupKey (Str × EseSector P)

/-- The closure of the first fold, sectors.rs 144-161 -/
def groupStep (polygon : EseSector P → Option B) (ccw : B → B)
    (acc : Groups P × Map Str (Volume B)) (e : Str × EseSector P) :
    Groups P × Map Str (Volume B) :=
  match polygon e.2 with
  | some p =>
    (acc.1.insert (e.2.ownerPriority, e.2.runwayFilter) e,
      acc.2.insert e.1 ⟨e.1, e.2.bottom, e.2.top, ccw p⟩)
  | none => acc

/-- The first fold, sectors.rs 142-162 -/
def groupVolumes (polygon : EseSector P → Option B) (ccw : B → B)
    (entries : List (Str × EseSector P)) : Groups P × Map Str (Volume B) :=
  entries.foldl (groupStep polygon ccw) ([], [])

/-- The sector of a group, sectors.rs 166-184.  `volumes[0]` panics on an empty vector. -/
def sectorOfGroup (g : GroupKey × List (Str × EseSector P)) : Run Sector := do
  let first ← unwrap (g.2.map (·.1)).head?
  .ok {
    id := first
    positionPriority := g.1.1
    runwayFilter := [g.1.2]
    volumes := g.2.map (·.1)
    departureAerodromes := (g.2.map (·.2)).flatMap (·.departureAirports)
    arrivalAerodromes := (g.2.map (·.2)).flatMap (·.arrivalAirports) }

/-- The second fold, sectors.rs 163-188 -/
def sectorsOfGroups : List (GroupKey × List (Str × EseSector P)) → Map Str Sector →
    Run (Map Str Sector)
  | [], acc => .ok acc
  | g :: gs, acc => do
    let s ← sectorOfGroup g
    sectorsOfGroups gs (acc.insert s.id s)

/-- `Sectors::from_ese`, sectors.rs 141-190 -/
def fromEse (polygon : EseSector P → Option B) (ccw : B → B)
    (order : Groups P → Groups P) (entries : List (Str × EseSector P)) :
    Run (Map Str (Volume B) × Map Str Sector) := do
  let gv := groupVolumes polygon ccw entries
  let sectors ← sectorsOfGroups (order gv.1) []
  .ok (gv.2, sectors)

/-- `find_id_by_volume`, sectors.rs 192-195; `sectors` is in iteration order. -/
def findIdByVolume (sectors : List (Str × Sector)) (vol : Str) : Option Str :=
  sectors.findSome? fun e => if vol ∈ e.2.volumes then some e.1 else none

end Verif.Sectors
