import Verif.Spec.AdaptationLoad
import Verif.Model.PrfPaths
/-!
# Two runs of the program with the same files

The order in which the entries of a `HashMap` come, and which element of a `HashSet` comes first, differ from one run of the
program to the next.  What stays the same in the adaptation that is loaded is said here.
-/

namespace Verif.Spec.TwoRuns
open Verif.Adaptation Verif.Spec.Adaptation
open Verif.PrfPaths (Prf Path)
open Verif.Display (F32Ops)

/-- Two runs end alike: both with the same error, or both with results that are related. -/
def SameOutcome {E A B : Type} (R : A → B → Prop) : Except E A → Except E B → Prop
  | .ok a, .ok b => R a b
  | .error e, .error e' => e = e'
  | _, _ => False

/-- The maps have the same entries. -/
def SameMap {K V : Type} [DecidableEq K] (m m' : Map K V) : Prop := ∀ k, m.get? k = m'.get? k

/-- All settings of the profile that name a file of this name name the same file. -/
def OneFile (prf : Prf) (name : Str) : Prop :=
  ∀ k v d k' v' d', (k, v) ∈ prf.settings → (k', v') ∈ prf.settings → PrfPaths.joinSettingsPath prf v = .ok (d ++ [name]) →
    PrfPaths.joinSettingsPath prf v' = .ok (d' ++ [name]) → d = d'

section
variable {F G : Type} [DecidableEq F] [F32Ops G]

/-- Another run of the program: the same files, and the same conversions. -/
structure OtherRun (env env' : Env F G) : Prop where
  same : env' = { env with order := env'.order, choose := env'.choose }
  sane : Sane env
  sane' : Sane env'

/-- The same fixes, navaids, SIDs and STARs, and the same airports. -/
structure SameLocations (l l' : Locations.Db F) : Prop where
  fixes : l.fixes = l'.fixes
  vors : l.vors = l'.vors
  ndbs : l.ndbs = l'.ndbs
  sids : l.sids = l'.sids
  stars : l.stars = l'.stars
  airports : SameMap l.airports l'.airports

/-- The same items of the sector file. -/
structure SameItems (i i' : Model.SctItems.SctItems F) : Prop where
  sids : SameMap i.sids i'.sids
  stars : SameMap i.stars i'.stars
  highAirways : SameMap i.highAirways i'.highAirways
  lowAirways : SameMap i.lowAirways i'.lowAirways
  artccsHigh : SameMap i.artccsHigh i'.artccsHigh
  artccs : SameMap i.artccs i'.artccs
  artccsLow : SameMap i.artccsLow i'.artccsLow
  geo : SameMap i.geo i'.geo
  regions : SameMap i.regions i'.regions
  labels : SameMap i.labels i'.labels

/-- Sectors with the same owners, runways, volumes and airports; their names may differ. -/
structure SameSector (s s' : Sectors.Sector) : Prop where
  positionPriority : s.positionPriority = s'.positionPriority
  runwayFilter : s.runwayFilter = s'.runwayFilter
  volumes : ∀ id, id ∈ s.volumes ↔ id ∈ s'.volumes
  departureAerodromes : ∀ a, a ∈ s.departureAerodromes ↔ a ∈ s'.departureAerodromes
  arrivalAerodromes : ∀ a, a ∈ s.arrivalAerodromes ↔ a ∈ s'.arrivalAerodromes

/-- For each sector of `m` there is one in `m'` that is the same but for its name. -/
def SectorsAmong (m m' : Map Str Sectors.Sector) : Prop :=
  ∀ sid s, m.get? sid = some s → ∃ sid' s', m'.get? sid' = some s' ∧ SameSector s s'

/-- The same volumes, with the same levels; where their borders begin may differ. -/
def SameVolumes {B : Type} (m m' : Map Str (Sectors.Volume B)) : Prop :=
  ∀ id, (m.get? id).map (fun v => (v.id, v.lowerLevel, v.upperLevel)) = (m'.get? id).map fun v => (v.id, v.lowerLevel, v.upperLevel)

/-- What stays the same in an adaptation. -/
structure SameContents (a a' : Adaptation F G) : Prop where
  name : a.name = a'.name
  locations : SameLocations a.locations a'.locations
  airways : a.airways = a'.airways
  positions : a.positions = a'.positions
  volumes : SameVolumes a.volumes a'.volumes
  sectors : SectorsAmong a.sectors a'.sectors
  sectors' : SectorsAmong a'.sectors a.sectors
  departureConstraints : a.departureConstraints = a'.departureConstraints
  destinationConstraints : a.destinationConstraints = a'.destinationConstraints
  maps : a.maps = a'.maps
  symbols : a.symbols = a'.symbols
  otherSymbols : a.otherSymbols = a'.otherSymbols
  mapColours : a.mapColours = a'.mapColours
  roleColours : a.roleColours = a'.roleColours
  otherColours : SameMap a.otherColours a'.otherColours
  settings : a.settings = a'.settings
  aircraft : a.aircraft = a'.aircraft
  airlines : a.airlines = a'.airlines
  sctItems : SameItems a.sctItems a'.sctItems

end
end Verif.Spec.TwoRuns
