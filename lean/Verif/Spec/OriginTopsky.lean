import Verif.Parse.Topsky
import Verif.Spec.Origin
/-!
# The texts of a TopSky map, in the order in which they are written in a file
-/

namespace Verif.Spec.Origin
open Verif.Parse.Topsky

/-- A list of names; `none` is the wildcard. -/
def names : Option (List Str) → List Str
  | none => []
  | some l => l

/-- A list of runways, `EDDM26L`; `none` is the wildcard. -/
def runways : Option (List RunwayIdentifier) → List Str
  | none => []
  | some l => l.flatMap fun r => [r.icao, r.designator]

/-- The names in a condition: `ID:own:own excluded:online:online excluded`, `RWY:ARR:…:…:DEP:…:…` and so on -/
def condition : Active → List Str
  | .true => []
  | .schedule => []
  | .aup l => l
  | .notam icao l => icao :: l
  | .area a => a.areas ++ names a.areaExcludes
  | .id a => names a.own ++ (names a.ownExcludes ++ (names a.online ++ names a.onlineExcludes))
  | .callsign a => names a.own ++ (names a.ownExcludes ++ (names a.online ++ names a.onlineExcludes))
  | .runway a => runways a.arrival ++ (runways a.arrivalExcludes ++ (runways a.departure ++ runways a.departureExcludes))
  | .map _ folder name => [folder, name]

/-- The texts in a line of a map.  The name of a line style is left out: it is returned in upper case. -/
def mapRule {F G : Type} : MapRule F G → List Str
  | .folder s => [s]
  | .colour s => [s]
  | .asrData l => names l
  | .active a => condition a
  | .andActive a => condition a
  | .symbol s => s.name :: (location s.location ++ s.label.toList.map (·.text))
  | .line l => l.flatten.flatMap location
  | .text t => location t.location ++ [t.content]
  | .coordPoly s => [s]
  | .coord l => location l
  | .global | .screenSpecific | .hidden | .layer _ | .zoom _ | .fontSize _ | .lineStyle _ | .coordLine => []

/-- The name of a map and the texts of its lines -/
def map {F G : Type} (m : MapDef F G) : List Str := m.name :: m.rules.flatMap mapRule

/-- `OVERRIDE_SCT_MAP:folder\name`; the name may be left out -/
def override (o : OverrideSct) : List Str := o.folder :: o.name.toList

/-- `LINESTYLEDEF:name:brush:hatch:…` -/
def lineStyle {G : Type} (s : LineStyleDef G) : List Str := [s.name, s.brush, s.hatch]

end Verif.Spec.Origin
