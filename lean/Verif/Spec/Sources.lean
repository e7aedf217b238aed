import Verif.Spec.Adaptation
/-!
# Which file decides what

An adaptation is loaded from several files.  Said here is what must stay the same in it when only one of them is changed.
-/

namespace Verif.Spec.Sources
open Verif.Adaptation Verif.Spec.Adaptation
open Verif.PrfPaths (Prf Path)
open Verif.Display (F32Ops)
open Verif.Locations (Airport)

/-- What an adaptation is loaded from, besides the profile: the required files, the squawks, and the three files of TopSky. -/
inductive Source
  | file (f : File)
  | squawks
  | topsky
  deriving DecidableEq

section
variable {F G : Type} [DecidableEq F] [F32Ops G]

/-- The files of the source have the same contents for `r` as in the environment. -/
def Agree (env : Env F G) (r : Path → Option (List Spec.Decode.Byte)) (prf : Prf) : Source → Prop
  | .file f => ∀ p, path prf f = .ok p → r p = env.read p
  | .squawks => ∀ p, PrfPaths.squawksPath prf (env.order .settings prf.settings) = .ok (some p) → r p = env.read p
  | .topsky => ∀ dir, PrfPaths.topskyPath prf (env.order .settings prf.settings) = .ok (some dir) →
      ∀ name ∈ [c!"TopSkySettings.txt", c!"TopSkySymbols.txt", c!"TopSkyMaps.txt"],
        r (PrfPaths.join dir name) = env.read (PrfPaths.join dir name)

/-- Only the source `s` has changed. -/
def OnlyChanged (env : Env F G) (r : Path → Option (List Spec.Decode.Byte)) (prf : Prf) (s : Source) : Prop :=
  ∀ t, t ≠ s → Agree env r prf t

/-- All of an airport but its name and country -/
def whereabouts (a : Airport F) : Str × (F × F) × List (Locations.Runway F) := (a.designator, a.coordinate, a.runways)

/-- All of an airport but its name -/
def unnamed (a : Airport F) : Str × (F × F) × List (Locations.Runway F) × Option Str := (a.designator, a.coordinate, a.runways, a.country)

/-- When only this source is changed, an adaptation `a` becomes an `a'` which is `a` but for these parts. -/
def Keeps (s : Source) (a a' : Adaptation F G) : Prop :=
  match s with
  | .file .sct => a' = { a with
      name := a'.name, locations := a'.locations, maps := a'.maps, otherColours := a'.otherColours, sctItems := a'.sctItems }
  | .file .ese => a' = { a with
      locations := { a.locations with sids := a'.locations.sids, stars := a'.locations.stars }
      positions := a'.positions, volumes := a'.volumes, sectors := a'.sectors, index := a'.index
      departureConstraints := a'.departureConstraints, destinationConstraints := a'.destinationConstraints }
  | .file .airways => a' = { a with airways := a'.airways }
  | .file .symbology => a' = { a with
      symbols := a'.symbols, mapColours := a'.mapColours
      sctItems := { a'.sctItems with
        highAirways := a.sctItems.highAirways, lowAirways := a.sctItems.lowAirways
        regions := a.sctItems.regions, labels := a.sctItems.labels }
      settings := { a.settings with maps := { a.settings.maps with
        lineStyles := a'.settings.maps.lineStyles
        labelAlignments := a'.settings.maps.labelAlignments, labelSizes := a'.settings.maps.labelSizes } } }
  | .file .airports => a' = { a with locations := { a.locations with airports := a'.locations.airports } } ∧
      ∀ d, (a'.locations.airports.get? d).map whereabouts = (a.locations.airports.get? d).map whereabouts
  | .file .navdata => a' = { a with
      locations := { a.locations with
        airports := a'.locations.airports, sids := a'.locations.sids, stars := a'.locations.stars }
      maps := a'.maps
      sctItems := { a'.sctItems with regions := a.sctItems.regions, labels := a.sctItems.labels } }
  | .file .aircraft => a' = { a with aircraft := a'.aircraft }
  | .file .airlines => a' = { a with airlines := a'.airlines }
  | .squawks => a' = { a with settings := { a.settings with specialUseCodes := a'.settings.specialUseCodes } }
  | .topsky => a' = { a with
      maps := a'.maps, symbols := a'.symbols, otherSymbols := a'.otherSymbols, roleColours := a'.roleColours
      otherColours := a'.otherColours, lineStyles := a'.lineStyles
      sctItems := { a'.sctItems with
        highAirways := a.sctItems.highAirways, lowAirways := a.sctItems.lowAirways
        regions := a.sctItems.regions, labels := a.sctItems.labels }
      settings := { a.settings with
        maps := { a.settings.maps with fontSize := a'.settings.maps.fontSize }
        vector := a'.settings.vector, historyDots := a'.settings.historyDots, coopans := a'.settings.coopans } }

end
end Verif.Spec.Sources
