import Verif.Spec.LineEnds
import Verif.Parse.Asr
import Verif.Parse.Sct
/-!
# Names in sector files and ASR files that may contain line ends
-/

namespace Verif.Spec
open Verif.Parse
variable {F : Type}

/-- A drawing under another name. -/
def drawingName (g : Str → Str) (d : Sct.Drawing F) : Sct.Drawing F := { d with name := g d.name }

/-- A sector file with the names of its drawings (SIDs, STARs, ARTCCs and the geography) changed by `g`;
everything else is kept. -/
def sctNames (g : Str → Str) (x : Sct.Sct F) : Sct.Sct F :=
  { x with
    sids := x.sids.map (drawingName g), stars := x.stars.map (drawingName g)
    artccsHigh := x.artccsHigh.map (drawingName g), artccs := x.artccs.map (drawingName g)
    artccsLow := x.artccsLow.map (drawingName g), geo := x.geo.map (drawingName g) }

/-- An ASR file with the airports of the runways and the groups of the free texts changed by `g`;
everything else is kept. -/
def asrNames (g : Str → Str) (x : Asr.Asr F) : Asr.Asr F :=
  { x with
    map := { x.map with
      runways := x.map.runways.map fun r => (g r.1, r.2)
      freeText := x.map.freeText.map fun r => (g r.1, r.2) } }

/-- All drawings of a sector file. -/
def drawings (x : Sct.Sct F) : List (Sct.Drawing F) :=
  x.sids ++ x.stars ++ x.artccsHigh ++ x.artccs ++ x.artccsLow ++ x.geo

/-! ## Profiles -/

/-- Nothing or a carriage return. -/
def IsReturn (e : Str) : Prop := e = [] ∨ e = ['\r']

/-- The same value, but for a carriage return at its end. -/
def SameValue (v v' : Str) : Prop := ∃ u e e', v = u ++ e ∧ v' = u ++ e' ∧ '\r' ∉ u ∧ IsReturn e ∧ IsReturn e'

/-- The same keys with the same values, but for carriage returns at the ends of the values. -/
inductive SameEntries {K : Type} : List (K × Str) → List (K × Str) → Prop where
  | nil : SameEntries [] []
  | cons (k : K) {v v' : Str} {m m' : List (K × Str)} (h : SameValue v v') (hs : SameEntries m m') :
      SameEntries ((k, v) :: m) ((k, v') :: m')

end Verif.Spec
