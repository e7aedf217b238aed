import Verif.Spec.AirwayGraph
/-!
# The positions of fixes on airways
-/

namespace Verif.AirwayGraph.Spec
variable {P : Type} [Quantize P]

/-- The fixes that segments mention, with their positions as given, in order. -/
def mentions (segs : List (Segment P)) : List (Str × P) :=
  segs.flatMap fun s => [(s.fromName, s.fromPos), (s.segment.fix.designator, s.segment.fix.coordinate)]

/-- The position with which a fix is first mentioned. -/
def firstPosition (l : List (Str × P)) (k : Key) : Option P := (l.find? fun m => m.1 = k.1 ∧ quantize m.2 = k.2).map (·.2)

end Verif.AirwayGraph.Spec
