import Verif.Spec.Sct
/-!
# Lines and sections in another order
-/

namespace Verif.Spec

/-- A block of lines: nothing, or text that ends with a line feed. -/
def WholeLines (s : Str) : Prop := s = [] ∨ ∃ t, s = t ++ ['\n']

/-- The two lists have the same elements, and those of the same key are in the same order. -/
def SameOrder {A K : Type} [DecidableEq K] (key : A → K) (l l' : List A) : Prop := ∀ k, l.filter (key · = k) = l'.filter (key · = k)

/-- The name of a section of an .ese file. -/
def Ese.Sect.name : Ese.Sect → Str
  | .positions .. => c!"POSITIONS"
  | .airspace .. => c!"AIRSPACE"
  | .sidsStars .. => c!"SIDSSTARS"
  | .other name .. => name

/-- The header of a section of an .sct file, the two spellings of the header of regions being one. -/
def Sct.Sect.kind : Sct.Sect → Str
  | .regions .. => c!"[REGIONS]"
  | s => s.header

end Verif.Spec
