import Verif.Spec.Adaptation
import Verif.Spec.PrfPaths
/-!
# A directory and its copy
-/

namespace Verif.Spec.Moved
open Verif.Adaptation Verif.PrfPaths Verif.Spec.PrfPaths
open Verif.Display (F32Ops)

variable {F G : Type} [DecidableEq F] [F32Ops G]

/-- The same files are below both directories. -/
def SameTree (env : Env F G) (dir dir' : Path) : Prop := ∀ rel, ['.', '.'] ∉ rel → env.read (dir ++ rel) = env.read (dir' ++ rel)

/-- A value of the profile that names something relative to the profile names something in its directory: it is not only a
separator, and does not go up. -/
def Inside (v : Str) : Prop :=
  ∀ c rel cs, Trimmed isWhitespace v (c :: rel) → IsSep c → ¬ Rooted rel → Denotes rel cs → cs ≠ [] ∧ ['.', '.'] ∉ cs

/-- The path is somewhere else, or it is at the same place in the other directory. -/
def Moved (dir dir' p q : Path) : Prop := p = q ∨ ∃ rel, ['.', '.'] ∉ rel ∧ p = dir ++ rel ∧ q = dir' ++ rel

/-- So for each path of two lists. -/
def MovedAll (dir dir' : Path) (ps qs : List Path) : Prop := ps.length = qs.length ∧ ∀ e ∈ ps.zip qs, Moved dir dir' e.1 e.2

/-- The adaptation with other ASR files -/
def withAsrFiles (a : Adaptation F G) (paths : List Path) : Adaptation F G := { a with settings := { a.settings with asrFiles := paths } }

end Verif.Spec.Moved
