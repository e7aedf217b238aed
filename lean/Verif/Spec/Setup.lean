import Verif.Spec.Moved
import Verif.Model.Setup
/-!
# Files named in `adaptation.toml`
-/

namespace Verif.Spec.Setup
open Verif.Adaptation Verif.PrfPaths Verif.Spec.PrfPaths
open Verif.Display (F32Ops)

/-- The name of a file or directory in a path -/
def Proper (s : Str) : Prop := s ≠ [] ∧ s ≠ ['.'] ∧ '/' ∉ s

/-- The path that a text names: from the root if it starts with a slash, else from this directory -/
inductive Named (dir : Path) : Str → Path → Prop
  | absolute {ns : Path} : ns ≠ [] → (∀ n ∈ ns, Proper n) → Named dir (ns.flatMap fun n => '/' :: n) ns
  | relative {n : Str} {ns : Path} : (∀ m ∈ n :: ns, Proper m) → Named dir (n ++ ns.flatMap fun n => '/' :: n) (dir ++ n :: ns)

variable {F G : Type} [DecidableEq F] [F32Ops G]

/-- The file that a text names is there, and this is its canonical path. -/
def Found (env : SetupEnv F G) (dir : Path) (s : Str) (q : Path) : Prop := ∃ p, Named dir s p ∧ env.canonicalize p = some q

/-- The file that a text names is not there. -/
def Missing (env : SetupEnv F G) (dir : Path) (s : Str) : Prop := ∃ p, Named dir s p ∧ env.canonicalize p = none

/-- `canonicalize` works alike in both directories. -/
def SameLinks (env : SetupEnv F G) (dir dir' : Path) : Prop :=
  ∀ rel, ['.', '.'] ∉ rel → (env.canonicalize (dir ++ rel) = none ∧ env.canonicalize (dir' ++ rel) = none) ∨
    ∃ rel', ['.', '.'] ∉ rel' ∧ env.canonicalize (dir ++ rel) = some (dir ++ rel') ∧ env.canonicalize (dir' ++ rel) = some (dir' ++ rel')

end Verif.Spec.Setup
