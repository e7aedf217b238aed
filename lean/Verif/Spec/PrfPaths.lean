import Verif.Base.Core
/-!
# What a file setting of a profile denotes

Independent of the model: a setting's value without its trailing blanks is a sequence of names
separated by slashes or backslashes.
-/

namespace Verif.Spec.PrfPaths

/-- Both kinds of slashes separate. -/
def IsSep (c : Char) : Prop := c = '/' ∨ c = '\\'

/-- The text starts with a separator. -/
def Rooted (s : Str) : Prop := ∃ c r, s = c :: r ∧ IsSep c

/-- The text consists of these names with one separator between any two. -/
inductive Names : Str → List Str → Prop
  | last (p : Str) (hp : ∀ c ∈ p, ¬ IsSep c) : Names p [p]
  | cons (p : Str) (c : Char) (s : Str) (ps : List Str) (hp : ∀ c ∈ p, ¬ IsSep c) (hc : IsSep c)
      (hs : Names s ps) : Names (p ++ c :: s) (p :: ps)

/-- The path a text denotes: its names, of which empty ones and `.` mean nothing. -/
def Denotes (s : Str) (path : List Str) : Prop :=
  ∃ ps, Names s ps ∧ path = ps.filter fun p => p ≠ [] ∧ p ≠ ['.']

/-- `u` is `v` without the white space at its end. -/
def Trimmed (white : Char → Bool) (v u : Str) : Prop :=
  ∃ w, v = u ++ w ∧ (∀ c ∈ w, white c = true) ∧ ∀ c, u.getLast? = some c → white c = false

end Verif.Spec.PrfPaths
