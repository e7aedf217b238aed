import Verif.Spec.Filler
/-!
# Tokens with blanks between them
-/

namespace Verif.Spec

/-- The tokens one after the other, with any number of spaces and tabs behind each. -/
inductive Spaced : List Str → Str → Prop
  | nil : Spaced [] []
  | cons (t b : Str) (ts : List Str) (rest : Str) : (∀ c ∈ b, IsBlankChar c) → Spaced ts rest →
      Spaced (t :: ts) (t ++ (b ++ rest))

end Verif.Spec
