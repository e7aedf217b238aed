import Verif.Base.Lit
/-!
# Texts with the same lines

A line may end with a line feed or with a carriage return and a line feed.
-/

namespace Verif.Spec

/-- `"\n"` or `"\r\n"` -/
def IsLineEnd (e : Str) : Prop := e = ['\n'] ∨ e = ['\r', '\n']

/-- The two texts have the same characters, except that each line may end with `"\n"` in one and with
`"\r\n"` in the other. -/
inductive SameLines : Str → Str → Prop where
  | nil : SameLines [] []
  | char {s t : Str} (c : Char) (h1 : c ≠ '\r') (h2 : c ≠ '\n') (h : SameLines s t) :
      SameLines (c :: s) (c :: t)
  | lineEnd {s t e f : Str} (he : IsLineEnd e) (hf : IsLineEnd f) (h : SameLines s t) :
      SameLines (e ++ s) (f ++ t)

/-- The text without carriage returns. -/
def withoutReturns (s : Str) : Str := s.filter (· != '\r')

end Verif.Spec
