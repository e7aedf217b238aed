import Verif.Base.Core
import Verif.Base.Lit
/-!
# Text between the lines of a file

Blanks, empty lines and comments; a comment starts with one of the given marks and extends to the end of
its line.
-/

namespace Verif.Spec

def IsNewline (c : Char) : Prop := c = '\n' ∨ c = '\r'

def IsBlankChar (c : Char) : Prop := c = ' ' ∨ c = '\t'

instance (c : Char) : Decidable (IsNewline c) := inferInstanceAs (Decidable (_ ∨ _))
instance (c : Char) : Decidable (IsBlankChar c) := inferInstanceAs (Decidable (_ ∨ _))

/-- Blanks, line ends and comments with their line ends. -/
inductive IsFiller (marks : List Str) : Str → Prop
  | nil : IsFiller marks []
  | blank (c : Char) (t : Str) : IsBlankChar c → IsFiller marks t → IsFiller marks (c :: t)
  | newline (c : Char) (t : Str) : IsNewline c → IsFiller marks t → IsFiller marks (c :: t)
  | comment (w body : Str) (c : Char) (t : Str) : w ∈ marks → (∀ d ∈ body, ¬ IsNewline d) → IsNewline c →
      IsFiller marks t → IsFiller marks (w ++ (body ++ c :: t))

/-- A line end and further blanks, empty lines and comments. -/
def IsBreak (marks : List Str) (s : Str) : Prop := ∃ c t, s = c :: t ∧ IsNewline c ∧ IsFiller marks t

end Verif.Spec
