import Verif.Base.Unicode
/-!
# Specification for profiles (.prf): what a profile is

Written without reference to the grammar or the parser.
-/

namespace Verif.Spec.Prf

/-- The three fields of a line, as written. -/
structure Setting where
  category : Str
  key : Str
  value : Str
  deriving DecidableEq, Repr

variable [UnicodeTables]

/-- A blank or a tab. -/
def isGapChar (c : Char) : Bool := c == ' ' || c == '\t'

/-- A blank, a tab or a carriage return. -/
def isVoidChar (c : Char) : Bool := c == ' ' || c == '\t' || c == '\r'

/-- A letter, an ASCII digit or `_`. -/
def isKeyChar (c : Char) : Bool := UnicodeTables.letter c || isAsciiDigit c || c == '_'

/-- The text of a line: category, key, value; the value extends to the end of the line.  The blanks
between the fields may be missing where the next field cannot be read as part of the field before. -/
def IsLine (w : Setting) (t : Str) : Prop :=
  ∃ b0 b1 b2, t = b0 ++ w.category ++ b1 ++ w.key ++ b2 ++ w.value ∧
    (∀ c ∈ b0, isVoidChar c = true) ∧ (∀ c ∈ b1, isGapChar c = true) ∧ (∀ c ∈ b2, isGapChar c = true) ∧
    w.category ≠ [] ∧ (∀ c ∈ w.category, UnicodeTables.letter c = true) ∧
    w.key ≠ [] ∧ (∀ c ∈ w.key, isKeyChar c = true) ∧
    w.value ≠ [] ∧ (∀ c ∈ w.value, c ≠ '\n') ∧
    (∀ c, w.value.head? = some c → isGapChar c = false) ∧
    (b1 = [] → ∀ c, w.key.head? = some c → UnicodeTables.letter c = false) ∧
    (b2 = [] → ∀ c, w.value.head? = some c → isKeyChar c = false)

/-- The lines of the content (separated by LF) are setting lines and blank lines; `ws` are its setting
lines in file order. -/
inductive IsFile : Str → List Setting → Prop
  | last (b : Str) : (∀ c ∈ b, isVoidChar c = true) → IsFile b []
  | lastLine (w : Setting) (t : Str) : IsLine w t → IsFile t [w]
  | blank (b rest : Str) (ws : List Setting) : (∀ c ∈ b, isVoidChar c = true) → IsFile rest ws →
      IsFile (b ++ '\n' :: rest) ws
  | line (w : Setting) (t rest : Str) (ws : List Setting) : IsLine w t → IsFile rest ws →
      IsFile (t ++ '\n' :: rest) (w :: ws)

end Verif.Spec.Prf
