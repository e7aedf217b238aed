import Verif.Base.Num
/-!
# Specification for isec.txt: what a waypoint file is

Written without reference to the grammar or the parser.
-/

namespace Verif.Spec.Isec

/-- The three fields of a waypoint line, as written. -/
structure Wpt where
  designator : Str
  lat : Str
  lng : Str
  deriving DecidableEq, Repr

/-- Blanks and tabs. -/
def IsSpaces (s : Str) : Prop := ∀ c ∈ s, c = ' ' ∨ c = '\t'

instance (s : Str) : Decidable (IsSpaces s) := inferInstanceAs (Decidable (∀ c ∈ s, c = ' ' ∨ c = '\t'))

/-- A comment: `;` or `//` and text without line ends. -/
def IsComment (p : Str) : Prop :=
  ∃ body, (p = ';' :: body ∨ p = '/' :: '/' :: body) ∧ ∀ c ∈ body, c ≠ '\n' ∧ c ≠ '\r'

/-- The part of a line without data: blanks, then possibly a comment. -/
def IsBlank (m : Str) : Prop := ∃ sp cm, m = sp ++ cm ∧ IsSpaces sp ∧ (cm = [] ∨ IsComment cm)

/-- One line end in front of `rest`: LF, CR LF, or a CR that is not followed by LF. -/
def IsLineEnd (nl rest : Str) : Prop :=
  nl = ['\n'] ∨ nl = ['\r', '\n'] ∨ (nl = ['\r'] ∧ rest.head? ≠ some '\n')

/-- `-? d+ . d+` -/
def IsCoord (s : Str) : Prop :=
  ∃ sg ds fs, s = sg ++ ds ++ '.' :: fs ∧ (sg = [] ∨ sg = ['-']) ∧ IsDigits ds ∧ IsDigits fs

/-- Upper-case letters and digits, at least one. -/
def IsDesignator (s : Str) : Prop :=
  s ≠ [] ∧ ∀ c ∈ s, isAsciiUpper c = true ∨ isAsciiDigit c = true

instance (s : Str) : Decidable (IsDesignator s) := inferInstanceAs (Decidable (_ ∧ _))

/-- The text of a waypoint line: designator, latitude, longitude, `15`, separated by blanks (which may
be missing in front of a minus sign), then possibly a comment. -/
def IsLine (w : Wpt) (t : Str) : Prop :=
  ∃ b0 b1 b2 b3 b4, t = b0 ++ w.designator ++ b1 ++ w.lat ++ b2 ++ w.lng ++ b3 ++ c!"15" ++ b4 ∧
    IsDesignator w.designator ∧ IsCoord w.lat ∧ IsCoord w.lng ∧
    IsSpaces b0 ∧ IsSpaces b1 ∧ IsSpaces b2 ∧ IsSpaces b3 ∧ IsBlank b4 ∧
    (b1 = [] → w.lat.head? = some '-') ∧ (b2 = [] → w.lng.head? = some '-') ∧ b3 ≠ []

/-- The content consists of waypoint lines, each with a line end, and lines without data; `ws` are its
waypoint lines in file order. -/
inductive IsFile : Str → List Wpt → Prop
  | last (b : Str) : IsBlank b → IsFile b []
  | blank (b nl rest : Str) (ws : List Wpt) : IsBlank b → IsLineEnd nl rest → IsFile rest ws →
      IsFile (b ++ nl ++ rest) ws
  | line (w : Wpt) (t nl rest : Str) (ws : List Wpt) : IsLine w t → IsLineEnd nl rest →
      IsFile rest ws → IsFile (t ++ nl ++ rest) (w :: ws)

end Verif.Spec.Isec
