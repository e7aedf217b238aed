import Verif.Spec.Filler
import Verif.Spec.Isec
import Verif.Base.Num
import Verif.Base.Unicode
/-!
# Specification for the ICAO tables and the airports of the navigation data

Written without reference to the grammars or the parsers.  The files consist of lines; fields are separated by tabs.
-/

namespace Verif.Spec.Icao
open Verif.Spec.Isec (IsComment IsBlank IsSpaces)

/-- Blanks, without tabs. -/
def Spaces (s : Str) : Prop := ∀ c ∈ s, c = ' '

instance (s : Str) : Decidable (Spaces s) := inferInstanceAs (Decidable (∀ c ∈ s, c = ' '))

/-- The text starts with a comment mark. -/
def StartsComment (s : Str) : Prop := [';'] <+: s ∨ ['/', '/'] <+: s

instance (s : Str) : Decidable (StartsComment s) := inferInstanceAs (Decidable (_ ∨ _))

/-- A field: neither tabs nor line ends, no blank or comment mark at its start. -/
def IsField (f : Str) : Prop := (∀ c ∈ f, c ≠ '\t' ∧ ¬ IsNewline c) ∧ f.head? ≠ some ' ' ∧ ¬ StartsComment f

instance (f : Str) : Decidable (IsField f) := inferInstanceAs (Decidable (_ ∧ _))

/-- A field in front of a tab, with the blanks around it, which are not part of it. -/
def Inner (f t : Str) : Prop := ∃ b b', t = b ++ f ++ b' ++ ['\t'] ∧ Spaces b ∧ Spaces b' ∧ IsField f ∧ f.getLast? ≠ some ' '

/-- The last field of a line that has a line end: the blanks around it are not part of it.  A comment may follow behind a
tab or if the field is empty; everywhere else it would be part of the field. -/
def Final (f t : Str) : Prop := ∃ b tr, t = b ++ f ++ tr ∧ Spaces b ∧ IsField f ∧ f.getLast? ≠ some ' ' ∧
  (IsSpaces tr ∨ (∃ b' tr', tr = b' ++ '\t' :: tr' ∧ Spaces b' ∧ IsBlank tr') ∨ (f = [] ∧ IsBlank tr))

/-- The last field of a file without a line end: blanks behind it are part of it. -/
def AtEnd (f t : Str) : Prop := ∃ b cm, t = b ++ f ++ cm ∧ Spaces b ∧ IsField f ∧ (cm = [] ∨ (f = [] ∧ IsComment cm))

/-- Blanks without tabs and possibly a comment. -/
def IsRest (b : Str) : Prop := ∃ sp cm, b = sp ++ cm ∧ Spaces sp ∧ (cm = [] ∨ IsComment cm)

/-- A file with lines of the kind `line`, the last of which, if it has no line end, is of the kind `last` or, if it has no data,
of the kind `rest`. -/
inductive IsFile {D : Type} (rest : Str → Prop) (line last : D → Str → Prop) : Str → List D → Prop
  | blanks (b : Str) : rest b → IsFile rest line last b []
  | blank (b : Str) (c : Char) (t : Str) (ds : List D) : IsBlank b → IsNewline c → IsFile rest line last t ds →
      IsFile rest line last (b ++ c :: t) ds
  | line (d : D) (s : Str) (c : Char) (t : Str) (ds : List D) : line d s → IsNewline c → IsFile rest line last t ds →
      IsFile rest line last (s ++ c :: t) (d :: ds)
  | last (d : D) (s : Str) : last d s → IsFile rest line last s [d]

/-- The first of several definitions of the designator. -/
def first {D : Type} (name : D → Str) (ds : List D) (k : Str) : Option D := ds.find? fun d => name d = k

/-! ## Airlines -/

structure Airline where
  designator : Str
  name : Str
  callsign : Str
  country : Str
  deriving DecidableEq, Repr

/-- `<designator> TAB <name> TAB <callsign> TAB <country>` -/
def AirlineText (country : Str → Str → Prop) (a : Airline) (t : Str) : Prop :=
  ∃ b0 b1 n c k, t = b0 ++ a.designator ++ b1 ++ ['\t'] ++ n ++ c ++ k ∧ Spaces b0 ∧ Spaces b1 ∧
    (a.designator.length = 3 ∧ ∀ c ∈ a.designator, isAsciiUpper c = true) ∧ Inner a.name n ∧ Inner a.callsign c ∧ country a.country k

/-! ## Airports -/

structure Airport where
  designator : Str
  name : Str
  country : Str
  deriving DecidableEq, Repr

variable [UnicodeTables]

/-- Letters and digits. -/
def IsDesignator (s : Str) : Prop := s ≠ [] ∧ ∀ c ∈ s, UnicodeTables.letter c = true ∨ isAsciiDigit c = true

/-- `<designator> TAB <name> TAB <country>` -/
def AirportText (country : Str → Str → Prop) (a : Airport) (t : Str) : Prop :=
  ∃ b0 b1 n k, t = b0 ++ a.designator ++ b1 ++ ['\t'] ++ n ++ k ∧ Spaces b0 ∧ Spaces b1 ∧
    IsDesignator a.designator ∧ Inner a.name n ∧ country a.country k

/-! ## Aircraft -/

/-- The letters for wake turbulence category, kind of aircraft, number of engines and kind of engine are kept as written. -/
structure Aircraft where
  designator : Str
  wtc : Char
  kind : Char
  engines : Char
  engine : Char
  manufacturer : Str
  name : Str
  deriving DecidableEq, Repr

/-- `<designator> TAB <category> <kind> <engines> <engine> TAB <manufacturer> TAB <name>` -/
def AircraftText (name : Str → Str → Prop) (a : Aircraft) (t : Str) : Prop :=
  ∃ b0 b1 b2 b3 b4 b5 b6 m n, t = b0 ++ a.designator ++ b1 ++ ['\t'] ++ b2 ++ [a.wtc] ++ b3 ++ [a.kind] ++ b4 ++ [a.engines] ++ b5 ++
      [a.engine] ++ b6 ++ ['\t'] ++ m ++ n ∧
    Spaces b0 ∧ Spaces b1 ∧ Spaces b2 ∧ Spaces b3 ∧ Spaces b4 ∧ Spaces b5 ∧ Spaces b6 ∧
    (IsDesignator a.designator ∧ a.designator.length ≤ 4) ∧ a.wtc ∈ c!"LMHJ-" ∧ a.kind ∈ c!"LSAGHT-" ∧
    (UnicodeTables.number a.engines = true ∨ a.engines ∈ c!"C-") ∧ a.engine ∈ c!"PTJER-" ∧ Inner a.manufacturer m ∧ name a.name n

/-- A line without tabs but at its end that is neither empty nor a comment, the continuation of a name; it defines nothing. -/
def IsMore (rest : Str → Prop) (t : Str) : Prop := ∃ b s tr, t = b ++ s ++ tr ∧ Spaces b ∧ IsField s ∧ s ≠ [] ∧ s.getLast? ≠ some ' ' ∧ rest tr ∧
  (∀ p q, s = p ++ q → q ≠ [] → ¬ StartsComment (q ++ tr))

/-- The lines of the aircraft table: definitions and continuations. -/
def AircraftLine (rest : Str → Prop) (name : Str → Str → Prop) : Option Aircraft → Str → Prop
  | some a, t => AircraftText name a t
  | none, t => IsMore rest t

/-! ## Airports of the navigation data -/

structure Navdata where
  designator : Str
  lat : Str
  lng : Str
  name : Str
  deriving DecidableEq, Repr

/-- `r` does not continue the number `s`: no digit follows and, if the number has no decimal point, no point with a digit. -/
def Stops (s r : Str) : Prop :=
  (∀ c, r.head? = some c → isAsciiDigit c = false) ∧ ('.' ∉ s → ∀ c t, r = '.' :: c :: t → isAsciiDigit c = false)

/-- `<designator> <latitude> <longitude> <name>`; the name extends to the end of the line.  The blanks between the parts can be left out
where the part in front of them ends anyway. -/
def NavdataText (a : Navdata) (t : Str) : Prop :=
  ∃ b0 b1 b2 b3, t = b0 ++ a.designator ++ b1 ++ a.lat ++ b2 ++ a.lng ++ b3 ++ a.name ∧ IsSpaces b0 ∧
    IsSpaces b1 ∧ (b1 = [] → ∀ c, a.lat.head? = some c → isAsciiDigit c = false) ∧ IsSpaces b2 ∧ Stops a.lat (b2 ++ a.lng) ∧
    IsSpaces b3 ∧ Stops a.lng (b3 ++ a.name) ∧ IsDesignator a.designator ∧ IsDecimal a.lat ∧ IsDecimal a.lng ∧
    a.name ≠ [] ∧ (∀ c ∈ a.name, ¬ IsNewline c) ∧ (∀ c, a.name.head? = some c → ¬ IsBlankChar c) ∧ ¬ StartsComment a.name

end Verif.Spec.Icao
