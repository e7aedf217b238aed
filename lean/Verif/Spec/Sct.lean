import Verif.Spec.Ese
import Verif.Spec.Colours
import Verif.Parse.Sct
/-!
# Specification for .sct files

What the sections of an .sct file look like and what a file with given sections means.  Only the result
types are taken from the model; neither the grammar nor the parser is used.
-/

namespace Verif.Spec.Sct
open Verif.Dms Verif.Parse
open Verif.Spec.Ese (DmsText Fits number)
open Verif.Colours (Colour)
open Verif.Parse.Sct (Loc Airport Airway Fix Navaid Runway Region Label Drawing Info)

/-! ## Texts -/

/-- Blanks inside a line: spaces, tabs and byte order marks. -/
def IsBlank (c : Char) : Prop := IsBlankChar c ∨ c = '﻿'

instance (c : Char) : Decidable (IsBlank c) := inferInstanceAs (Decidable (_ ∨ _))

def AreBlanks (s : Str) : Prop := ∀ c ∈ s, IsBlank c

/-- At least one blank. -/
def IsGap (s : Str) : Prop := s ≠ [] ∧ AreBlanks s

instance (s : Str) : Decidable (AreBlanks s) := inferInstanceAs (Decidable (∀ c ∈ s, _))
instance (s : Str) : Decidable (IsGap s) := inferInstanceAs (Decidable (_ ∧ _))

/-- Comments start with one of these. -/
abbrev marks : List Str := [c!";", c!"//"]

/-- A line end and further blanks, empty lines and comments. -/
abbrev IsBreak : Str → Prop := Spec.IsBreak marks

/-- What may follow on the line of an entry: blanks and possibly a comment. -/
def IsTail (s : Str) : Prop := ∃ sp cm, s = sp ++ cm ∧ AreBlanks sp ∧
  (cm = [] ∨ ∃ w ∈ marks, ∃ body, cm = w ++ body ∧ ∀ c ∈ body, ¬ IsNewline c)

/-- Capital letters and digits. -/
def IsDesignator (s : Str) : Prop := s ≠ [] ∧ ∀ c ∈ s, isAsciiUpper c = true ∨ isAsciiDigit c = true

/-- Letters, digits, hyphens and underscores. -/
def IsColourName (s : Str) : Prop := s ≠ [] ∧ ∀ c ∈ s, isAsciiAlphanumeric c = true ∨ c = '-' ∨ c = '_'

/-- Digits, possibly behind a plus sign. -/
def IsPosInteger (s : Str) : Prop := IsInteger s ∧ s.head? ≠ some '-'

/-- Two digits, possibly followed by one of `L`, `C`, `R`, `G`. -/
abbrev IsRunway : Str → Prop := Ese.IsRunway

/-- The name of a fix or an airway. -/
def IsFixName [UnicodeTables] (s : Str) : Prop :=
  s ≠ [] ∧ ∀ c ∈ s, UnicodeTables.letter c = true ∨ isAsciiDigit c = true ∨ c ∈ c!"!()/-_.[]"

/-- At least one blank, the first of which is a space or a tab. -/
def IsPlainGap (s : Str) : Prop := IsGap s ∧ ∀ c, s.head? = some c → IsBlankChar c

/-- A text that neither blanks nor a comment are at the start of. -/
def IsStart (s : Str) : Prop := (∀ c, s.head? = some c → ¬ IsBlank c) ∧ ∀ w ∈ marks, ¬ w <+: s

instance (s : Str) : Decidable (IsStart s) := by
  cases s with
  | nil => exact isTrue ⟨by simp, by simp⟩
  | cons c t =>
    refine decidable_of_iff (¬ IsBlank c ∧ ∀ w ∈ marks, ¬ w <+: c :: t) ⟨?_, ?_⟩
    · rintro ⟨h1, h2⟩
      exact ⟨fun d hd => by cases hd; exact h1, h2⟩
    · rintro ⟨h1, h2⟩
      exact ⟨h1 c rfl, h2⟩

/-! ## Coordinates -/

/-- `N048.21.14.000 E011.47.10.000` -/
structure CoordText where
  lat : DmsText
  gap : Str
  lng : DmsText

def CoordText.text (c : CoordText) : Str := c.lat.text ++ (c.gap ++ c.lng.text)
def CoordText.Valid (c : CoordText) : Prop := c.lat.Valid ∧ IsGap c.gap ∧ c.lng.Valid
def CoordText.Fits (c : CoordText) : Prop := c.lat.Fits ∧ c.lng.Fits
instance (c : CoordText) : Decidable c.Fits := inferInstanceAs (Decidable (_ ∧ _))

/-- The end of a line: a coordinate, or a fix, which is given twice. -/
inductive LocText
  | coord (c : CoordText)
  | fix (name gap : Str)

def LocText.text : LocText → Str
  | .coord c => c.text
  | .fix name gap => name ++ (gap ++ name)

def LocText.Valid : LocText → Prop
  | .coord c => c.Valid
  | .fix name gap => IsDesignator name ∧ IsGap gap

def LocText.Fits : LocText → Prop
  | .coord c => c.Fits
  | .fix .. => True

instance (l : LocText) : Decidable l.Fits := by cases l <;> unfold LocText.Fits <;> infer_instance

def LocText.isCoord : LocText → Bool
  | .coord _ => true
  | .fix .. => false

section
variable {F : Type} [DmsArith F] (num : Str → F)

def CoordText.point (c : CoordText) : Point F := { x := c.lng.value num, y := c.lat.value num }

def LocText.value : LocText → Loc F
  | .coord c => .coordinate (c.point num)
  | .fix name _ => .fix name
end

/-! ## Colours -/

/-- `#define name number` -/
structure ColourDef where
  gap : Str
  name : Str
  gap' : Str
  number : Str

def ColourDef.text (d : ColourDef) : Str := c!"#define" ++ (d.gap ++ (d.name ++ (d.gap' ++ d.number)))
def ColourDef.Valid (d : ColourDef) : Prop := IsGap d.gap ∧ IsColourName d.name ∧ IsGap d.gap' ∧ IsPosInteger d.number
def ColourDef.Fits (d : ColourDef) : Prop := Ese.Fits (2 ^ 31) d.number
instance (d : ColourDef) : Decidable d.Fits := inferInstanceAs (Decidable (Ese.Fits _ _))

/-- The colour: red, green and blue from the lowest byte; numbers of more than three bytes are no colours. -/
def ColourDef.colour (d : ColourDef) : Option Colour :=
  let n := Ese.number d.number
  if n < 2 ^ 24 then some ⟨Fin.ofNat 256 n, Fin.ofNat 256 (n / 256), Fin.ofNat 256 (n / 65536), 255⟩ else none

/-! ## Lines -/

/-- A line with the line ends in front of it and the blanks and the comment behind it. -/
structure Ln (A : Type) where
  brk : Str
  body : A
  tail : Str

def Ln.text {A : Type} (txt : A → Str) (l : Ln A) : Str := l.brk ++ (txt l.body ++ l.tail)
def Ln.Valid {A : Type} (valid : A → Prop) (l : Ln A) : Prop := IsBreak l.brk ∧ valid l.body ∧ IsTail l.tail

/-- An entry with the blanks and the comment behind it. -/
structure Tailed (A : Type) where
  body : A
  tail : Str

def Tailed.text {A : Type} (txt : A → Str) (l : Tailed A) : Str := txt l.body ++ l.tail
def Tailed.Valid {A : Type} (valid : A → Prop) (l : Tailed A) : Prop := valid l.body ∧ IsTail l.tail

/-! ## Entries of sections -/

/-- A VOR or NDB. -/
structure NavaidText where
  designator : Str
  gap : Str
  frequency : Str
  gap' : Str
  coord : CoordText

def NavaidText.text (n : NavaidText) : Str := n.designator ++ (n.gap ++ (n.frequency ++ (n.gap' ++ n.coord.text)))
def NavaidText.Valid (n : NavaidText) : Prop :=
  IsDesignator n.designator ∧ IsGap n.gap ∧ IsDecimal n.frequency ∧ IsGap n.gap' ∧ n.coord.Valid

structure FixText where
  designator : Str
  gap : Str
  coord : CoordText

def FixText.text (n : FixText) : Str := n.designator ++ (n.gap ++ n.coord.text)
def FixText.Valid [UnicodeTables] (n : FixText) : Prop :=
  IsFixName n.designator ∧ IsStart n.designator ∧ IsPlainGap n.gap ∧ n.coord.Valid

/-- The text starts with a fix. -/
def StartsFix [UnicodeTables] (s : Str) : Prop :=
  ∃ d g, ∃ c : CoordText, ∃ r, IsFixName d ∧ AreBlanks g ∧ c.Valid ∧ s = d ++ (g ++ (c.text ++ r))

/-- The text starts with a navaid. -/
def StartsNavaid (s : Str) : Prop :=
  ∃ d g f g', ∃ c : CoordText, ∃ r, IsDesignator d ∧ AreBlanks g ∧ IsDecimal f ∧ AreBlanks g' ∧ c.Valid ∧
    s = d ++ (g ++ (f ++ (g' ++ (c.text ++ r))))

/-- A line of a section of fixes or NDBs that is not understood: it does not start with an entry. -/
structure IsBroken (starts : Str → Prop) (s : Str) : Prop where
  line : ∀ c ∈ s, ¬ IsNewline c
  head : s ≠ [] ∧ s.head? ≠ some '[' ∧ s.head? ≠ some '#'
  start : IsStart s
  noEntry : ¬ starts s

structure AirportText where
  designator : Str
  gap : Str
  /-- a frequency or a point, with the blanks behind it -/
  frequency : Option (Str × Str)
  coord : CoordText
  gap' : Str
  ctr : Char

def frequencyText : Option (Str × Str) → Str
  | some (f, g) => f ++ g
  | none => []

def AirportText.text (a : AirportText) : Str :=
  a.designator ++ (a.gap ++ (frequencyText a.frequency ++ (a.coord.text ++ (a.gap' ++ [a.ctr]))))
def AirportText.Valid (a : AirportText) : Prop :=
  IsDesignator a.designator ∧ IsGap a.gap ∧ (∀ f g, a.frequency = some (f, g) → (IsDecimal f ∨ f = c!".") ∧ IsGap g) ∧
  a.coord.Valid ∧ IsGap a.gap' ∧ a.ctr ∈ c!"ABCDEFG"

/-- A runway; anything may follow on the line. -/
structure RunwayText where
  designator1 : Str
  gap1 : Str
  designator2 : Str
  gap2 : Str
  heading1 : Str
  gap3 : Str
  heading2 : Str
  gap4 : Str
  coord1 : CoordText
  gap5 : Str
  coord2 : CoordText
  gap6 : Str
  airport : Str
  rest : Str

def RunwayText.text (r : RunwayText) : Str :=
  r.designator1 ++ (r.gap1 ++ (r.designator2 ++ (r.gap2 ++ (r.heading1 ++ (r.gap3 ++ (r.heading2 ++ (r.gap4 ++
    (r.coord1.text ++ (r.gap5 ++ (r.coord2.text ++ (r.gap6 ++ (r.airport ++ r.rest))))))))))))
def RunwayText.Valid (r : RunwayText) : Prop :=
  IsRunway r.designator1 ∧ IsGap r.gap1 ∧ IsRunway r.designator2 ∧ IsGap r.gap2 ∧ IsPosInteger r.heading1 ∧ IsGap r.gap3 ∧
  IsPosInteger r.heading2 ∧ IsGap r.gap4 ∧ r.coord1.Valid ∧ IsGap r.gap5 ∧ r.coord2.Valid ∧ IsGap r.gap6 ∧
  IsDesignator r.airport ∧ (∀ c ∈ r.rest, ¬ IsNewline c) ∧
  ∀ c, r.rest.head? = some c → ¬ (isAsciiUpper c = true ∨ isAsciiDigit c = true)
def RunwayText.Fits (r : RunwayText) : Prop :=
  Ese.Fits (2 ^ 32) r.heading1 ∧ Ese.Fits (2 ^ 32) r.heading2 ∧ r.coord1.Fits ∧ r.coord2.Fits
instance (r : RunwayText) : Decidable r.Fits := inferInstanceAs (Decidable (_ ∧ _))

structure AirwayText where
  designator : Str
  gap : Str
  start : LocText
  gap' : Str
  stop : LocText

def AirwayText.text (a : AirwayText) : Str := a.designator ++ (a.gap ++ (a.start.text ++ (a.gap' ++ a.stop.text)))
def AirwayText.Valid [UnicodeTables] (a : AirwayText) : Prop :=
  IsFixName a.designator ∧ IsStart a.designator ∧ IsPlainGap a.gap ∧ a.start.Valid ∧ IsGap a.gap' ∧ a.stop.Valid
def AirwayText.Fits (a : AirwayText) : Prop := a.start.Fits ∧ a.stop.Fits
instance (a : AirwayText) : Decidable a.Fits := inferInstanceAs (Decidable (_ ∧ _))

/-- `REGIONNAME name`, on the next line the colour and the first point, and the other points on lines of their own. -/
structure RegionText where
  gap : Str
  name : Str
  blanks : Str
  brk : Str
  colour : Str
  gap' : Str
  first : CoordText
  tail : Str
  more : List (Ln CoordText)

def RegionText.text (r : RegionText) : Str :=
  c!"REGIONNAME" ++ (r.gap ++ (r.name ++ (r.blanks ++ (r.brk ++ (r.colour ++ (r.gap' ++ (r.first.text ++ (r.tail ++
    r.more.flatMap (Ln.text CoordText.text)))))))))
def RegionText.Valid (r : RegionText) : Prop :=
  IsGap r.gap ∧ (r.name ≠ [] ∧ IsStart r.name ∧ (∀ c ∈ r.name, ¬ IsNewline c ∧ c ≠ '\t' ∧ c ≠ '[') ∧
    ∀ c, r.name.getLast? = some c → ¬ IsBlankChar c) ∧
  (∀ c ∈ r.blanks, IsBlankChar c) ∧ IsBreak r.brk ∧ IsColourName r.colour ∧ IsGap r.gap' ∧ r.first.Valid ∧
  IsTail r.tail ∧ ∀ l ∈ r.more, l.Valid CoordText.Valid
def RegionText.points (r : RegionText) : List CoordText := r.first :: r.more.map (·.body)
def RegionText.Fits (r : RegionText) : Prop := ∀ c ∈ r.points, c.Fits
instance (r : RegionText) : Decidable r.Fits := inferInstanceAs (Decidable (∀ c ∈ r.points, _))

structure LabelText where
  name : Str
  gap : Str
  coord : CoordText
  gap' : Str
  colour : Str

def LabelText.text (l : LabelText) : Str := '"' :: (l.name ++ '"' :: (l.gap ++ (l.coord.text ++ (l.gap' ++ l.colour))))
def LabelText.Valid (l : LabelText) : Prop :=
  (IsStart l.name ∧ ∀ c ∈ l.name, ¬ IsNewline c ∧ c ≠ '"') ∧ AreBlanks l.gap ∧ l.coord.Valid ∧ IsGap l.gap' ∧ IsColourName l.colour

/-- A line of a drawing. -/
structure LineText where
  start : LocText
  gap : Str
  stop : LocText
  /-- the colour, with the blanks in front of it -/
  colour : Option (Str × Str)

def colourText : Option (Str × Str) → Str
  | some (g, c) => g ++ c
  | none => []

def LineText.text (l : LineText) : Str := l.start.text ++ (l.gap ++ (l.stop.text ++ colourText l.colour))
def LineText.Valid (l : LineText) : Prop :=
  l.start.Valid ∧ IsGap l.gap ∧ l.stop.Valid ∧ ∀ g c, l.colour = some (g, c) → IsGap g ∧ IsColourName c
def LineText.Fits (l : LineText) : Prop := l.start.Fits ∧ l.stop.Fits
instance (l : LineText) : Decidable l.Fits := inferInstanceAs (Decidable (_ ∧ _))

/-- Both ends are coordinates, or both are fixes. -/
def LineText.Uniform (l : LineText) : Prop := l.start.isCoord = l.stop.isCoord

/-- Blanks and a line between two coordinates or two fixes. -/
def IsFirstLine (s : Str) : Prop :=
  ∃ g, ∃ l : LineText, ∃ sp, IsGap g ∧ l.Valid ∧ l.Uniform ∧ (∀ d ∈ sp, IsBlankChar d) ∧ s = g ++ (l.text ++ sp)

/-- The text starts with two locations. -/
def StartsLine (s : Str) : Prop :=
  ∃ a b : LocText, ∃ g r, a.Valid ∧ AreBlanks g ∧ b.Valid ∧ s = a.text ++ (g ++ (b.text ++ r))

/-- A drawing (a SID, STAR, boundary or other geometry): its name and the first line, and more lines. -/
structure DrawingText where
  name : Str
  gap : Str
  first : LineText
  /-- spaces and tabs -/
  blanks : Str
  more : List (Ln LineText)

/-- The line with the name. -/
def DrawingText.firstLine (d : DrawingText) : Str := d.gap ++ (d.first.text ++ d.blanks)

def DrawingText.text (d : DrawingText) : Str := d.name ++ (d.firstLine ++ d.more.flatMap (Ln.text LineText.text))

structure DrawingText.Valid (d : DrawingText) : Prop where
  nonempty : d.name ≠ []
  chars : ∀ c ∈ d.name, ¬ IsNewline c ∧ c ≠ '[' ∧ c ≠ ']'
  start : IsStart d.name
  noColour : d.name.head? ≠ some '#'
  /-- the name is as long as possible -/
  whole : ∀ p q, d.name = p ++ q → p ≠ [] → q ≠ [] → ¬ IsFirstLine (q ++ d.firstLine)
  /-- the name is no line of the drawing in front of it -/
  noLine : ¬ StartsLine (d.name ++ d.firstLine)
  gap : IsGap d.gap
  first : d.first.Valid
  uniform : d.first.Uniform
  blanks : ∀ c ∈ d.blanks, IsBlankChar c
  more : ∀ l ∈ d.more, l.Valid LineText.Valid

def DrawingText.lines (d : DrawingText) : List LineText := d.first :: d.more.map (·.body)
def DrawingText.Fits (d : DrawingText) : Prop := ∀ l ∈ d.lines, l.Fits
instance (r : DrawingText) : Decidable r.Fits := inferInstanceAs (Decidable (∀ c ∈ r.lines, _))

/-! ## Sections -/

/-- A line of a section, with the line ends in front of it. -/
inductive Line (A : Type)
  | entry (brk : Str) (a : A)
  | colour (brk : Str) (d : ColourDef) (tail : Str)
  | broken (brk s : Str)

def Line.text {A : Type} (txt : A → Str) : Line A → Str
  | .entry brk a => brk ++ txt a
  | .colour brk d tail => brk ++ (d.text ++ tail)
  | .broken brk s => brk ++ s

def Line.Valid {A : Type} (valid : A → Prop) (broken : Str → Prop) : Line A → Prop
  | .entry brk a => IsBreak brk ∧ valid a
  | .colour brk d tail => IsBreak brk ∧ d.Valid ∧ IsTail tail
  | .broken brk s => IsBreak brk ∧ broken s

def Line.Fits {A : Type} (fits : A → Prop) : Line A → Prop
  | .entry _ a => fits a
  | .colour _ d _ => d.Fits
  | .broken .. => True

instance {A : Type} (fits : A → Prop) [DecidablePred fits] (l : Line A) : Decidable (l.Fits fits) := by
  cases l <;> unfold Line.Fits <;> infer_instance

def Line.entry? {A : Type} : Line A → Option A
  | .entry _ a => some a
  | _ => none

def Line.colour? {A : Type} : Line A → Option ColourDef
  | .colour _ d _ => some d
  | _ => none

/-- What follows the header of a section. -/
structure Block (A : Type) where
  tail : Str
  lines : List (Line A)

def Block.text {A : Type} (txt : A → Str) (b : Block A) : Str := b.tail ++ b.lines.flatMap (Line.text txt)

/-- What follows the header on its line.  A slash would be taken for a part of the name of a fix; a byte order mark
is excluded as the tables of letters are not known. -/
def IsHeaderTail (s : Str) : Prop := IsTail s ∧ s.head? ≠ some '/' ∧ s.head? ≠ some '\uFEFF'

def Block.Valid {A : Type} (valid : A → Prop) (broken : Str → Prop) (b : Block A) : Prop :=
  IsHeaderTail b.tail ∧ ∀ l ∈ b.lines, l.Valid valid broken
def Block.Fits {A : Type} (fits : A → Prop) (b : Block A) : Prop := ∀ l ∈ b.lines, l.Fits fits
instance {A : Type} (fits : A → Prop) [DecidablePred fits] (b : Block A) : Decidable (b.Fits fits) :=
  inferInstanceAs (Decidable (∀ l ∈ b.lines, _))

def Block.entries {A : Type} (b : Block A) : List A := b.lines.filterMap Line.entry?
def Block.colours {A : Type} (b : Block A) : List ColourDef := b.lines.filterMap Line.colour?

/-- The section `[INFO]`. -/
structure InfoText where
  tail : Str
  before : List (Ln ColourDef)
  brk : Str
  name : Str
  callsign : Ln Str
  airport : Ln Str
  lat : Ln DmsText
  lng : Ln DmsText
  milesLat : Ln Str
  milesLng : Ln Str
  variation : Ln Str
  scale : Option (Ln Str)
  after : List (Ln ColourDef)

def scaleText : Option (Ln Str) → Str
  | some l => l.text id
  | none => []

def InfoText.text (i : InfoText) : Str :=
  i.tail ++ (i.before.flatMap (Ln.text ColourDef.text) ++ (i.brk ++ (i.name ++ (i.callsign.text id ++ (i.airport.text id ++
    (i.lat.text DmsText.text ++ (i.lng.text DmsText.text ++ (i.milesLat.text id ++ (i.milesLng.text id ++ (i.variation.text id ++
    (scaleText i.scale ++ i.after.flatMap (Ln.text ColourDef.text))))))))))))

/-- The name extends to the end of its line. -/
def IsSectorName [UnicodeTables] (s : Str) : Prop :=
  s ≠ [] ∧ IsStart s ∧ s.head? ≠ some '#' ∧ ∀ c ∈ s, UnicodeTables.letter c = true ∨ c = '\t' ∨ (' ' ≤ c ∧ c ≤ '~')

def IsCallsign (s : Str) : Prop := s ≠ [] ∧ ∀ c ∈ s, isAsciiAlphanumeric c = true ∨ c = '_'

structure InfoText.Valid [UnicodeTables] (i : InfoText) : Prop where
  tail : IsHeaderTail i.tail
  before : ∀ l ∈ i.before, l.Valid ColourDef.Valid
  brk : IsBreak i.brk
  name : IsSectorName i.name
  callsign : i.callsign.Valid IsCallsign
  airport : i.airport.Valid IsDesignator
  lat : i.lat.Valid DmsText.Valid
  lng : i.lng.Valid DmsText.Valid
  milesLat : i.milesLat.Valid IsDecimal
  milesLng : i.milesLng.Valid IsDecimal
  variation : i.variation.Valid IsDecimal
  scale : ∀ l, i.scale = some l → l.Valid IsDecimal
  after : ∀ l ∈ i.after, l.Valid ColourDef.Valid

def InfoText.colours (i : InfoText) : List ColourDef := i.before.map (·.body) ++ i.after.map (·.body)
def InfoText.Fits (i : InfoText) : Prop := i.lat.body.Fits ∧ i.lng.body.Fits ∧ ∀ d ∈ i.colours, d.Fits

instance (i : InfoText) : Decidable i.Fits := inferInstanceAs (Decidable (_ ∧ _))

/-- The sections made of drawings. -/
inductive Kind
  | sid | star | artccHigh | artcc | artccLow | geo
  deriving DecidableEq

def Kind.header : Kind → Str
  | .sid => c!"[SID]"
  | .star => c!"[STAR]"
  | .artccHigh => c!"[ARTCC HIGH]"
  | .artcc => c!"[ARTCC]"
  | .artccLow => c!"[ARTCC LOW]"
  | .geo => c!"[GEO]"

inductive Sect
  | info (i : InfoText)
  | vors (b : Block (Tailed NavaidText))
  | ndbs (b : Block (Tailed NavaidText))
  | fixes (b : Block (Tailed FixText))
  | airports (b : Block (Tailed AirportText))
  | runways (b : Block RunwayText)
  | drawings (k : Kind) (b : Block DrawingText)
  | highAirways (b : Block (Tailed AirwayText))
  | lowAirways (b : Block (Tailed AirwayText))
  | regions (capitals : Bool) (b : Block RegionText)
  | labels (b : Block (Tailed LabelText))

def Sect.header : Sect → Str
  | .info _ => c!"[INFO]"
  | .vors _ => c!"[VOR]"
  | .ndbs _ => c!"[NDB]"
  | .fixes _ => c!"[FIXES]"
  | .airports _ => c!"[AIRPORT]"
  | .runways _ => c!"[RUNWAY]"
  | .drawings k _ => k.header
  | .highAirways _ => c!"[HIGH AIRWAY]"
  | .lowAirways _ => c!"[LOW AIRWAY]"
  | .regions capitals _ => if capitals then c!"[REGIONS]" else c!"[Regions]"
  | .labels _ => c!"[LABELS]"

def Sect.body : Sect → Str
  | .info i => i.text
  | .vors b => b.text (Tailed.text NavaidText.text)
  | .ndbs b => b.text (Tailed.text NavaidText.text)
  | .fixes b => b.text (Tailed.text FixText.text)
  | .airports b => b.text (Tailed.text AirportText.text)
  | .runways b => b.text RunwayText.text
  | .drawings _ b => b.text DrawingText.text
  | .highAirways b => b.text (Tailed.text AirwayText.text)
  | .lowAirways b => b.text (Tailed.text AirwayText.text)
  | .regions _ b => b.text RegionText.text
  | .labels b => b.text (Tailed.text LabelText.text)

def Sect.text (s : Sect) : Str := s.header ++ s.body

/-- No line is ignored. -/
def Never (_ : Str) : Prop := False

def Sect.Valid [UnicodeTables] : Sect → Prop
  | .info i => i.Valid
  | .vors b => b.Valid (Tailed.Valid NavaidText.Valid) Never
  | .ndbs b => b.Valid (Tailed.Valid NavaidText.Valid) (IsBroken StartsNavaid)
  | .fixes b => b.Valid (Tailed.Valid FixText.Valid) (IsBroken StartsFix)
  | .airports b => b.Valid (Tailed.Valid AirportText.Valid) Never
  | .runways b => b.Valid RunwayText.Valid Never
  | .drawings _ b => b.Valid DrawingText.Valid Never
  | .highAirways b => b.Valid (Tailed.Valid AirwayText.Valid) Never
  | .lowAirways b => b.Valid (Tailed.Valid AirwayText.Valid) Never
  | .regions _ b => b.Valid RegionText.Valid Never
  | .labels b => b.Valid (Tailed.Valid LabelText.Valid) Never

/-- All numbers are in range. -/
def Sect.Fits : Sect → Prop
  | .info i => i.Fits
  | .vors b => b.Fits (·.body.coord.Fits)
  | .ndbs b => b.Fits (·.body.coord.Fits)
  | .fixes b => b.Fits (·.body.coord.Fits)
  | .airports b => b.Fits (·.body.coord.Fits)
  | .runways b => b.Fits RunwayText.Fits
  | .drawings _ b => b.Fits DrawingText.Fits
  | .highAirways b => b.Fits (·.body.Fits)
  | .lowAirways b => b.Fits (·.body.Fits)
  | .regions _ b => b.Fits RegionText.Fits
  | .labels b => b.Fits (·.body.coord.Fits)

instance (s : Sect) : Decidable s.Fits := by
  cases s <;> unfold Sect.Fits <;> infer_instance

def Sect.colours : Sect → List ColourDef
  | .info i => i.colours
  | .vors b => b.colours
  | .ndbs b => b.colours
  | .fixes b => b.colours
  | .airports b => b.colours
  | .runways b => b.colours
  | .drawings _ b => b.colours
  | .highAirways b => b.colours
  | .lowAirways b => b.colours
  | .regions _ b => b.colours
  | .labels b => b.colours

/-- The section ends with the first line of a drawing, which has to be followed by a line end. -/
def Sect.NeedsEnd : Sect → Prop
  | .drawings _ b => ∃ brk d, b.lines.getLast? = some (.entry brk d) ∧ d.more = []
  | _ => False

/-! ## Files -/

structure File where
  /-- blanks and possibly a comment on the first line -/
  lead : Str
  /-- colours outside of sections -/
  outer : List (Ln ColourDef)
  /-- sections with the line ends in front of them -/
  sections : List (Str × Sect)
  last : Str

def File.text (f : File) : Str :=
  f.lead ++ (f.outer.flatMap (Ln.text ColourDef.text) ++ (f.sections.flatMap (fun s => s.1 ++ s.2.text) ++ f.last))

/-- The line ends in front of colours and sections. -/
def File.breaks (f : File) : List Str := f.outer.map (·.brk) ++ f.sections.map (·.1)

structure File.Valid [UnicodeTables] (f : File) : Prop where
  lead : IsTail f.lead
  /-- the file may start on the first line -/
  first : ∀ b, f.breaks.head? = some b → IsBreak b ∨ (b = [] ∧ AreBlanks f.lead)
  breaks : ∀ b ∈ f.breaks.tail, IsBreak b
  outer : ∀ l ∈ f.outer, l.body.Valid ∧ IsTail l.tail
  sections : ∀ s ∈ f.sections, s.2.Valid
  last : f.last = [] ∨ IsBreak f.last
  ended : f.last = [] → ∀ s, f.sections.getLast? = some s → ¬ s.2.NeedsEnd

/-- All definitions of colours in the order of the file. -/
def File.colours (f : File) : List ColourDef := f.outer.map (·.body) ++ f.sections.flatMap (·.2.colours)

/-- All numbers are in range. -/
def File.Fits (f : File) : Prop := (∀ l ∈ f.outer, l.body.Fits) ∧ ∀ s ∈ f.sections, s.2.Fits

instance (f : File) : Decidable f.Fits := inferInstanceAs (Decidable (_ ∧ _))

/-! ## What a file means -/

section
variable {F : Type} [DmsArith F] (num : Str → F)

def NavaidText.value (n : NavaidText) : Navaid F := { designator := n.designator, frequency := n.frequency, coordinate := n.coord.point num }
def FixText.value (n : FixText) : Fix F := { designator := n.designator, coordinate := n.coord.point num }
def AirportText.value (a : AirportText) : Airport F :=
  { designator := a.designator, coordinate := a.coord.point num, ctrAirspace := [a.ctr] }
def RunwayText.value (r : RunwayText) : Runway F where
  designators := (r.designator1, r.designator2)
  headings := (Ese.number r.heading1, Ese.number r.heading2)
  location := (r.coord1.point num, r.coord2.point num)
  aerodrome := r.airport
def AirwayText.value (a : AirwayText) : Airway F := { designator := a.designator, start := a.start.value num, stop := a.stop.value num }
def RegionText.value (r : RegionText) : Region F :=
  { name := r.name, colourName := r.colour, polygon := r.points.map (·.point num) }
def LabelText.value (l : LabelText) : Label F :=
  { name := l.name, coordinate := .coordinate (l.coord.point num), colourName := l.colour }
def LineText.value (l : LineText) : Lines.ColouredLine (Loc F) :=
  { start := l.start.value num, stop := l.stop.value num, colour := l.colour.map (·.2) }

/-- The merging of the lines is the subject of property C33. -/
def DrawingText.value [DecidableEq F] (d : DrawingText) : Drawing F :=
  { name := d.name, lineGroups := Lines.lineGroups (d.lines.map (·.value num)) }

def InfoText.value (i : InfoText) : Info F where
  name := i.name
  defaultCallsign := i.callsign.body
  defaultAirport := i.airport.body
  centrePoint := { x := i.lng.body.value num, y := i.lat.body.value num }
  milesPerDegLat := num i.milesLat.body
  milesPerDegLng := num i.milesLng.body
  magneticVariation := num i.variation.body
  scaleFactor := (i.scale.map fun l => num l.body).getD (num c!"0.0")

/-- The information of a file without section `[INFO]`. -/
def noInfo : Info F where
  name := []
  defaultCallsign := []
  defaultAirport := []
  centrePoint := { x := num c!"0.0", y := num c!"0.0" }
  milesPerDegLat := num c!"0.0"
  milesPerDegLng := num c!"0.0"
  magneticVariation := num c!"0.0"
  scaleFactor := num c!"0.0"

/-- The last section of a kind. -/
def File.lastOf {A : Type} (f : File) (p : Sect → Option A) : Option A := (f.sections.filterMap fun s => p s.2).getLast?

/-- The entries of the last section of a kind. -/
def File.entriesOf {A : Type} (f : File) (p : Sect → Option (Block A)) : List A := ((f.lastOf p).map Block.entries).getD []

/-- What the file means: of several sections of a kind the last one counts. -/
def File.value [DecidableEq F] (f : File) (colours : Map Str Colour) : Parse.Sct.Sct F where
  info := ((f.lastOf fun | .info i => some i | _ => none).map (·.value num)).getD (noInfo num)
  colours := colours
  airports := (f.entriesOf fun | .airports b => some b | _ => none).map (·.body.value num)
  fixes := (f.entriesOf fun | .fixes b => some b | _ => none).map (·.body.value num)
  ndbs := (f.entriesOf fun | .ndbs b => some b | _ => none).map (·.body.value num)
  vors := (f.entriesOf fun | .vors b => some b | _ => none).map (·.body.value num)
  runways := (f.entriesOf fun | .runways b => some b | _ => none).map (·.value num)
  sids := (f.entriesOf fun | .drawings .sid b => some b | _ => none).map (·.value num)
  stars := (f.entriesOf fun | .drawings .star b => some b | _ => none).map (·.value num)
  artccsHigh := (f.entriesOf fun | .drawings .artccHigh b => some b | _ => none).map (·.value num)
  artccs := (f.entriesOf fun | .drawings .artcc b => some b | _ => none).map (·.value num)
  artccsLow := (f.entriesOf fun | .drawings .artccLow b => some b | _ => none).map (·.value num)
  highAirways := (f.entriesOf fun | .highAirways b => some b | _ => none).map (·.body.value num)
  lowAirways := (f.entriesOf fun | .lowAirways b => some b | _ => none).map (·.body.value num)
  regions := (f.entriesOf fun | .regions _ b => some b | _ => none).map (·.value num)
  labels := (f.entriesOf fun | .labels b => some b | _ => none).map (·.body.value num)
  geo := (f.entriesOf fun | .drawings .geo b => some b | _ => none).map (·.value num)
end

/-- The colour of a name: the last definition of it that is a colour counts, wherever in the file it is. -/
def File.colourOf (f : File) (name : Str) : Option Colour :=
  (f.colours.filterMap fun d => if d.name = name then d.colour else none).getLast?

/-! ## Files without comments -/

def Ln.bare {A : Type} (l : Ln A) : Ln A := { l with brk := c!"\n", tail := [] }
def Tailed.bare {A : Type} (l : Tailed A) : Tailed A := { l with tail := [] }
def RegionText.bare (r : RegionText) : RegionText := { r with brk := c!"\n", tail := [], more := r.more.map Ln.bare }
def DrawingText.bare (d : DrawingText) : DrawingText := { d with more := d.more.map Ln.bare }

def Line.bare {A : Type} (f : A → A) : Line A → Line A
  | .entry _ a => .entry c!"\n" (f a)
  | .colour _ d _ => .colour c!"\n" d []
  | .broken _ s => .broken c!"\n" s

def Block.bare {A : Type} (f : A → A) (b : Block A) : Block A := ⟨[], b.lines.map (Line.bare f)⟩

def InfoText.bare (i : InfoText) : InfoText where
  tail := []
  before := i.before.map Ln.bare
  brk := c!"\n"
  name := i.name
  callsign := i.callsign.bare
  airport := i.airport.bare
  lat := i.lat.bare
  lng := i.lng.bare
  milesLat := i.milesLat.bare
  milesLng := i.milesLng.bare
  variation := i.variation.bare
  scale := i.scale.map Ln.bare
  after := i.after.map Ln.bare

def Sect.bare : Sect → Sect
  | .info i => .info i.bare
  | .vors b => .vors (b.bare Tailed.bare)
  | .ndbs b => .ndbs (b.bare Tailed.bare)
  | .fixes b => .fixes (b.bare Tailed.bare)
  | .airports b => .airports (b.bare Tailed.bare)
  | .runways b => .runways (b.bare id)
  | .drawings k b => .drawings k (b.bare DrawingText.bare)
  | .highAirways b => .highAirways (b.bare Tailed.bare)
  | .lowAirways b => .lowAirways (b.bare Tailed.bare)
  | .regions c b => .regions c (b.bare RegionText.bare)
  | .labels b => .labels (b.bare Tailed.bare)

/-- The file without comments and empty lines. -/
def File.bare (f : File) : File := ⟨[], f.outer.map Ln.bare, f.sections.map fun s => (c!"\n", s.2.bare), c!"\n"⟩

/-! ## Harmful texts -/

/-- A part of a file that makes the parser panic. -/
inductive Harmful : Str → Prop
  /-- too many degrees or minutes -/
  | angle (d : DmsText) : d.Valid → ¬ d.Fits → Harmful d.text
  /-- the headings of a runway -/
  | heading (r1 sp1 r2 sp2 h1 sp3 h2 : Str) : IsRunway r1 → AreBlanks sp1 → IsRunway r2 → AreBlanks sp2 → IsPosInteger h1 →
      AreBlanks sp3 → IsPosInteger h2 → ¬ (Fits (2 ^ 32) h1 ∧ Fits (2 ^ 32) h2) →
      Harmful (r1 ++ (sp1 ++ (r2 ++ (sp2 ++ (h1 ++ (sp3 ++ h2))))))
  /-- the number of a colour -/
  | colour (sp name sp' n : Str) : AreBlanks sp → IsColourName name → AreBlanks sp' → IsPosInteger n → ¬ Fits (2 ^ 31) n →
      Harmful (c!"#define" ++ (sp ++ (name ++ (sp' ++ n))))

end Verif.Spec.Sct
