import Verif.Spec.Filler
import Verif.Base.Num
import Verif.Base.Unicode
import Verif.Model.Dms
import Verif.Parse.Ese
/-!
# Specification for .ese files

What the sections of an .ese file look like and what a file with given sections means.  Only the result
types (`Position`, `Sector`, `Constraint`, `SidStar`, `DegMinSec`, `Point`) are taken from the model;
neither the grammar nor the parser is used.
-/

namespace Verif.Spec.Ese
open Verif.Dms Verif.Parse
open Verif.EseAirspace (Sector)
open Verif.Constraints (Constraint)
open Verif.Locations (SidStar)
open Verif.Parse.Ese (Position)

/-! ## Texts -/

/-- A line end and further blanks, empty lines and `;` comments. -/
abbrev IsBreak : Str → Prop := Spec.IsBreak [c!";"]

/-- A field in front of a colon. -/
def IsField (s : Str) : Prop :=
  (∀ c ∈ s, c ≠ ':' ∧ ¬ IsNewline c) ∧ ∀ c, s.head? = some c → ¬ IsBlankChar c ∧ c ≠ ';'

/-- A field at the end of a line. -/
def IsLastField (s : Str) : Prop := IsField s ∧ ∀ c, s.getLast? = some c → ¬ IsBlankChar c

/-- Capital letters, digits and hyphens. -/
def IsDesignator (s : Str) : Prop := s ≠ [] ∧ ∀ c ∈ s, isAsciiUpper c = true ∨ isAsciiDigit c = true ∨ c = '-'

/-- Two digits, possibly followed by one of `L`, `C`, `R`, `G`. -/
def IsRunway (s : Str) : Prop :=
  ∃ x y t, s = x :: y :: t ∧ isAsciiDigit x = true ∧ isAsciiDigit y = true ∧ (t = [] ∨ ∃ c ∈ c!"LCRG", t = [c])

/-- A centre of a circle. -/
def IsFixName [UnicodeTables] (s : Str) : Prop :=
  s ≠ [] ∧ ∀ c ∈ s, UnicodeTables.letter c = true ∨ isAsciiDigit c = true ∨ c ∈ c!"()/-_."

/-- Something or `*`. -/
def wild : Option Str → Str
  | none => c!"*"
  | some s => s

/-- A field or `*`. -/
def IsWildField : Option Str → Prop
  | none => True
  | some s => IsField s ∧ s.head? ≠ some '*'

/-- A designator or `*`. -/
def IsWildDesignator : Option Str → Prop
  | none => True
  | some s => IsDesignator s

/-- An integer or `*`. -/
def IsWildInteger : Option Str → Prop
  | none => True
  | some s => IsInteger s

/-! ## Numbers -/

/-- The number can be held in an unsigned integer type with `bound` values. -/
def Fits (bound : Nat) (s : Str) : Prop := s.head? ≠ some '-' ∧ intValue s < bound

instance (bound : Nat) (s : Str) : Decidable (Fits bound s) := inferInstanceAs (Decidable (_ ∧ _))

def FitsWild (bound : Nat) : Option Str → Prop
  | none => True
  | some s => Fits bound s

instance (bound : Nat) (s : Option Str) : Decidable (FitsWild bound s) := by
  cases s <;> unfold FitsWild <;> infer_instance

/-- The value of an unsigned integer. -/
def number (s : Str) : Nat := (intValue s).toNat

/-! ## Coordinates -/

/-- `N048.21.14.000` -/
structure DmsText where
  hemi : Char
  deg : Str
  min : Str
  sec : Str

def DmsText.text (d : DmsText) : Str := d.hemi :: (d.deg ++ '.' :: (d.min ++ '.' :: d.sec))

def DmsText.Valid (d : DmsText) : Prop :=
  d.hemi ∈ c!"NSWEnswe" ∧ IsDigits d.deg ∧ IsDigits d.min ∧ IsDecimal d.sec

/-- Degrees are `u16`, minutes `u8`. -/
def DmsText.Fits (d : DmsText) : Prop := digitsValue d.deg < 2 ^ 16 ∧ digitsValue d.min < 2 ^ 8

instance (d : DmsText) : Decidable d.Fits := inferInstanceAs (Decidable (_ ∧ _))

/-- South and west are negative. -/
def DmsText.sign (d : DmsText) : Sign := if d.hemi ∈ c!"SWsw" then .neg else .pos

/-- A latitude and a longitude. -/
structure Coord where
  lat : DmsText
  lng : DmsText

def Coord.text (c : Coord) : Str := c.lat.text ++ ':' :: c.lng.text
def Coord.Valid (c : Coord) : Prop := c.lat.Valid ∧ c.lng.Valid
def Coord.Fits (c : Coord) : Prop := c.lat.Fits ∧ c.lng.Fits
instance (c : Coord) : Decidable c.Fits := inferInstanceAs (Decidable (_ ∧ _))

section
variable {F : Type} [DmsArith F] (num : Str → F)

/-- The angle; `num` is the value of the seconds. -/
def DmsText.value (d : DmsText) : F := DmsArith.value ⟨d.sign, digitsValue d.deg, digitsValue d.min, num d.sec⟩

def Coord.point (c : Coord) : Point F := { x := c.lng.value num, y := c.lat.value num }
end

/-! ## Positions -/

/-- A line of the section `[POSITIONS]`. -/
structure PositionLine where
  name : Str
  callsign : Str
  frequency : Str
  identifier : Str
  middle : Str
  prefix_ : Str
  suffix : Str
  unused1 : Str
  unused2 : Str
  /-- first and last code of the squawk range -/
  squawk : Option (Str × Str)
  points : List Coord

def PositionLine.text (p : PositionLine) : Str :=
  p.name ++ ':' :: (p.callsign ++ ':' :: (p.frequency ++ ':' :: (p.identifier ++ ':' :: (p.middle ++ ':' ::
    (p.prefix_ ++ ':' :: (p.suffix ++ ':' :: (p.unused1 ++ ':' :: (p.unused2 ++ ':' ::
      ((match p.squawk with | some (a, b) => a ++ ':' :: b | none => c!":") ++
        p.points.flatMap fun c => ':' :: c.text)))))))))

def PositionLine.Valid (p : PositionLine) : Prop :=
  IsField p.name ∧ IsField p.callsign ∧ IsDecimal p.frequency ∧ IsField p.identifier ∧ IsField p.middle ∧
  IsField p.prefix_ ∧ IsField p.suffix ∧ IsField p.unused1 ∧ IsField p.unused2 ∧
  (∀ c ∈ p.points, c.Valid) ∧
  match p.squawk with
  | some (a, b) => IsInteger a ∧ IsInteger b ∧ p.points.length ≤ 4
  | none => p.points.length ≤ 3

/-- The visibility points the parser keeps: without a squawk range the first one is lost (see C56). -/
def PositionLine.kept (p : PositionLine) : List Coord := if p.squawk.isSome then p.points else p.points.drop 1

def PositionLine.Fits (p : PositionLine) : Prop :=
  (∀ c ∈ p.kept, c.Fits) ∧
  match p.squawk with
  | some (a, b) => Ese.Fits (2 ^ 16) a ∧ Ese.Fits (2 ^ 16) b
  | none => True

instance (p : PositionLine) : Decidable p.Fits := by
  unfold PositionLine.Fits
  cases p.squawk <;> exact inferInstanceAs (Decidable (_ ∧ _))

def PositionLine.value {F : Type} [DmsArith F] (num : Str → F) (p : PositionLine) : Position F where
  name := p.name
  callsign := p.callsign
  frequency := p.frequency
  identifier := p.identifier
  prefix_ := p.prefix_
  middle := p.middle
  suffix := p.suffix
  squawkRange := p.squawk.map fun s => (number s.1, number s.2)
  visibilityPoints := p.kept.map (Coord.point num)

/-! ## Airspace -/

/-- `:a:b:c` -/
def fields (l : List Str) : Str := l.flatMap fun f => ':' :: f

/-- Fields up to the end of the line. -/
def AreFields (l : List Str) : Prop := (∀ f ∈ l, IsField f) ∧ ∀ f, l.getLast? = some f → IsLastField f

/-- A line below `SECTORLINE`. -/
inductive BorderLine
  | display (a b c : Str)
  | coord (c : Coord)

def displayText (a b c : Str) : Str := c!"DISPLAY" ++ fields [a, b, c]

def BorderLine.text : BorderLine → Str
  | .display a b c => displayText a b c
  | .coord c => c!"COORD:" ++ c.text

def BorderLine.Valid : BorderLine → Prop
  | .display a b c => AreFields [a, b, c]
  | .coord c => c.Valid

def BorderLine.coord? : BorderLine → Option Coord
  | .display .. => none
  | .coord c => some c

/-- A line below `SECTOR`. -/
inductive SectorLine
  | owner (l : List Str)
  | altOwner (name : Str) (l : List Str)
  | border (l : List Str)
  | guest (sector : Str) (adep ades : Option Str)
  | active (icao runway : Str)
  | depApt (l : List Str)
  | arrApt (l : List Str)

def SectorLine.text : SectorLine → Str
  | .owner l => c!"OWNER" ++ fields l
  | .altOwner name l => c!"ALTOWNER:" ++ (name ++ fields l)
  | .border l => c!"BORDER" ++ fields l
  | .guest sector adep ades => c!"GUEST:" ++ (sector ++ ':' :: (wild adep ++ ':' :: wild ades))
  | .active icao runway => c!"ACTIVE:" ++ (icao ++ ':' :: runway)
  | .depApt l => c!"DEPAPT" ++ fields l
  | .arrApt l => c!"ARRAPT" ++ fields l

def SectorLine.Valid : SectorLine → Prop
  | .owner l => l ≠ [] ∧ AreFields l
  | .altOwner name l => IsField name ∧ l ≠ [] ∧ AreFields l
  | .border l => l ≠ [] ∧ AreFields l
  | .guest sector adep ades => IsField sector ∧ IsWildDesignator adep ∧ IsWildDesignator ades
  | .active icao runway => IsDesignator icao ∧ IsDesignator runway
  | .depApt l => l ≠ [] ∧ ∀ a ∈ l, IsDesignator a
  | .arrApt l => l ≠ [] ∧ ∀ a ∈ l, IsDesignator a

/-- A `COPX` or `FIR_COPX` line. -/
structure CopLine where
  fir : Bool
  previousFix : Option Str
  departureRunway : Option Str
  fix : Option Str
  subsequentFix : Option Str
  arrivalRunway : Option Str
  exitSector : Str
  entrySector : Str
  climb : Option Str
  descent : Option Str
  description : Str

def CopLine.text (p : CopLine) : Str :=
  (if p.fir then c!"FIR_COPX:" else c!"COPX:") ++ (wild p.previousFix ++ ':' :: (wild p.departureRunway ++ ':' ::
    (wild p.fix ++ ':' :: (wild p.subsequentFix ++ ':' :: (wild p.arrivalRunway ++ ':' :: (p.exitSector ++ ':' ::
      (p.entrySector ++ ':' :: (wild p.climb ++ ':' :: (wild p.descent ++ ':' :: p.description)))))))))

def CopLine.Valid (p : CopLine) : Prop :=
  IsWildField p.previousFix ∧ IsWildDesignator p.departureRunway ∧ IsWildField p.fix ∧
  IsWildField p.subsequentFix ∧ IsWildDesignator p.arrivalRunway ∧ IsField p.exitSector ∧
  IsField p.entrySector ∧ IsWildInteger p.climb ∧ IsWildInteger p.descent ∧ IsLastField p.description

def CopLine.value (p : CopLine) : Constraint where
  previousFix := p.previousFix
  departureRunway := p.departureRunway
  subsequentFix := p.subsequentFix
  arrivalRunway := p.arrivalRunway
  fix := p.fix
  exitSector := p.exitSector
  entrySector := p.entrySector
  climbLevel := p.climb.map number
  descentLevel := p.descent.map number
  description := p.description

/-- A statement of the section `[AIRSPACE]`.  Every line comes with the line end and the filler behind it. -/
inductive Item
  | sectorLine (id brk : Str) (lines : List (BorderLine × Str))
  | circle (id centre radius brk : Str) (displays : List ((Str × Str × Str) × Str))
  | display (a b c d brk : Str)
  | sector (id bottom top brk : Str) (lines : List (SectorLine × Str))
  | cop (c : CopLine) (brk : Str)
  | msaw (id altitude brk : Str) (points : List (Coord × Str))

def Item.text : Item → Str
  | .sectorLine id brk lines => c!"SECTORLINE:" ++ (id ++ (brk ++ lines.flatMap fun l => l.1.text ++ l.2))
  | .circle id centre radius brk displays => c!"CIRCLE_SECTORLINE:" ++ (id ++ ':' :: (centre ++ ':' :: (radius ++
      (brk ++ displays.flatMap fun l => displayText l.1.1 l.1.2.1 l.1.2.2 ++ l.2))))
  | .display a b c d brk => c!"DISPLAY_SECTORLINE" ++ (fields [a, b, c, d] ++ brk)
  | .sector id bottom top brk lines => c!"SECTOR:" ++ (id ++ ':' :: (bottom ++ ':' :: (top ++ (brk ++
      lines.flatMap fun l => l.1.text ++ l.2))))
  | .cop c brk => c.text ++ brk
  | .msaw id altitude brk points => c!"MSAW:" ++ (id ++ ':' :: (altitude ++ (brk ++
      points.flatMap fun p => (c!"COORD:" ++ p.1.text) ++ p.2)))

def Item.Valid [UnicodeTables] : Item → Prop
  | .sectorLine id brk lines => IsLastField id ∧ IsBreak brk ∧ ∀ l ∈ lines, l.1.Valid ∧ IsBreak l.2
  | .circle id centre radius brk displays => IsField id ∧ IsFixName centre ∧ IsDecimal radius ∧ IsBreak brk ∧
      ∀ l ∈ displays, AreFields [l.1.1, l.1.2.1, l.1.2.2] ∧ IsBreak l.2
  | .display a b c d brk => AreFields [a, b, c, d] ∧ IsBreak brk
  | .sector id bottom top brk lines => IsField id ∧ IsInteger bottom ∧ IsInteger top ∧ IsBreak brk ∧
      ∀ l ∈ lines, l.1.Valid ∧ IsBreak l.2
  | .cop c brk => c.Valid ∧ IsBreak brk
  | .msaw id altitude brk points => IsField id ∧ IsInteger altitude ∧ IsBreak brk ∧ points ≠ [] ∧
      ∀ p ∈ points, p.1.Valid ∧ IsBreak p.2

/-- All numbers fit their types. -/
def Item.Fits : Item → Prop
  | .sectorLine _ _ lines => ∀ c ∈ lines.filterMap (·.1.coord?), c.Fits
  | .circle .. => True
  | .display .. => True
  | .sector _ bottom top _ _ => Ese.Fits (2 ^ 32) bottom ∧ Ese.Fits (2 ^ 32) top
  | .cop c _ => FitsWild (2 ^ 32) c.climb ∧ FitsWild (2 ^ 32) c.descent
  | .msaw _ altitude _ points => Ese.Fits (2 ^ 32) altitude ∧ ∀ p ∈ points, p.1.Fits

instance (i : Item) : Decidable i.Fits := by
  cases i <;> unfold Item.Fits <;> infer_instance

section
variable {F : Type} [DmsArith F] (num : Str → F)

/-- The sector of a statement with the id `id`, with the names of its border lines: the first line of every
kind counts, and all runways. -/
def Item.sectorNamed (id : Str) : Item → Option (List Str × Sector (List (Point F)))
  | .sector i bottom top _ lines =>
    if i = id then
      let ls := lines.map (·.1)
      some ((ls.findSome? fun | .border l => some l | _ => none).getD [],
        { id := i
          bottom := number bottom
          top := number top
          border := []
          ownerPriority := (ls.findSome? fun | .owner l => some l | _ => none).getD []
          departureAirports := (ls.findSome? fun | .depApt l => some l | _ => none).getD []
          arrivalAirports := (ls.findSome? fun | .arrApt l => some l | _ => none).getD []
          runwayFilter := ls.filterMap fun | .active icao runway => some (icao, runway) | _ => none })
    else none
  | _ => none

/-- The points of a sector line with the id `id`. -/
def Item.lineNamed (id : Str) : Item → Option (List (Point F))
  | .sectorLine i _ lines => if i = id then some ((lines.filterMap (·.1.coord?)).map (Coord.point num)) else none
  | _ => none

def Item.constraint? : Item → Option Constraint
  | .cop c _ => some c.value
  | _ => none

/-- The sector with the id `id` in a section: the last one defined, its border being the lines with the names
it lists, each the last one defined with its name; names without a line are left out. -/
def sectorOf (items : List Item) (id : Str) : Option (Sector (List (Point F))) :=
  ((items.filterMap (Item.sectorNamed (F := F) id)).getLast?).map fun d =>
    { d.2 with border := d.1.filterMap fun name => (items.filterMap (Item.lineNamed num name)).getLast? }
end

/-! ## SIDs and STARs -/

/-- A line of the section `[SIDSSTARS]`. -/
structure ProcedureLine where
  star : Bool
  airport : Str
  runway : Option Str
  name : Str
  waypoints : List Str

/-- Texts with a blank between them. -/
def spaced : List Str → Str
  | [] => []
  | w :: l => w ++ l.flatMap fun v => ' ' :: v

def ProcedureLine.text (p : ProcedureLine) : Str :=
  (if p.star then c!"STAR:" else c!"SID:") ++ (p.airport ++ ':' :: (p.runway.getD [] ++ ':' :: (p.name ++ ':' ::
    spaced p.waypoints)))

def ProcedureLine.Valid (p : ProcedureLine) : Prop :=
  IsDesignator p.airport ∧ (∀ r, p.runway = some r → IsRunway r) ∧ IsField p.name ∧ ∀ w ∈ p.waypoints, IsDesignator w

def ProcedureLine.value (p : ProcedureLine) : SidStar :=
  if p.star then .star ⟨p.name, p.airport, p.runway, p.waypoints⟩ else .sid ⟨p.name, p.airport, p.runway, p.waypoints⟩

/-! ## Files -/

/-- A section. -/
inductive Sect
  | positions (brk : Str) (l : List (PositionLine × Str))
  | airspace (brk : Str) (l : List Item)
  | sidsStars (brk : Str) (l : List (ProcedureLine × Str))
  | other (name brk : Str) (l : List (Str × Str))

def Sect.text : Sect → Str
  | .positions brk l => c!"[POSITIONS]" ++ (brk ++ l.flatMap fun p => p.1.text ++ p.2)
  | .airspace brk l => c!"[AIRSPACE]" ++ (brk ++ l.flatMap Item.text)
  | .sidsStars brk l => c!"[SIDSSTARS]" ++ (brk ++ l.flatMap fun p => p.1.text ++ p.2)
  | .other name brk l => '[' :: (name ++ ']' :: (brk ++ l.flatMap fun p => p.1 ++ p.2))

/-- A line of a section that is not read. -/
def IsOtherLine (s : Str) : Prop :=
  (∀ c ∈ s, ¬ IsNewline c) ∧ (∃ c t, s = c :: t ∧ ¬ IsBlankChar c ∧ c ≠ ';' ∧ c ≠ '[') ∧
    ∀ c, s.getLast? = some c → ¬ IsBlankChar c

/-- The name of a section that is not read. -/
def IsOtherName (s : Str) : Prop :=
  (∃ c t, s = c :: t ∧ isAsciiUpper c = true ∧ ∀ d ∈ t, isAsciiUpper d = true ∨ IsBlankChar d) ∧
    s ≠ c!"POSITIONS" ∧ s ≠ c!"AIRSPACE" ∧ s ≠ c!"SIDSSTARS"

def Sect.Valid [UnicodeTables] : Sect → Prop
  | .positions brk l => IsBreak brk ∧ ∀ p ∈ l, p.1.Valid ∧ IsBreak p.2
  | .airspace brk l => IsBreak brk ∧ ∀ i ∈ l, i.Valid
  | .sidsStars brk l => IsBreak brk ∧ ∀ p ∈ l, p.1.Valid ∧ IsBreak p.2
  | .other name brk l => IsOtherName name ∧ IsBreak brk ∧ ∀ p ∈ l, IsOtherLine p.1 ∧ IsBreak p.2

/-- All numbers of a section fit their types. -/
def Sect.Fits : Sect → Prop
  | .positions _ l => ∀ p ∈ l, p.1.Fits
  | .airspace _ l => ∀ i ∈ l, i.Fits
  | _ => True

instance (s : Sect) : Decidable s.Fits := by
  cases s <;> unfold Sect.Fits <;> infer_instance

/-- A file: blank lines and comments, and then the sections. -/
structure File where
  lead : Str
  sections : List Sect

def File.text (f : File) : Str := f.lead ++ f.sections.flatMap Sect.text

def File.Valid [UnicodeTables] (f : File) : Prop :=
  IsFiller [c!";"] f.lead ∧ f.sections ≠ [] ∧ ∀ s ∈ f.sections, s.Valid

/-- All numbers of the file fit their types. -/
def File.Fits (f : File) : Prop := ∀ s ∈ f.sections, s.Fits

instance (f : File) : Decidable f.Fits := inferInstanceAs (Decidable (∀ s ∈ f.sections, s.Fits))

/-- The last `[POSITIONS]` section. -/
def File.positions (f : File) : List PositionLine :=
  ((f.sections.filterMap fun | .positions _ l => some (l.map (·.1)) | _ => none).getLast?).getD []

/-- The last `[AIRSPACE]` section. -/
def File.items (f : File) : List Item :=
  ((f.sections.filterMap fun | .airspace _ l => some l | _ => none).getLast?).getD []

/-- The last `[SIDSSTARS]` section. -/
def File.procedures (f : File) : List ProcedureLine :=
  ((f.sections.filterMap fun | .sidsStars _ l => some (l.map (·.1)) | _ => none).getLast?).getD []

/-! ## What makes the parser panic -/

def AreBlanks (s : Str) : Prop := ∀ c ∈ s, IsBlankChar c

/-- A latitude or longitude: degrees, minutes and seconds, or a decimal number. -/
def IsCoordPart (s : Str) : Prop := IsDecimal s ∨ ∃ d : DmsText, d.Valid ∧ s = d.text

/-- A latitude or longitude that is no value: a decimal number, or degrees or minutes that do not fit into 8 bits. -/
def IsBadPart (s : Str) : Prop := IsDecimal s ∨ ∃ d : DmsText, d.Valid ∧ ¬ d.Fits ∧ s = d.text

/-- A coordinate with a part that is no value. -/
def IsBadCoordinate (s : Str) : Prop :=
  ∃ a sp sp' b, AreBlanks sp ∧ AreBlanks sp' ∧ IsCoordPart a ∧ IsCoordPart b ∧ (IsBadPart a ∨ IsBadPart b) ∧
    s = a ++ (sp ++ ':' :: (sp' ++ b))

/-- A part of a file that makes the parser panic. -/
inductive Harmful : Str → Prop
  /-- a coordinate of a sector line or a minimum safe altitude -/
  | coord (sp s : Str) : AreBlanks sp → IsBadCoordinate s → Harmful (c!"COORD:" ++ (sp ++ s))
  /-- a coordinate behind nine fields of a line -/
  | point (rest s : Str) : (∀ c ∈ rest, ¬ IsNewline c) → 9 ≤ rest.count ':' → IsBadCoordinate s → Harmful (rest ++ s)
  /-- a level in a line of a sector, an agreement or a minimum safe altitude -/
  | level (key rest sp n : Str) : key ∈ [c!"SECTOR:", c!"COPX:", c!"MSAW:"] → (∀ c ∈ rest, ¬ IsNewline c) → AreBlanks sp →
      IsInteger n → ¬ Fits (2 ^ 32) n → Harmful (key ++ (rest ++ ':' :: (sp ++ n)))
  /-- a squawk range behind nine fields of a line -/
  | squawk (rest sp a sp' sp'' b : Str) : (∀ c ∈ rest, ¬ IsNewline c) → 8 ≤ rest.count ':' → AreBlanks sp → IsInteger a →
      AreBlanks sp' → AreBlanks sp'' → IsInteger b → ¬ (Fits (2 ^ 16) a ∧ Fits (2 ^ 16) b) →
      Harmful (rest ++ ':' :: (sp ++ (a ++ (sp' ++ ':' :: (sp'' ++ b)))))

end Verif.Spec.Ese
