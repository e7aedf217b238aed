import Verif.Spec.Filler
import Verif.Spec.SymbolRule
import Verif.Spec.Ese
import Verif.Parse.Topsky
/-!
# Specification for TopSky symbol and map files

What the definitions in these files look like and what they stand for.  Only the result types (`SymbolDef`,
`MapDef`, `MapRule`, `Active`, …) and `Lines.mergeLines` (which has its own specification) are taken from the
model; neither the grammar nor the parser is used.
-/

namespace Verif.Spec.Topsky
open Verif.Dms Verif.Parse.Topsky
open Verif.Spec.Drawing (Drawing)
open Verif.Spec.Ese (DmsText IsRunway)
open Verif.Parse.Sct (Loc)
open Verif.Parse.TopskySettings (ColourDef)

/-! ## Lines -/

/-- What comments start with. -/
def marks : List Str := [c!"//", c!";"]

/-- Nothing or a comment. -/
def IsRemark (s : Str) : Prop := s = [] ∨ ∃ w ∈ marks, ∃ t, s = w ++ t ∧ ∀ c ∈ t, ¬ IsNewline c

/-- Blanks. -/
def AreBlanks (s : Str) : Prop := ∀ c ∈ s, IsBlankChar c

instance (s : Str) : Decidable (AreBlanks s) := inferInstanceAs (Decidable (∀ c ∈ s, IsBlankChar c))

/-- Ends of lines: each is made of blanks, possibly a comment, and a line end. -/
inductive AreLines : Str → Prop
  | nil : AreLines []
  | line (sp rem : Str) (c : Char) (t : Str) : AreBlanks sp → IsRemark rem → IsNewline c → AreLines t →
      AreLines (sp ++ (rem ++ c :: t))

/-- The end of a line, further empty lines and comments.  The last line of a file needs no line end. -/
def Ends (f r : Str) : Prop := (AreLines f ∧ f ≠ []) ∨ (f = [] ∧ r = [])

/-- The same behind a name, where no comment may follow on the same line. -/
def NameEnds (f r : Str) : Prop :=
  (∃ sp c t, f = sp ++ c :: t ∧ AreBlanks sp ∧ IsNewline c ∧ AreLines t) ∨ (f = [] ∧ r = [])

/-- A comment without a line end. -/
def IsLastRemark (s : Str) : Prop := ∃ sp rem, s = sp ++ rem ∧ AreBlanks sp ∧ IsRemark rem ∧ rem ≠ []

/-- What stands behind a drawing rule: ends of lines, but none if the next element follows directly.  The last comment of a
file needs no line end. -/
def RuleEnds (f r : Str) : Prop := AreLines f ∨ (r = [] ∧ ∃ l c, f = l ++ c ∧ AreLines l ∧ IsLastRemark c)

/-- What stands between a name and what it names: the end of the line and further empty lines and comments.  If there is no
name, then a comment may follow on the same line. -/
def HeadEnds (name f : Str) : Prop := NameEnds f c!"x" ∨ (name = [] ∧ AreLines f ∧ f ≠ [])

/-- A comment starts here or behind blanks. -/
def startsComment : Str → Bool
  | [] => false
  | c :: t => if IsBlankChar c then startsComment t else c == ';' || (c == '/' && t.head? == some '/')

/-- The text does not end with a blank. -/
def NoTrail (s : Str) : Prop := ∀ c, s.getLast? = some c → ¬ IsBlankChar c

instance (s : Str) : Decidable (NoTrail s) :=
  match h : s.getLast? with
  | none => isTrue fun c hc => by rw [h] at hc; cases hc
  | some d => if hd : IsBlankChar d then isFalse fun hn => hn d h hd
    else isTrue fun c hc => by rw [h] at hc; cases hc; exact hd

/-- Consecutive elements, each well-formed in front of the text that follows it. -/
def InRow {A : Type} (txt : A → Str) (ok : A → Str → Prop) : List A → Str → Prop
  | [], _ => True
  | a :: l, r => ok a (l.flatMap txt ++ r) ∧ InRow txt ok l r

/-! ## Names, positions and conditions -/

/-- A text without colons and line ends that does not look like a comment. -/
def IsName (s : Str) : Prop := (∀ c ∈ s, c ≠ ':' ∧ ¬ IsNewline c) ∧ startsComment s = false

/-- A text without backslashes and line ends that does not look like a comment. -/
def IsPath (s : Str) : Prop := (∀ c ∈ s, c ≠ '\\' ∧ ¬ IsNewline c) ∧ startsComment s = false

/-- A text without colons, commas and line ends that does not look like a comment. -/
def IsItem (s : Str) : Prop := (∀ c ∈ s, c ≠ ':' ∧ c ≠ ',' ∧ ¬ IsNewline c) ∧ startsComment s = false

instance (s : Str) : Decidable (IsName s) := inferInstanceAs (Decidable (_ ∧ _))
instance (s : Str) : Decidable (IsPath s) := inferInstanceAs (Decidable (_ ∧ _))
instance (s : Str) : Decidable (IsItem s) := inferInstanceAs (Decidable (_ ∧ _))

/-- Texts with commas between them. -/
def joined : List Str → Str
  | [] => []
  | a :: l => a ++ l.flatMap fun b => ',' :: b

def AreItems (l : List Str) : Prop := l ≠ [] ∧ ∀ v ∈ l, IsItem v

instance (l : List Str) : Decidable (AreItems l) := inferInstanceAs (Decidable (_ ∧ _))

/-- `*` or a list. -/
def choice : Option (List Str) → Str
  | none => c!"*"
  | some l => joined l

/-- `*` or a list that does not start with a star. -/
def IsChoice : Option (List Str) → Prop
  | none => True
  | some l => AreItems l ∧ (joined l).head? ≠ some '*'

instance : (x : Option (List Str)) → Decidable (IsChoice x)
  | none => isTrue trivial
  | some _ => inferInstanceAs (Decidable (_ ∧ _))

/-- An ICAO code. -/
def IsIcao (s : Str) : Prop := s.length = 4 ∧ ∀ c ∈ s, isAsciiUpper c = true

instance (s : Str) : Decidable (IsIcao s) := inferInstanceAs (Decidable (_ ∧ _))

/-- A runway of an airport, e.g. `EDDM08R`. -/
def runwayText (x : RunwayIdentifier) : Str := x.icao ++ x.designator

def IsRunwayId (x : RunwayIdentifier) : Prop := IsIcao x.icao ∧ IsRunway x.designator

/-- `*` or a list of runways. -/
def runwayChoice : Option (List RunwayIdentifier) → Str
  | none => c!"*"
  | some l => joined (l.map runwayText)

def IsRunwayChoice : Option (List RunwayIdentifier) → Prop
  | none => True
  | some l => l ≠ [] ∧ ∀ x ∈ l, IsRunwayId x

/-- The degrees north or east: a decimal number, or hemisphere, degrees, minutes and seconds. -/
inductive Part
  | decimal (s : Str)
  | dms (d : DmsText)

def Part.text : Part → Str
  | .decimal s => s
  | .dms d => d.text

def Part.Valid : Part → Prop
  | .decimal s => IsDecimal s
  | .dms d => d.Valid

/-- A position: the name of a fix or two degrees. -/
inductive Location
  | fix (name : Str)
  | coordinate (lat lng : Part)

def Location.text : Location → Str
  | .fix name => name
  | .coordinate lat lng => lat.text ++ ':' :: lng.text

/-- The name of a fix does not look like degrees. -/
def Location.Valid : Location → Prop
  | .fix name => IsName name ∧ ∀ p : Part, p.Valid → p.text ≠ name
  | .coordinate lat lng => lat.Valid ∧ lng.Valid

/-- Both degrees are written in the same way and no number is too large. -/
def Location.Fits : Location → Prop
  | .fix _ => True
  | .coordinate (.decimal _) (.decimal _) => True
  | .coordinate (.dms lat) (.dms lng) => lat.Fits ∧ lng.Fits
  | .coordinate _ _ => False

instance : (l : Location) → Decidable l.Fits
  | .fix _ => isTrue trivial
  | .coordinate (.decimal _) (.decimal _) => isTrue trivial
  | .coordinate (.dms _) (.dms _) => inferInstanceAs (Decidable (_ ∧ _))
  | .coordinate (.decimal _) (.dms _) => isFalse id
  | .coordinate (.dms _) (.decimal _) => isFalse id

/-- The position ends with a name. -/
def Location.named : Location → Bool
  | .fix _ => true
  | .coordinate _ _ => false

/-- Two digits, twice or three times. -/
def IsDate (s : Str) : Prop := (s.length = 4 ∨ s.length = 6) ∧ ∀ c ∈ s, isAsciiDigit c = true

def IsTime (s : Str) : Prop := s.length = 4 ∧ ∀ c ∈ s, isAsciiDigit c = true

instance (s : Str) : Decidable (IsDate s) := inferInstanceAs (Decidable (_ ∧ _))
instance (s : Str) : Decidable (IsTime s) := inferInstanceAs (Decidable (_ ∧ _))

/-- When a map is shown. -/
inductive Cond
  | always
  | schedule (first last days from_ to_ : Str)
  | id (own ownNot online onlineNot : Option (List Str))
  | callsign (own ownNot online onlineNot : Option (List Str))
  | area (l : List Str)
  | areaExcept (l ex : List Str)
  | aup (l : List Str)
  | notam (icao : Str) (l : List Str)
  | runway (arr dep : Option (List RunwayIdentifier))
  | runwayExcept (arr arrNot dep depNot : Option (List RunwayIdentifier))
  | map (op : ActiveMapOperator) (folder name : Str)

def opText : ActiveMapOperator → Str
  | .same => c!"="
  | .opposite => c!"!"

def Cond.text : Cond → Str
  | .always => c!"1"
  | .schedule a b d e f => a ++ ':' :: (b ++ ':' :: (d ++ ':' :: (e ++ ':' :: f)))
  | .id a b c d => c!"ID:" ++ (choice a ++ ':' :: (choice b ++ ':' :: (choice c ++ ':' :: choice d)))
  | .callsign a b c d => c!"CALLSIGN:" ++ (choice a ++ ':' :: (choice b ++ ':' :: (choice c ++ ':' :: choice d)))
  | .area l => c!"AREA:" ++ joined l
  | .areaExcept l ex => c!"AREA:" ++ (joined l ++ ':' :: joined ex)
  | .aup l => c!"AUP:" ++ joined l
  | .notam icao l => c!"NOTAM:" ++ (icao ++ ':' :: joined l)
  | .runway arr dep => c!"RWY:ARR:" ++ (runwayChoice arr ++ (c!":DEP:" ++ runwayChoice dep))
  | .runwayExcept arr arrNot dep depNot => c!"RWY:ARR:" ++ (runwayChoice arr ++ ':' :: (runwayChoice arrNot ++
      (c!":DEP:" ++ (runwayChoice dep ++ ':' :: runwayChoice depNot))))
  | .map op folder name => c!"MAP:" ++ (opText op ++ ':' :: (folder ++ '\\' :: name))

def Cond.Valid : Cond → Prop
  | .always => True
  | .schedule a b d e f => IsDate a ∧ IsDate b ∧ IsDigits d ∧ IsTime e ∧ IsTime f
  | .id a b c d => IsChoice a ∧ IsChoice b ∧ IsChoice c ∧ IsChoice d
  | .callsign a b c d => IsChoice a ∧ IsChoice b ∧ IsChoice c ∧ IsChoice d
  | .area l => AreItems l
  | .areaExcept l ex => AreItems l ∧ AreItems ex
  | .aup l => AreItems l
  | .notam icao l => IsIcao icao ∧ AreItems l
  | .runway arr dep => IsRunwayChoice arr ∧ IsRunwayChoice dep
  | .runwayExcept a b c d => IsRunwayChoice a ∧ IsRunwayChoice b ∧ IsRunwayChoice c ∧ IsRunwayChoice d
  | .map _ folder name => IsPath folder ∧ IsName name

/-- The condition ends with a name. -/
def Cond.named : Cond → Bool
  | .always => false
  | .schedule .. => false
  | .id _ _ _ d => d.isSome
  | .callsign _ _ _ d => d.isSome
  | .area _ => true
  | .areaExcept _ _ => true
  | .aup _ => true
  | .notam _ _ => true
  | .runway _ _ => false
  | .runwayExcept _ _ _ _ => false
  | .map _ _ _ => true

/-- What a condition stands for.  The dates and times of a schedule are dropped.  The lists behind `AUP` and
`NOTAM` are kept as one text. -/
def Cond.value : Cond → Active
  | .always => .true
  | .schedule .. => .schedule
  | .id a b c d => .id ⟨a, b, c, d⟩
  | .callsign a b c d => .callsign ⟨a, b, c, d⟩
  | .area l => .area ⟨l, none⟩
  | .areaExcept l ex => .area ⟨l, some ex⟩
  | .aup l => .aup [joined l]
  | .notam icao l => .notam icao [joined l]
  | .runway arr dep => .runway ⟨arr, none, dep, none⟩
  | .runwayExcept a b c d => .runway ⟨a, b, c, d⟩
  | .map op folder name => .map op folder name

/-! ## Settings of a map -/

/-- How a text is aligned. -/
structure Align where
  horizontal : Option Char
  vertical : Option Char
  deriving DecidableEq

def Align.text (a : Align) : Str := a.horizontal.toList ++ a.vertical.toList

/-- A lone `C` is horizontal. -/
def Align.Valid (a : Align) : Prop :=
  (∀ c, a.horizontal = some c → c ∈ c!"LCR") ∧ (∀ c, a.vertical = some c → c ∈ c!"TCB") ∧
    ¬ (a.horizontal = none ∧ a.vertical = some 'C')

/-- The alignment behind a keyword. -/
def alignText : Option Align → Str
  | none => []
  | some a => '/' :: a.text

def IsAlign (x : Option Align) : Prop := ∀ a, x = some a → a.Valid

/-- `0` or `1`. -/
def flag (b : Bool) : Str := if b then c!"1" else c!"0"

/-- A path and a name behind it. -/
def pathName (folder : Str) : Option Str → Str
  | none => folder
  | some n => folder ++ '\\' :: n

def IsPathName (folder : Str) : Option Str → Prop
  | none => IsPath folder
  | some n => IsPath folder ∧ IsName n

/-- A setting of a map. -/
inductive Setting
  | folder (name : Str)
  | colour (name : Str) (more : List Str)
  | asrData (l : Option (List Str))
  | active (c : Cond)
  | andActive (c : Cond)
  | layer (n : Str)
  | symbol (align : Option Align) (name : Str) (loc : Location) (label : Option (Str × Str × Str))
  | fontStyle (weight : Str) (a b c : Bool)
  | defaultFontStyle
  | fontSize (op : Char) (n : Str)
  | defaultFontSize
  | zoom (n : Str)
  | style (name : Str) (width : Option Str)
  | caption (align : Option Align) (loc : Location) (content : Str)
  | global
  | screenSpecific
  | circle (long : Bool) (lat lng : Part) (radius spacing : Str)
  | coordLine
  | coordPoly (n : Str)
  | coord (loc : Location)
  | textAlign (a : Align)
  | hidden
  | sctFileData (mono : Bool) (a b : Str)
  | sctData (a b : Str)
  | coordAf (loc : Location) (a b c : Str) (right : Bool) (d : Str)
  | coordHm (loc : Location) (course : Str) (magnetic left : Bool) (leg : Str) (minutes : Bool) (radius : Str)
      (knots : Bool) (step : Str)
  | coordPbd (icao runway n digits : Str)

def Setting.text : Setting → Str
  | .folder name => c!"FOLDER:" ++ name
  | .colour name more => c!"COLOR:" ++ (name ++ more.flatMap fun n => ':' :: n)
  | .asrData l => c!"ASRDATA:" ++ choice l
  | .active c => c!"ACTIVE:" ++ c.text
  | .andActive c => c!"AND_ACTIVE:" ++ c.text
  | .layer n => c!"LAYER:" ++ n
  | .symbol a name loc none => c!"SYMBOL" ++ (alignText a ++ ':' :: (name ++ ':' :: loc.text))
  | .symbol a name loc (some (s, x, y)) =>
    c!"SYMBOL" ++ (alignText a ++ ':' :: (name ++ ':' :: (loc.text ++ ':' :: (s ++ ':' :: (x ++ ':' :: y)))))
  | .fontStyle w a b c => c!"FONTSTYLE:" ++ (w ++ ':' :: (flag a ++ ':' :: (flag b ++ ':' :: flag c)))
  | .defaultFontStyle => c!"FONTSTYLE:0"
  | .fontSize op n => c!"FONTSIZE:" ++ ([op] ++ ':' :: n)
  | .defaultFontSize => c!"FONTSIZE:0"
  | .zoom n => c!"ZOOM:" ++ n
  | .style name none => c!"STYLE:" ++ name
  | .style name (some w) => c!"STYLE:" ++ (name ++ ':' :: w)
  | .caption a loc content => c!"TEXT" ++ (alignText a ++ ':' :: (loc.text ++ ':' :: content))
  | .global => c!"GLOBAL"
  | .screenSpecific => c!"SCREEN-SPECIFIC"
  | .circle long lat lng r s => (if long then c!"COORD_CIRCLE:" else c!"CIRCLE:") ++
      ((lat.text ++ ':' :: lng.text) ++ ':' :: (r ++ ':' :: s))
  | .coordLine => c!"COORDLINE"
  | .coordPoly n => c!"COORDPOLY:" ++ n
  | .coord loc => c!"COORD:" ++ loc.text
  | .textAlign a => c!"TEXTALIGN:" ++ a.text
  | .hidden => c!"HIDDEN"
  | .sctFileData mono a b => c!"SCTFILEDATA" ++ ((if mono then c!"/MONO" else []) ++ ':' :: (a ++ '\\' :: b))
  | .sctData a b => c!"SCTDATA:" ++ (a ++ '\\' :: b)
  | .coordAf loc a b c right d => c!"COORD_AF:" ++ (loc.text ++ ':' :: (a ++ ':' :: (b ++ ':' :: (c ++ ':' ::
      ((if right then c!">" else c!"<") ++ ':' :: d)))))
  | .coordHm loc course magnetic left leg minutes radius knots step => c!"COORD_HM:" ++ (loc.text ++ ':' ::
      ((course ++ if magnetic then c!"M" else []) ++ ':' :: ((if left then c!"L" else c!"R") ++ ':' ::
      ((leg ++ if minutes then c!"MIN" else []) ++ ':' :: ((radius ++ if knots then c!"KTS" else []) ++ ':' :: step)))))
  | .coordPbd icao runway n digits => c!"COORD_PBD:" ++ (icao ++ '/' :: (runway ++ ':' :: (n ++ ':' :: digits)))

def Setting.Valid : Setting → Prop
  | .folder name => IsName name
  | .colour name more => IsName name ∧ more.length ≤ 2 ∧ ∀ n ∈ more, IsName n
  | .asrData l => IsChoice l
  | .active c => c.Valid
  | .andActive c => c.Valid
  | .layer n => IsInteger n
  | .symbol a name loc label => IsAlign a ∧ IsName name ∧ loc.Valid ∧
      ∀ s x y, label = some (s, x, y) → IsName s ∧ IsDecimal x ∧ IsDecimal y
  | .fontStyle w _ _ _ => IsInteger w
  | .defaultFontStyle => True
  | .fontSize op n => op ∈ c!"=+-*" ∧ IsDecimal n
  | .defaultFontSize => True
  | .zoom n => IsDecimal n
  | .style name width => IsName name ∧ ∀ w, width = some w → IsInteger w
  | .caption a loc content => IsAlign a ∧ loc.Valid ∧ content ≠ [] ∧ (∀ c ∈ content, ¬ IsNewline c ∧ c ≠ ';') ∧
      ¬ c!"//" <:+: content ∧ NoTrail content ∧ content.getLast? ≠ some '/'
  | .global => True
  | .screenSpecific => True
  | .circle _ lat lng r s => lat.Valid ∧ lng.Valid ∧ IsDecimal r ∧ IsDecimal s
  | .coordLine => True
  | .coordPoly n => IsInteger n
  | .coord loc => loc.Valid
  | .textAlign a => a.Valid
  | .hidden => True
  | .sctFileData _ a b => IsPath a ∧ IsPath b
  | .sctData a b => IsPath a ∧ IsPath b
  | .coordAf loc a b c _ d => loc.Valid ∧ IsDecimal a ∧ IsDecimal b ∧ IsDecimal c ∧ IsDecimal d
  | .coordHm loc course _ _ leg _ radius _ step =>
    loc.Valid ∧ IsDecimal course ∧ IsDecimal leg ∧ IsDecimal radius ∧ IsDecimal step
  | .coordPbd icao runway n digits => IsIcao icao ∧ IsRunway runway ∧ IsDecimal n ∧ IsDigits digits

/-- The setting ends with a name; a comment behind it would become part of it.  The same goes for a text of
a single character. -/
def Setting.named : Setting → Bool
  | .folder _ => true
  | .colour _ _ => true
  | .asrData l => l.isSome
  | .active c => c.named
  | .andActive c => c.named
  | .symbol _ _ loc none => loc.named
  | .style _ none => true
  | .caption _ _ content => content.length = 1
  | .coord loc => loc.named
  | .sctFileData _ _ _ => true
  | .sctData _ _ => true
  | _ => false

/-- The numbers of the setting can be represented. -/
def Setting.Fits : Setting → Prop
  | .symbol _ _ loc _ => loc.Fits
  | .caption _ loc _ => loc.Fits
  | .coord loc => loc.Fits
  | _ => True

instance (s : Setting) : Decidable s.Fits := by
  cases s <;> first | exact isTrue trivial | exact inferInstanceAs (Decidable (Location.Fits _))

/-- The ends of a line: both are positions or both are names. -/
inductive Stretch
  | between (lat1 lng1 lat2 lng2 : Part)
  | named (a b : Str)

def Stretch.start : Stretch → Location
  | .between a b _ _ => .coordinate a b
  | .named a _ => .fix a

def Stretch.stop : Stretch → Location
  | .between _ _ a b => .coordinate a b
  | .named _ b => .fix b

def Stretch.text (x : Stretch) : Str := c!"LINE:" ++ (x.start.text ++ ':' :: x.stop.text)

def Stretch.Valid (x : Stretch) : Prop := x.start.Valid ∧ x.stop.Valid

def Stretch.Fits (x : Stretch) : Prop := x.start.Fits ∧ x.stop.Fits

instance (x : Stretch) : Decidable x.Fits := inferInstanceAs (Decidable (_ ∧ _))

/-- What follows the element up to the next one. -/
def EndsAs (named : Bool) (text f r : Str) : Prop :=
  (named = true → NoTrail text ∧ NameEnds f r) ∧ (named = false → Ends f r)

/-- An element of a map: a setting, an `OVERRIDE_SCT_MAP` or consecutive lines; each with what follows on
the same line and with the empty lines and comments behind it. -/
inductive Body
  | setting (s : Setting) (f : Str)
  | override (folder : Str) (name : Option Str) (f : Str)
  | lines (l : List (Stretch × Str))

def overrideText (folder : Str) (name : Option Str) : Str := c!"OVERRIDE_SCT_MAP:" ++ pathName folder name

def Body.text : Body → Str
  | .setting s f => s.text ++ f
  | .override folder name f => overrideText folder name ++ f
  | .lines l => l.flatMap fun x => x.1.text ++ x.2

/-- Well-formed in front of `r`. -/
def Body.Valid (b : Body) (r : Str) : Prop :=
  match b with
  | .setting s f => s.Valid ∧ EndsAs s.named s.text f r
  | .override folder name f => IsPathName folder name ∧ EndsAs true (overrideText folder name) f r
  | .lines l => l ≠ [] ∧ ¬ c!"LINE:" <+: r ∧
      InRow (fun x => x.1.text ++ x.2) (fun x r => x.1.Valid ∧ EndsAs x.1.start.named x.1.text x.2 r) l r

def Body.Fits : Body → Prop
  | .setting s _ => s.Fits
  | .override .. => True
  | .lines l => ∀ x ∈ l, x.1.Fits

instance (b : Body) : Decidable b.Fits := by
  cases b
  · exact inferInstanceAs (Decidable (Setting.Fits _))
  · exact isTrue trivial
  · exact inferInstanceAs (Decidable (∀ x ∈ _, _))

/-- An element and the blanks in front of it. -/
structure Entry where
  indent : Str
  body : Body

def Entry.text (e : Entry) : Str := e.indent ++ e.body.text

def Entry.Valid (e : Entry) (r : Str) : Prop := AreBlanks e.indent ∧ e.body.Valid r

/-! ## Files -/

/-- A symbol: its name, the empty lines and comments behind it, and drawing rules, each with its line end and
the empty lines and comments behind it. -/
structure Symbol where
  name : Str
  gap : Str
  rules : List (Drawing × Str × Str)

def Symbol.text (s : Symbol) : Str := s.name ++ (s.gap ++ s.rules.flatMap fun x => x.2.1 ++ x.2.2)

def Symbol.Valid (s : Symbol) (r : Str) : Prop :=
  IsName s.name ∧ NoTrail s.name ∧ HeadEnds s.name s.gap ∧ s.rules ≠ [] ∧
    InRow (fun x => x.2.1 ++ x.2.2) (fun x r => x.1.IsText x.2.1 ∧ RuleEnds x.2.2 r) s.rules r

def Symbol.Fits (s : Symbol) : Prop := ∀ x ∈ s.rules, x.1.Fits

instance (s : Symbol) : Decidable s.Fits := inferInstanceAs (Decidable (∀ x ∈ _, _))

/-- A definition in a map file. -/
inductive Def
  | map (name gap : Str) (entries : List Entry)
  | symbol (s : Symbol)
  | colour (name red green blue f : Str)
  | lineStyle (name brush hatch : Str) (dashes : List Str) (f : Str)
  | override (folder : Str) (name : Option Str) (f : Str)
  | sctFilePath (path f : Str)

def lineStyleText (name brush hatch : Str) : List Str → Str
  | [] => c!"LINESTYLEDEF:" ++ (name ++ ':' :: (brush ++ ':' :: hatch))
  | n :: ns => c!"LINESTYLEDEF:" ++ (name ++ ':' :: (brush ++ ':' :: (hatch ++ ':' :: joined (n :: ns))))

def Def.text : Def → Str
  | .map name gap entries => c!"MAP:" ++ (name ++ (gap ++ entries.flatMap Entry.text))
  | .symbol s => c!"SYMBOLDEF:" ++ s.text
  | .colour name r g b f => (c!"COLORDEF:" ++ (name ++ ':' :: (r ++ ':' :: (g ++ ':' :: b)))) ++ f
  | .lineStyle name brush hatch dashes f => lineStyleText name brush hatch dashes ++ f
  | .override folder name f => overrideText folder name ++ f
  | .sctFilePath path f => (c!"SCTFILEPATH:" ++ path) ++ f

/-- Well-formed in front of `r`.  An `OVERRIDE_SCT_MAP` behind a map would be an element of the map. -/
def Def.Valid (d : Def) (r : Str) : Prop :=
  match d with
  | .map name gap entries => IsName name ∧ NoTrail name ∧ HeadEnds name gap ∧ entries ≠ [] ∧
      InRow Entry.text Entry.Valid entries r ∧ ¬ c!"OVERRIDE_SCT_MAP:" <+: r
  | .symbol s => s.Valid r
  | .colour name red green blue f => IsName name ∧ IsInteger red ∧ IsInteger green ∧ IsInteger blue ∧ Ends f r
  | .lineStyle name brush hatch dashes f => IsName name ∧ IsName brush ∧ IsName hatch ∧ (∀ n ∈ dashes, IsInteger n) ∧
      EndsAs dashes.isEmpty (lineStyleText name brush hatch dashes) f r
  | .override folder name f => IsPathName folder name ∧ EndsAs true (overrideText folder name) f r
  | .sctFilePath path f => IsName path ∧ EndsAs true path f r

/-- A number from 0 to 255 without a minus sign. -/
def FitsU8 (n : Str) : Prop := n.head? ≠ some '-' ∧ intValue n < 256

instance (n : Str) : Decidable (FitsU8 n) := inferInstanceAs (Decidable (_ ∧ _))

def Def.Fits : Def → Prop
  | .map _ _ entries => ∀ e ∈ entries, e.body.Fits
  | .symbol s => s.Fits
  | .colour _ r g b _ => FitsU8 r ∧ FitsU8 g ∧ FitsU8 b
  | _ => True

instance (d : Def) : Decidable d.Fits := by
  cases d
  · exact inferInstanceAs (Decidable (∀ x ∈ _, _))
  · exact inferInstanceAs (Decidable (Symbol.Fits _))
  · exact inferInstanceAs (Decidable (_ ∧ _))
  all_goals exact isTrue trivial

/-- A symbol file: empty lines and comments, then symbols. -/
structure SymbolFile where
  lead : Str
  symbols : List Symbol

def SymbolFile.text (f : SymbolFile) : Str := f.lead ++ f.symbols.flatMap fun s => c!"SYMBOL:" ++ s.text

def SymbolFile.Valid (f : SymbolFile) : Prop :=
  AreLines f.lead ∧ f.symbols ≠ [] ∧ InRow (fun s => c!"SYMBOL:" ++ s.text) Symbol.Valid f.symbols []

def SymbolFile.Fits (f : SymbolFile) : Prop := ∀ s ∈ f.symbols, s.Fits

instance (f : SymbolFile) : Decidable f.Fits := inferInstanceAs (Decidable (∀ x ∈ _, _))

/-- A map file: empty lines and comments, then definitions. -/
structure MapFile where
  lead : Str
  defs : List Def

def MapFile.text (f : MapFile) : Str := f.lead ++ f.defs.flatMap Def.text

def MapFile.Valid (f : MapFile) : Prop := AreLines f.lead ∧ f.defs ≠ [] ∧ InRow Def.text Def.Valid f.defs []

def MapFile.Fits (f : MapFile) : Prop := ∀ d ∈ f.defs, d.Fits

instance (f : MapFile) : Decidable f.Fits := inferInstanceAs (Decidable (∀ x ∈ _, _))

/-! ## Meaning -/

section
variable {F G : Type} [DmsArith F] (num : Str → F) (numG : Str → G) (close : F → F → Bool) (upper : Str → Str)

/-- Where a position is.  For degrees that do not fit the value has no meaning. -/
def Location.value : Location → Loc F
  | .fix name => .fix name
  | .coordinate (.decimal lat) (.decimal lng) => .coordinate { x := num lng, y := num lat }
  | .coordinate (.dms lat) (.dms lng) => .coordinate { x := lng.value num, y := lat.value num }
  | .coordinate lat _ => .fix lat.text

/-- The size behind `FONTSIZE`. -/
def sizeValue (op : Char) (x : G) : FontSize G :=
  if op = '=' then .exact x else if op = '+' then .add x else if op = '-' then .subtract x else .multiply x

/-- The width of lines; 1 if there is none or it does not fit. -/
def width : Option Str → Int
  | none => 1
  | some w => if -(2 ^ 31 : Int) ≤ intValue w ∧ intValue w < 2 ^ 31 then intValue w else 1

/-- What a setting stands for; `none` for settings without effect. -/
def Setting.value : Setting → Option (MapRule F G)
  | .folder name => some (.folder name)
  | .colour name _ => some (.colour name)
  | .asrData l => some (.asrData l)
  | .active c => some (.active c.value)
  | .andActive c => some (.andActive c.value)
  | .layer n => some (.layer (numG n))
  | .symbol _ name loc label =>
    some (.symbol ⟨name, loc.value num, label.map fun l => ⟨l.1, num l.2.1, num l.2.2⟩⟩)
  | .fontSize op n => some (.fontSize (sizeValue op (numG n)))
  | .defaultFontSize => some (.fontSize .default)
  | .zoom n => some (.zoom (numG n))
  | .style name w => some (.lineStyle ⟨width w, upper name⟩)
  | .caption _ loc content => some (.text ⟨loc.value num, content⟩)
  | .global => some .global
  | .screenSpecific => some .screenSpecific
  | .coordLine => some .coordLine
  | .coordPoly n => some (.coordPoly n)
  | .coord loc => some (.coord (loc.value num))
  | .hidden => some .hidden
  | _ => none

variable [DecidableEq F]

/-- What an element of a map stands for. -/
def Body.value : Body → Option (MapRule F G)
  | .setting s _ => s.value num numG upper
  | .override .. => none
  | .lines l => some (.line (Lines.mergeLines (l.map fun x => (x.1.start.value num, x.1.stop.value num))))

/-- What a symbol stands for. -/
def Symbol.value (s : Symbol) : SymbolDef F := ⟨s.name, s.rules.map fun x => x.1.value num close⟩

/-- The maps of the file. -/
def MapFile.maps (f : MapFile) : List (MapDef F G) := f.defs.filterMap fun
  | .map name _ entries => some ⟨name, entries.filterMap fun e => e.body.value num numG upper⟩
  | _ => none

/-- The symbols of the file. -/
def MapFile.symbols (f : MapFile) : List (SymbolDef F) := f.defs.filterMap fun
  | .symbol s => some (s.value num close)
  | _ => none

/-- The component of a colour. -/
def component (n : Str) : Fin 256 := Fin.ofNat 256 (intValue n).toNat

/-- The colours of the file; none is transparent. -/
def MapFile.colours (f : MapFile) : List ColourDef := f.defs.filterMap fun
  | .colour name r g b _ => some ⟨name, component r, component g, component b, 255⟩
  | _ => none

/-- The line styles of the file. -/
def MapFile.lineStyles (f : MapFile) : List (LineStyleDef G) := f.defs.filterMap fun
  | .lineStyle name brush hatch dashes _ => some ⟨name, brush, hatch, dashes.map numG⟩
  | _ => none

/-- The overrides of the file. -/
def MapFile.overrides (f : MapFile) : List OverrideSct := f.defs.filterMap fun
  | .override folder name _ => some ⟨folder, name⟩
  | _ => none

/-- The last element of the list with the given name. -/
def lastNamed {A : Type} (name : A → Str) (l : List A) (n : Str) : Option A := l.reverse.find? fun a => name a == n

end

/-! ## What makes the program panic -/

/-- A colour with a component outside of 0 to 255, degrees that are written in two ways or too large, or a drawing
rule with an angle that is too large. -/
inductive Harmful : Str → Prop
  | colour (name r g b : Str) : (∀ c ∈ name, c ≠ ':') → IsInteger r → IsInteger g → IsInteger b →
      ¬ (FitsU8 r ∧ FitsU8 g ∧ FitsU8 b) → Harmful (c!"COLORDEF:" ++ (name ++ ':' :: (r ++ ':' :: (g ++ ':' :: b))))
  | position (lat lng : Part) : lat.Valid → lng.Valid → ¬ (Location.coordinate lat lng).Fits → Harmful (lat.text ++ ':' :: lng.text)
  | angle (d : Drawing) (s : Str) : d.IsText s → ¬ d.Fits → Harmful s

end Verif.Spec.Topsky
