import Verif.Spec.Sct
import Verif.Base.Sort
/-!
# Specification for writing .sct files

Which sector files can be written such that the text is read back.  Only the types of the parts of a sector file and the
words of `Verif/Spec/Sct.lean` are used.
-/

namespace Verif.Spec.SctWrite
open Verif.Dms Verif.Parse Verif.Spec.Sct
open Verif.Spec.Ese (DmsText)
open Verif.Colours (Colour)
open Verif.Parse.Sct (Sct Loc Airport Airway Fix Navaid Runway Region Label Drawing Info)

/-- A word starts behind this text. -/
def WordStart (p : Str) : Prop := p = [] ∨ ∃ c, p.getLast? = some c ∧ IsBlank c

/-- A name that starts neither with an angle nor with a word twice. -/
structure IsTelling (name : Str) : Prop where
  noAngle : ∀ (d : DmsText) r, d.Valid → name ≠ d.text ++ r
  noTwice : ∀ n g r, IsDesignator n → IsGap g → name ≠ n ++ (g ++ (n ++ r))

/-- The name of a drawing can be told from the first line of the drawing, which goes from `a` to `b`.  Between fixes, the name is not taken for
a line together with the fixes.  Between coordinates, the name starts neither with an angle nor with a word twice.  If both ends are the same
fix, the name does not end with it. -/
structure Apart {F : Type} (name : Str) (a b : Loc F) : Prop where
  fixes : ∀ m n, a = .fix m → b = .fix n → ¬ StartsLine (name ++ ' ' :: (m ++ ' ' :: (m ++ ' ' :: n)))
  coordinates : ∀ p, a = .coordinate p → IsTelling name
  noEnd : ∀ m, a = .fix m → b = .fix m → ∀ p, WordStart p → name ≠ p ++ m

section
variable {F : Type}

def IsLoc : Loc F → Prop
  | .fix n => IsDesignator n
  | .coordinate _ => True

/-- All lines of the group have two points at least, and there is a line. -/
structure IsGroup (g : Lines.Group (Loc F)) : Prop where
  lines : g.lines ≠ []
  points : ∀ l ∈ g.lines, 2 ≤ l.length
  locs : ∀ l ∈ g.lines, ∀ p ∈ l, IsLoc p
  colour : ∀ c, g.colour = some c → IsColourName c

/-- The first two points of a drawing. -/
def firstTwo (d : Drawing F) : Option (Loc F × Loc F) :=
  match d.lineGroups with
  | ⟨_, (a :: b :: _) :: _⟩ :: _ => some (a, b)
  | _ => none

/-- Both are coordinates or both are fixes. -/
def Alike : Loc F → Loc F → Prop
  | .fix _, .fix _ => True
  | .coordinate _, .coordinate _ => True
  | _, _ => False

structure IsDrawing (d : Drawing F) : Prop where
  nonempty : d.name ≠ []
  chars : ∀ c ∈ d.name, ¬ IsNewline c ∧ c ≠ '[' ∧ c ≠ ']'
  start : IsStart d.name
  noColour : d.name.head? ≠ some '#'
  ending : ∀ c, d.name.getLast? = some c → ¬ IsBlank c
  groups : d.lineGroups ≠ []
  group : ∀ g ∈ d.lineGroups, IsGroup g
  alike : ∀ a b, firstTwo d = some (a, b) → Alike a b
  apart : ∀ a b, firstTwo d = some (a, b) → Apart d.name a b

/-- In the list `a` is followed by `b`. -/
def Next {A : Type} (l : List A) (a b : A) : Prop := ∃ p q, l = p ++ a :: b :: q

/-- Nothing in the drawing can be merged. -/
structure Merged (d : Drawing F) : Prop where
  /-- consecutive points differ -/
  points : ∀ g ∈ d.lineGroups, ∀ l ∈ g.lines, ∀ a b, Next l a b → a ≠ b
  /-- a line does not start where the line in front of it ends -/
  lines : ∀ g ∈ d.lineGroups, ∀ a b, Next g.lines a b → a.getLast? ≠ b.head?
  /-- consecutive groups differ in their colours -/
  groups : ∀ g g', Next d.lineGroups g g' → g.colour ≠ g'.colour

/-- What can be written, apart from the numbers. -/
structure Writable [UnicodeTables] (s : Sct F) : Prop where
  name : IsSectorName s.info.name
  callsign : IsCallsign s.info.defaultCallsign
  airport : IsDesignator s.info.defaultAirport
  distinct : s.colours.keys.Nodup
  colours : ∀ e ∈ s.colours, IsColourName e.1
  vors : ∀ n ∈ s.vors, IsDesignator n.designator ∧ IsDecimal n.frequency
  ndbs : ∀ n ∈ s.ndbs, IsDesignator n.designator ∧ IsDecimal n.frequency
  fixes : ∀ n ∈ s.fixes, IsFixName n.designator ∧ IsStart n.designator
  airports : ∀ a ∈ s.airports, IsDesignator a.designator ∧ ∃ c ∈ c!"ABCDEFG", a.ctrAirspace = [c]
  runways : ∀ r ∈ s.runways, IsRunway r.designators.1 ∧ IsRunway r.designators.2 ∧ r.headings.1 < 2 ^ 32 ∧ r.headings.2 < 2 ^ 32 ∧
    IsDesignator r.aerodrome
  sids : ∀ d ∈ s.sids, IsDrawing d
  stars : ∀ d ∈ s.stars, IsDrawing d
  artccsHigh : ∀ d ∈ s.artccsHigh, IsDrawing d
  artccs : ∀ d ∈ s.artccs, IsDrawing d
  artccsLow : ∀ d ∈ s.artccsLow, IsDrawing d
  geo : ∀ d ∈ s.geo, IsDrawing d
  highAirways : ∀ a ∈ s.highAirways, IsFixName a.designator ∧ IsStart a.designator ∧ IsLoc a.start ∧ IsLoc a.stop
  lowAirways : ∀ a ∈ s.lowAirways, IsFixName a.designator ∧ IsStart a.designator ∧ IsLoc a.start ∧ IsLoc a.stop
  regions : ∀ r ∈ s.regions, (r.name ≠ [] ∧ IsStart r.name ∧ (∀ c ∈ r.name, ¬ IsNewline c ∧ c ≠ '\t' ∧ c ≠ '[') ∧
    ∀ c, r.name.getLast? = some c → ¬ IsBlankChar c) ∧ IsColourName r.colourName ∧ r.polygon ≠ []
  labels : ∀ l ∈ s.labels, (IsStart l.name ∧ ∀ c ∈ l.name, ¬ IsNewline c ∧ c ≠ '"') ∧ (∃ p, l.coordinate = .coordinate p) ∧
    IsColourName l.colourName

/-- All drawings of the file. -/
def drawings (s : Sct F) : List (Drawing F) := s.sids ++ s.stars ++ s.artccsHigh ++ s.artccs ++ s.artccsLow ++ s.geo

/-- The coordinate of a location. -/
def locPoints : Loc F → List (Point F)
  | .fix _ => []
  | .coordinate p => [p]

/-- All coordinates of the file. -/
def points (s : Sct F) : List (Point F) :=
  [s.info.centrePoint] ++ s.vors.map (·.coordinate) ++ s.ndbs.map (·.coordinate) ++ s.fixes.map (·.coordinate) ++
  s.airports.map (·.coordinate) ++ s.runways.flatMap (fun r => [r.location.1, r.location.2]) ++
  (drawings s).flatMap (fun d => d.lineGroups.flatMap fun g => g.lines.flatMap fun l => l.flatMap locPoints) ++
  (s.highAirways ++ s.lowAirways).flatMap (fun a => locPoints a.start ++ locPoints a.stop) ++
  s.regions.flatMap (·.polygon) ++ s.labels.flatMap (fun l => locPoints l.coordinate)

/-- The numbers that are written without degrees. -/
def numbers (s : Sct F) : List F := [s.info.milesPerDegLat, s.info.milesPerDegLng, s.info.magneticVariation, s.info.scaleFactor]

/-! ## Files with other coordinates -/

section
variable (re : Bool → F → F)

/-- The latitude and the longitude are changed. -/
def rePoint (p : Point F) : Point F := { x := re false p.x, y := re true p.y }

def reLoc : Loc F → Loc F
  | .fix n => .fix n
  | .coordinate p => .coordinate (rePoint re p)

def reInfo (i : Info F) : Info F := { i with centrePoint := rePoint re i.centrePoint }
def reNavaid (n : Navaid F) : Navaid F := { n with coordinate := rePoint re n.coordinate }
def reFix (n : Fix F) : Fix F := { n with coordinate := rePoint re n.coordinate }
def reAirport (n : Airport F) : Airport F := { n with coordinate := rePoint re n.coordinate }
def reRunway (r : Runway F) : Runway F := { r with location := (rePoint re r.location.1, rePoint re r.location.2) }
def reAirway (a : Airway F) : Airway F := { a with start := reLoc re a.start, stop := reLoc re a.stop }
def reRegion (r : Region F) : Region F := { r with polygon := r.polygon.map (rePoint re) }
def reLabel (l : Label F) : Label F := { l with coordinate := reLoc re l.coordinate }

/-- The points of a line and those behind them. -/
def pairs {A : Type} (l : List A) : List (A × A) := l.zip l.tail

/-- The segments of a group with its colour. -/
def segments (g : Lines.Group (Loc F)) : List (Lines.ColouredLine (Loc F)) :=
  (g.lines.flatMap pairs).map fun s => ⟨s.1, s.2, g.colour⟩

def reSegment (s : Lines.ColouredLine (Loc F)) : Lines.ColouredLine (Loc F) := ⟨reLoc re s.start, reLoc re s.stop, s.colour⟩

/-- The lines between the changed points, merged as the lines of every file are (property C33). -/
def reDrawing [DecidableEq F] (d : Drawing F) : Drawing F :=
  { d with lineGroups := Lines.lineGroups ((d.lineGroups.flatMap segments).map (reSegment re)) }
end

/-- The file with the changed coordinates. -/
def remap [DecidableEq F] (re : Bool → F → F) (s : Sct F) : Sct F where
  info := reInfo re s.info
  colours := s.colours
  airports := s.airports.map (reAirport re)
  fixes := s.fixes.map (reFix re)
  ndbs := s.ndbs.map (reNavaid re)
  vors := s.vors.map (reNavaid re)
  runways := s.runways.map (reRunway re)
  sids := s.sids.map (reDrawing re)
  stars := s.stars.map (reDrawing re)
  artccsHigh := s.artccsHigh.map (reDrawing re)
  artccs := s.artccs.map (reDrawing re)
  artccsLow := s.artccsLow.map (reDrawing re)
  highAirways := s.highAirways.map (reAirway re)
  lowAirways := s.lowAirways.map (reAirway re)
  regions := s.regions.map (reRegion re)
  labels := s.labels.map (reLabel re)
  geo := s.geo.map (reDrawing re)

/-- The two files are the same up to the order of the entries and the transparency of colours, which sector files do not have. -/
structure Same (s t : Sct F) : Prop where
  info : t.info = s.info
  colours : ∀ n, t.colours.get? n = (s.colours.get? n).map fun c => { c with a := 255 }
  vors : t.vors.Perm s.vors
  ndbs : t.ndbs.Perm s.ndbs
  fixes : t.fixes.Perm s.fixes
  airports : t.airports.Perm s.airports
  runways : t.runways.Perm s.runways
  sids : t.sids.Perm s.sids
  stars : t.stars.Perm s.stars
  artccsHigh : t.artccsHigh.Perm s.artccsHigh
  artccs : t.artccs.Perm s.artccs
  artccsLow : t.artccsLow.Perm s.artccsLow
  geo : t.geo.Perm s.geo
  highAirways : t.highAirways.Perm s.highAirways
  lowAirways : t.lowAirways.Perm s.lowAirways
  regions : t.regions.Perm s.regions
  labels : t.labels.Perm s.labels
end

end Verif.Spec.SctWrite
