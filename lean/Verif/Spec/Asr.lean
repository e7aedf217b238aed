import Verif.Base.Map
import Verif.Parse.Asr
/-!
# Specification for .asr files

What the lines of an .asr file look like and what a file with given lines means.  Only the result types
(`Asr`, `Leader`, ...) are taken from the model; neither the grammar nor the parser is used.
-/

namespace Verif.Spec.Asr
open Verif.Parse.Asr

/-- Settings that are 0 or 1. -/
inductive Flag
  | disablePanning | disableZooming | geoReferenced | needRadarContent | showLeader | showC | showStandby
  | turnLeader
  deriving DecidableEq, Repr

def Flag.key : Flag → Str
  | .disablePanning => c!"DISABLEPANNING:"
  | .disableZooming => c!"DISABLEZOOMING:"
  | .geoReferenced => c!"DisplayTypeGeoReferenced:"
  | .needRadarContent => c!"DisplayTypeNeedRadarContent:"
  | .showLeader => c!"SHOWLEADER:"
  | .showC => c!"SHOWC:"
  | .showStandby => c!"SHOWSB:"
  | .turnLeader => c!"TURNLEADER:"

/-- Settings that are an integer. -/
inductive IntKey
  | above | below | historyDots | leader | simulationMode
  deriving DecidableEq, Repr

def IntKey.key : IntKey → Str
  | .above => c!"ABOVE:"
  | .below => c!"BELOW:"
  | .historyDots => c!"HISTORY_DOTS:"
  | .leader => c!"LEADER:"
  | .simulationMode => c!"SIMULATION_MODE:"

/-- Settings that are a text. -/
inductive TextKey
  | displayType | sectorFile | sectorTitle | tagFamily
  deriving DecidableEq, Repr

def TextKey.key : TextKey → Str
  | .displayType => c!"DisplayTypeName:"
  | .sectorFile => c!"SECTORFILE:"
  | .sectorTitle => c!"SECTORTITLE:"
  | .tagFamily => c!"TAGFAMILY:"

/-- Map elements that are switched on by name alone. -/
inductive NameKey
  | sid | star | geo | region | artcc | artccLow | artccHigh
  deriving DecidableEq, Repr

def NameKey.key : NameKey → Str
  | .sid => c!"Sids:"
  | .star => c!"Stars:"
  | .geo => c!"Geo:"
  | .region => c!"Regions:"
  | .artcc => c!"ARTCC boundary:"
  | .artccLow => c!"ARTCC low boundary:"
  | .artccHigh => c!"ARTCC high boundary:"

/-- What follows the name. -/
def NameKey.tail : NameKey → Str
  | .region => c!":polygon"
  | _ => c!":"

/-- What a runway line switches on. -/
inductive RunwayPart
  | centreline
  | name
  | extended (t : Str)
  deriving DecidableEq, Repr

/-- The names of the extended centre lines. -/
def extendedNames : List Str :=
  [c!"extended centerline 1 left ticks", c!"extended centerline 1 left vectoring",
   c!"extended centerline 1 left base", c!"extended centerline 1 right ticks",
   c!"extended centerline 1 right vectoring", c!"extended centerline 1 right base",
   c!"extended centerline 1", c!"extended centerline 2 left ticks",
   c!"extended centerline 2 left vectoring", c!"extended centerline 2 left base",
   c!"extended centerline 2 right ticks", c!"extended centerline 2 right vectoring",
   c!"extended centerline 2 right base", c!"extended centerline 2"]

def RunwayPart.text : RunwayPart → Str
  | .centreline => c!"centerline"
  | .name => c!"name"
  | .extended t => t

def fixText : FixType → Str
  | .name => c!"name"
  | .symbol => c!"symbol"

def navaidText : NavaidType → Str
  | .name => c!"name"
  | .symbol => c!"symbol"
  | .frequency => c!"frequency"

def airwayText : AirwayElement → Str
  | .name => c!"name"
  | .line => c!"line"

def groundText : GroundNetworkType → Str
  | .exit => c!"exit"
  | .taxiway => c!"taxiway"
  | .terminalTaxiway => c!"terminal taxiway"

/-- One line of an .asr file, as written. -/
inductive Line
  | flag (k : Flag) (b : Bool)
  | int (k : IntKey) (n : Str)
  | text (k : TextKey) (v : Str)
  | displayRotation (x : Str)
  | windowArea (lat1 lng1 lat2 lng2 : Str)
  | plugin (plugin key value : Str)
  | named (k : NameKey) (name : Str)
  | airport (name : Str) (t : FixType)
  | fix (name : Str) (t : FixType)
  | ndb (name : Str) (t : NavaidType)
  | vor (name : Str) (t : NavaidType)
  | lowAirway (name : Str) (t : AirwayElement)
  | highAirway (name : Str) (t : AirwayElement)
  | ground (name : Str) (t : GroundNetworkType)
  | freeText (group name : Str)
  | runway (airport a b : Str) (t : RunwayPart)
  deriving DecidableEq, Repr

/-- The text of a line. -/
def Line.toText : Line → Str
  | .flag k b => k.key ++ (if b then c!"1" else c!"0")
  | .int k n => k.key ++ n
  | .text k v => k.key ++ v
  | .displayRotation x => c!"DisplayRotation:" ++ x
  | .windowArea lat1 lng1 lat2 lng2 =>
    c!"WINDOWAREA:" ++ (lat1 ++ (c!":" ++ (lng1 ++ (c!":" ++ (lat2 ++ (c!":" ++ lng2))))))
  | .plugin p k v => c!"PLUGIN:" ++ (p ++ (c!":" ++ (k ++ (c!":" ++ v))))
  | .named k n => k.key ++ (n ++ k.tail)
  | .airport n t => c!"Airports:" ++ (n ++ (c!":" ++ fixText t))
  | .fix n t => c!"Fixes:" ++ (n ++ (c!":" ++ fixText t))
  | .ndb n t => c!"NDBs:" ++ (n ++ (c!":" ++ navaidText t))
  | .vor n t => c!"VORs:" ++ (n ++ (c!":" ++ navaidText t))
  | .lowAirway n t => c!"Low airways:" ++ (n ++ (c!":" ++ airwayText t))
  | .highAirway n t => c!"High airways:" ++ (n ++ (c!":" ++ airwayText t))
  | .ground n t => c!"Ground Network:" ++ (n ++ (c!":" ++ groundText t))
  | .freeText g n => c!"Free Text:" ++ (g ++ (['\\'] ++ (n ++ c!":freetext")))
  | .runway ap a b t => c!"Runways:" ++ (ap ++ (c!" " ++ (a ++ (c!"-" ++ (b ++ (c!":" ++ t.text))))))

/-- Text without line ends that is not mistaken for a comment. -/
def IsValue (v : Str) : Prop := v.head? ≠ some ';' ∧ ∀ c ∈ v, c ≠ '\n' ∧ c ≠ '\r'

instance (v : Str) : Decidable (IsValue v) := inferInstanceAs (Decidable (_ ∧ _))

/-- A field in front of a colon. -/
def IsField (v : Str) : Prop := IsValue v ∧ ∀ c ∈ v, c ≠ ':'

instance (v : Str) : Decidable (IsField v) := inferInstanceAs (Decidable (_ ∧ _))

/-- `-? d+` -/
def IsInt (s : Str) : Prop := IsDigits s ∨ ∃ ds, s = '-' :: ds ∧ IsDigits ds

/-- `-? d+ (. d+)?` -/
def IsNumber (s : Str) : Prop :=
  ∃ i fs, s = i ++ fs ∧ IsInt i ∧ (fs = [] ∨ ∃ d, fs = '.' :: d ∧ IsDigits d)

/-- Two digits and possibly one of L, R, C, W, G. -/
def IsRunway (s : Str) : Prop :=
  ∃ a b t, s = a :: b :: t ∧ isAsciiDigit a = true ∧ isAsciiDigit b = true ∧
    (t = [] ∨ ∃ c ∈ c!"LRCWG", t = [c])

/-- No blank of the name is followed by two digits. -/
def NoRunwayIn (s : Str) : Prop :=
  ∀ p a b q, s = p ++ ' ' :: a :: b :: q → ¬ (isAsciiDigit a = true ∧ isAsciiDigit b = true)

/-- The fields of the line are well formed. -/
def Line.Valid : Line → Prop
  | .flag _ _ => True
  | .int _ n => IsInt n
  | .text _ v => IsValue v
  | .displayRotation x => IsNumber x
  | .windowArea a b c d => IsNumber a ∧ IsNumber b ∧ IsNumber c ∧ IsNumber d
  | .plugin p k v => IsField p ∧ IsField k ∧ IsValue v
  | .named _ n => IsField n
  | .airport n _ => IsField n
  | .fix n _ => IsField n
  | .ndb n _ => IsField n
  | .vor n _ => IsField n
  | .lowAirway n _ => IsField n
  | .highAirway n _ => IsField n
  | .ground n _ => IsField n
  | .freeText g n => (IsValue g ∧ ∀ c ∈ g, c ≠ '\\') ∧ IsField n
  | .runway ap a b t => (IsValue ap ∧ NoRunwayIn ap) ∧ IsRunway a ∧ IsRunway b ∧
    ∀ e, t = .extended e → e ∈ extendedNames

/-- Empty lines and comment lines. -/
inductive IsFiller : Str → Prop
  | nil : IsFiller []
  | newline (c : Char) (rest : Str) : c = '\n' ∨ c = '\r' → IsFiller rest → IsFiller (c :: rest)
  | comment (body : Str) (c : Char) (rest : Str) : (∀ d ∈ body, d ≠ '\n' ∧ d ≠ '\r') → c = '\n' ∨ c = '\r' →
      IsFiller rest → IsFiller (';' :: (body ++ c :: rest))

/-- The text begins with a line end. -/
def StartsLine (s : Str) : Prop := ∃ c t, s = c :: t ∧ (c = '\n' ∨ c = '\r')

/-- The lines `ws`, separated by line ends, with empty lines and comment lines in between. -/
inductive IsLines : Str → List Line → Prop
  | last (w : Line) (f : Str) : w.Valid → IsFiller f → f = [] ∨ StartsLine f → IsLines (w.toText ++ f) [w]
  | cons (w : Line) (f s : Str) (ws : List Line) : w.Valid → IsFiller f → StartsLine f → IsLines s ws →
      IsLines (w.toText ++ (f ++ s)) (w :: ws)

/-- An .asr file with the lines `ws`. -/
def IsFile (content : Str) (ws : List Line) : Prop :=
  ∃ f s, content = f ++ s ∧ IsFiller f ∧ IsLines s ws

/-- The numbers of the lines fit: `u32` for the altitude filters, `u8` for the history dots and `i8` for
the leader.  A minus sign does not fit the unsigned ones, not even in `-0`. -/
def Line.Fits : Line → Prop
  | .int .above n => n.head? ≠ some '-' ∧ intValue n < 2 ^ 32
  | .int .below n => n.head? ≠ some '-' ∧ intValue n < 2 ^ 32
  | .int .historyDots n => n.head? ≠ some '-' ∧ intValue n < 2 ^ 8
  | .int .leader n => -128 ≤ intValue n ∧ intValue n ≤ 127
  | _ => True

/-- A coordinate in degrees, minutes and seconds, such as `N048.21.13.500`. -/
def IsDms (s : Str) : Prop :=
  ∃ h d m sec, s = h :: (d ++ ('.' :: (m ++ ('.' :: sec)))) ∧ h ∈ c!"NSWE" ∧ IsDigits d ∧ IsDigits m ∧ IsNumber sec

/-- A part of a file that makes the parser panic: a number that does not fit its setting, possibly with
comments in front of it, or a window area with a coordinate in degrees, minutes and seconds. -/
inductive Harmful : Str → Prop
  | number (k : IntKey) (gap n : Str) : gap = [] ∨ gap.head? = some ';' → IsInt n → ¬ (Line.int k n).Fits →
      Harmful (k.key ++ gap ++ n)
  | window (rest d : Str) : d <:+: rest → IsDms d → Harmful (c!"WINDOWAREA:" ++ rest)

/-- Filter altitudes: zero is no filter. -/
def filterOf (n : Str) : Option Nat := if intValue n = 0 then none else some (intValue n).toNat

/-- The leader line: positive numbers are miles, others minutes. -/
def leaderOf (n : Str) : Leader :=
  if 0 < intValue n then .miles (intValue n).toNat else .minutes (-intValue n).toNat

/-- Only mode 4 (written exactly so) is a ground mode. -/
def modeOf (n : Str) : SimulationMode := if n = c!"4" then .ground else .radar

def displayTypeOf (v : Str) : DisplayType := if v = c!"Ground Radar display" then .groundRadar else .radar

section
variable {F : Type}

/-- The value of a setting: that of the first line that sets it, or the default. -/
def first {B : Type} (ws : List Line) (f : Line → Option B) (default : B) : B := (ws.filterMap f).head?.getD default

def Line.flag? (k : Flag) : Line → Option Bool
  | .flag k' b => if k' = k then some b else none
  | _ => none

def Line.int? (k : IntKey) : Line → Option Str
  | .int k' n => if k' = k then some n else none
  | _ => none

def Line.text? (k : TextKey) : Line → Option Str
  | .text k' v => if k' = k then some v else none
  | _ => none

def Line.name? (k : NameKey) : Line → Option Str
  | .named k' v => if k' = k then some v else none
  | _ => none

def Line.rotation? : Line → Option Str
  | .displayRotation x => some x
  | _ => none

def Line.window? : Line → Option (Str × Str × Str × Str)
  | .windowArea a b c d => some (a, b, c, d)
  | _ => none

def Line.runway? : Line → Option (Str × Str × Str × RunwayType)
  | .runway ap a b .centreline => some (ap, a, b, .centreline)
  | .runway ap a b .name => some (ap, a, b, .name)
  | _ => none

/-- What the file with the lines `ws` means; `num` gives the numbers their values. -/
structure Means (num : Str → F) (ws : List Line) (a : Asr F) : Prop where
  above : a.above = first ws (fun w => (w.int? .above).map filterOf) none
  below : a.below = first ws (fun w => (w.int? .below).map filterOf) none
  historyDots : (a.historyDots : Int) = first ws (fun w => (w.int? .historyDots).map intValue) 5
  leader : a.leader = first ws (fun w => (w.int? .leader).map leaderOf) (.minutes 3)
  simulationMode : a.simulationMode = first ws (fun w => (w.int? .simulationMode).map modeOf) .radar
  disablePanning : a.disablePanning = first ws (Line.flag? .disablePanning) false
  disableZooming : a.disableZooming = first ws (Line.flag? .disableZooming) false
  geoReferenced : a.displayTypeGeoReferenced = first ws (Line.flag? .geoReferenced) true
  needRadarContent : a.displayTypeNeedRadarContent = first ws (Line.flag? .needRadarContent) true
  showLeader : a.showLeader = first ws (Line.flag? .showLeader) false
  showC : a.showC = first ws (Line.flag? .showC) true
  showStandby : a.showStandby = first ws (Line.flag? .showStandby) false
  turnLeader : a.turnLeader = first ws (Line.flag? .turnLeader) false
  displayType : a.displayType = first ws (fun w => (w.text? .displayType).map displayTypeOf) .radar
  sectorFile : a.sectorFile = first ws (Line.text? .sectorFile) []
  sectorTitle : a.sectorTitle = first ws (Line.text? .sectorTitle) []
  tagFamily : a.tagFamily = first ws (Line.text? .tagFamily) c!"Matias (built in)"
  displayRotation : a.displayRotation = num (first ws Line.rotation? c!"0.0")
  windowArea :
    (fun (lat1, lng1, lat2, lng2) => a.windowArea = (⟨num lng1, num lat1⟩, ⟨num lng2, num lat2⟩))
      (first ws Line.window? (c!"46.529122", c!"6.678287", c!"50.105536", c!"16.599900"))
  /-- the last value of each key of each plugin -/
  plugins : ∀ p k, a.pluginSettings.get? (p, k) =
    (ws.filterMap fun | .plugin p' k' v => if p' = p ∧ k' = k then some v else none | _ => none).getLast?
  runways : a.map.runways = ws.filterMap Line.runway?
  airports : a.map.airports = ws.filterMap fun | .airport n t => some (n, t) | _ => none
  fixes : a.map.fixes = ws.filterMap fun | .fix n t => some (n, t) | _ => none
  ndbs : a.map.ndbs = ws.filterMap fun | .ndb n t => some (n, t) | _ => none
  vors : a.map.vors = ws.filterMap fun | .vor n t => some (n, t) | _ => none
  lowAirways : a.map.lowAirways = ws.filterMap fun | .lowAirway n t => some (n, t) | _ => none
  highAirways : a.map.highAirways = ws.filterMap fun | .highAirway n t => some (n, t) | _ => none
  groundNetwork : a.map.groundNetwork = ws.filterMap fun | .ground n t => some (n, t) | _ => none
  freeText : a.map.freeText = ws.filterMap fun | .freeText g n => some (g, n) | _ => none
  sids : a.map.sids = ws.filterMap (Line.name? .sid)
  stars : a.map.stars = ws.filterMap (Line.name? .star)
  geo : a.map.geo = ws.filterMap (Line.name? .geo)
  regions : a.map.regions = ws.filterMap (Line.name? .region)
  artccBoundary : a.map.artccBoundary = ws.filterMap (Line.name? .artcc)
  artccLowBoundary : a.map.artccLowBoundary = ws.filterMap (Line.name? .artccLow)
  artccHighBoundary : a.map.artccHighBoundary = ws.filterMap (Line.name? .artccHigh)

end

end Verif.Spec.Asr
