import Verif.Base.Radix
import Verif.Model.DefaultColours
/-!
# Colours

Models `/repo/src/adaptation/colours.rs` and the colour part of `Topsky::parse`,
`/repo/src/topsky/mod.rs`.
-/

namespace Verif.Colours

/-- `Colour`, colours.rs 16-21; a `u8` is a number below 256. -/
structure Colour where
  r : Fin 256
  g : Fin 256
  b : Fin 256
  a : Fin 256
deriving DecidableEq, Repr

/-- `Colour::from_rgb`, colours.rs 24-26 -/
def fromRgb (r g b : Fin 256) : Colour := ⟨r, g, b, 255⟩

/-- `u8::try_from` of an `i32` -/
def tryU8 (n : Int) : Option (Fin 256) :=
  if h : 0 ≤ n ∧ n < 256 then some ⟨n.toNat, by omega⟩ else none

/-- `Colour::from_euroscope`, colours.rs 28-34.  Rust's `/` and `%` truncate towards zero. -/
def fromEuroscope (n : Int) : Option Colour := do
  let r ← tryU8 (n.tmod 256)
  let g ← tryU8 ((n.tdiv 256).tmod 256)
  let b ← tryU8 ((n.tdiv 256).tdiv 256)
  pure (fromRgb r g b)

/-- `Colour::to_euroscope`, colours.rs 36-38.  The sum is below 2^24, so `i32` cannot overflow. -/
def toEuroscope (c : Colour) : Int := (c.r.val : Int) + c.g.val * 256 + c.b.val * 256 * 256

/-- `[0-9a-fA-F]` -/
def isHex (c : Char) : Bool :=
  isAsciiDigit c ||
    (decide ('a'.toNat ≤ c.toNat) && decide (c.toNat ≤ 'f'.toNat)) ||
    (decide ('A'.toNat ≤ c.toNat) && decide (c.toNat ≤ 'F'.toNat))

/-- The captures of `^#([0-9a-fA-F]{2})([0-9a-fA-F]{2})([0-9a-fA-F]{2})$`, colours.rs 58-62.
Without the multi-line flag `^` and `$` match only at the two ends of the text. -/
def captures : Str → Option (Str × Str × Str)
  | ['#', a, b, c, d, e, f] =>
    if [a, b, c, d, e, f].all isHex then some ([a, b], [c, d], [e, f]) else none
  | _ => none

/-- `u8::from_str_radix(s, 16).ok()` -/
def hexU8 (s : Str) : Option (Fin 256) :=
  (parseUnsigned 16 256 s).bind fun n => if h : n < 256 then some ⟨n, h⟩ else none

/-- `ColourVisitor::visit_str`, colours.rs 72-89; the error is `none`. -/
def deserialize (v : Str) : Option Colour :=
  (captures v).bind fun c =>
    ((hexU8 c.1).bind fun r => (hexU8 c.2.1).map (r, ·)).bind fun rg =>
      (hexU8 c.2.2).map fun b => fromRgb rg.1 rg.2 b

/-- `Serialize for Colour`, colours.rs 101-110 -/
def serialize (c : Colour) : Str :=
  '#' :: (padZero 2 (showRadix 16 c.r.val) ++ padZero 2 (showRadix 16 c.g.val) ++
    padZero 2 (showRadix 16 c.b.val))

/-- `Colour::from_topsky_default`, colours.rs 48-53 -/
def fromTopskyDefault (coopans : Bool) (key : Str) : Option Colour :=
  (((defaultColours.get? key).bind fun t => if coopans then t.2 else t.1)).map
    fun t => fromRgb t.1 t.2.1 t.2.2

/-- The colours of `Topsky::parse`, topsky/mod.rs 229-238: `HashMap::extend` of the settings' colours
by those of the maps file. -/
def topskyColours (settings maps : Map Str Colour) : Map Str Colour :=
  maps.foldl (fun (m : Map Str Colour) e => m.insert e.1 e.2) settings

/-- The field `other` of `Colours::from_euroscope`, colours.rs 551-578.  `HashMap::into_iter` yields
its entries in any order, here the order of the argument lists. -/
def otherColours (sct : Map Str Colour) (topsky : Option (Map Str Colour)) : Map Str Colour :=
  Map.ofList (sct ++ topsky.getD [])

/-- `Colours::get`, colours.rs 544-549 -/
def get (other : Map Str Colour) (coopans : Bool) (name : Str) : Option Colour :=
  (other.get? name).or (fromTopskyDefault coopans name)

/-- The fields of `MapColours` (colours.rs 114-139) and `SectorColours` (323-326). -/
inductive MapElement where
  | fixSymbol | fixName | airportSymbol | airportName | ndbSymbol | ndbName | ndbFrequency
  | vorSymbol | vorName | vorFrequency | lowAirwayLine | lowAirwayName | highAirwayLine
  | highAirwayName | sid | star | artccBoundary | artccLowBoundary | artccHighBoundary | geo
  | runwayCentreline | runwayExtendedCentreline | runwayName | freeText
  | activeBackground | inactiveBackground
deriving DecidableEq

/-- The symbology item read for each field, colours.rs 166-289 and 331-347. -/
def symbologyKey : MapElement → Str × Str
  | .fixSymbol => (c!"Fixes", c!"symbol")
  | .fixName => (c!"Fixes", c!"name")
  | .airportSymbol => (c!"Airports", c!"symbol")
  | .airportName => (c!"Airports", c!"name")
  | .ndbSymbol => (c!"NDBs", c!"symbol")
  | .ndbName => (c!"NDBs", c!"name")
  | .ndbFrequency => (c!"NDBs", c!"frequency")
  | .vorSymbol => (c!"VORs", c!"symbol")
  | .vorName => (c!"VORs", c!"name")
  | .vorFrequency => (c!"VORs", c!"frequency")
  | .lowAirwayLine => (c!"Low airways", c!"line")
  | .lowAirwayName => (c!"Low airways", c!"name")
  | .highAirwayLine => (c!"High airways", c!"line")
  | .highAirwayName => (c!"High airways", c!"line")
  | .sid => (c!"Sids", c!"line")
  | .star => (c!"Stars", c!"line")
  | .artccBoundary => (c!"ARTCC boundary", c!"line")
  | .artccLowBoundary => (c!"ARTCC low boundary", c!"line")
  | .artccHighBoundary => (c!"ARTCC high boundary", c!"line")
  | .geo => (c!"Geo", c!"line")
  | .runwayCentreline => (c!"Runways", c!"centerline")
  | .runwayExtendedCentreline => (c!"Runways", c!"extended centerline")
  | .runwayName => (c!"Runways", c!"name")
  | .freeText => (c!"Other", c!"freetext")
  | .activeBackground => (c!"Sector", c!"active sector background")
  | .inactiveBackground => (c!"Sector", c!"inactive sector background")

/-- The default of each field, colours.rs 141-164 and 328-329. -/
def mapDefault : MapElement → Colour
  | .activeBackground | .inactiveBackground => fromRgb 200 200 200
  | _ => fromRgb 0 0 0

/-- `MapColours::from_euroscope` and `SectorColours::from_euroscope`, through
`Colour::from_symbology`, colours.rs 40-46; `items` are the colours of the symbology items. -/
def mapColour (items : Map (Str × Str) Colour) (e : MapElement) : Colour :=
  (items.get? (symbologyKey e)).getD (mapDefault e)

/-- The fields of `TrackColours` (colours.rs 360-372) and `UIColours` (459-468). -/
inductive Role where
  | assumed | advanced | concerned | unconcerned | flightLeg | predictedAlert | currentAlert
  | reaction | cleared | vfr
  | foreground | background | armed | windowTitleBackgroundSelected | textInput | warning | alert
deriving DecidableEq

/-- The TopSky colour read for each field, colours.rs 385-438 and 478-516. -/
def roleKey : Role → Str
  | .assumed => c!"Assumed"
  | .advanced => c!"Concerned"
  | .concerned => c!"Redundant"
  | .unconcerned => c!"Unconcerned"
  | .flightLeg => c!"Flight_Leg"
  | .predictedAlert => c!"Warning"
  | .currentAlert => c!"Urgency"
  | .reaction => c!"Proposition_In"
  | .cleared => c!"Rwy_Locked"
  | .vfr => c!"VFR"
  | .foreground => c!"Foreground"
  | .background => c!"Background"
  | .armed => c!"Arm"
  | .windowTitleBackgroundSelected => c!"Background"
  | .textInput => c!"Field_Highlight"
  | .warning => c!"Warning"
  | .alert => c!"Urgency"

/-- The constants of colours.rs 374-383 and 470-476. -/
def roleDefault : Role → Colour
  | .assumed => fromRgb 0 0 0
  | .advanced => fromRgb 0 0 255
  | .concerned => fromRgb 0 0 255
  | .unconcerned => fromRgb 255 255 255
  | .flightLeg => fromRgb 0 0 0
  | .predictedAlert => fromRgb 255 255 0
  | .currentAlert => fromRgb 255 0 0
  | .reaction => fromRgb 230 185 184
  | .cleared => fromRgb 34 139 34
  | .vfr => fromRgb 180 150 95
  | .foreground => fromRgb 0 0 0
  | .background => fromRgb 192 192 192
  | .armed => fromRgb 160 160 160
  | .windowTitleBackgroundSelected => fromRgb 192 192 192
  | .textInput => fromRgb 170 224 224
  | .warning => fromRgb 255 255 0
  | .alert => fromRgb 255 0 0

/-- `TrackColours::from_euroscope`, `UIColours::from_euroscope`, colours.rs 385-438, 478-516 -/
def roleColour (topsky : Map Str Colour) (coopans : Bool) (r : Role) : Colour :=
  ((topsky.get? (roleKey r)).or (fromTopskyDefault coopans (roleKey r))).getD (roleDefault r)

end Verif.Colours
