import Verif.Model.Settings
import Verif.Model.PrfPaths
import Verif.Parse.Symbology
import Verif.Parse.Topsky
/-!
# The settings of an adaptation

Models `LineSettings`, `LabelSettings`, `MapsSettings`, `CoordinationSettings::default` and `Settings` of
`/repo/src/adaptation/settings/mod.rs`, all of `/repo/src/adaptation/settings/track.rs`, and
`Settings::parse_with_default` of `/repo/src/topsky/settings.rs`.  `F` is `f64`, `G` is `f32`.
-/

namespace Verif.Display
open Verif.Parse.Symbology (Item Alignment)
open Verif.Parse.Topsky (LineStyle Topsky)
open Verif.Parse.Asr (lit)
open Verif.PrfPaths (Prf Path recentPath)
open Verif.Settings (SquawkDef CoordinationSettings)

/-- The operations on `f32` that are used. -/
class F32Ops (G : Type) where
  add : G → G → G
  sub : G → G → G
  mul : G → G → G
  /-- `==` -/
  eq : G → G → Bool
  /-- `Time::new::<minute>` -/
  minutes : G → G

/-! ## Lines -/

/-- The fields of `LineSettings`, settings/mod.rs 19-38 -/
inductive LineKind
  | runwayCentreline | geo | sid | star | highAirways | lowAirways | artccLow | artcc | artccHigh
  deriving DecidableEq, Repr

/-- The keys looked up, settings/mod.rs 60-86 -/
def lineKey : LineKind → Str × Str
  | .runwayCentreline => (c!"Runways", c!"centerline")
  | .geo => (c!"Geo", c!"line")
  | .sid => (c!"Sids", c!"line")
  | .star => (c!"Stars", c!"line")
  | .highAirways => (c!"High airways", c!"line")
  | .lowAirways => (c!"Low airways", c!"line")
  | .artccHigh => (c!"ARTCC high boundary", c!"line")
  | .artcc => (c!"ARTCC boundary", c!"line")
  | .artccLow => (c!"ARTCC low boundary", c!"line")

section
variable {G : Type}

/-- A field of `LineSettings::from_euroscope`, settings/mod.rs 59-179.  All the defaults (40-57) are the same. -/
def lineStyle (items : Map (Str × Str) (Item G)) (k : LineKind) : LineStyle :=
  match items.get? (lineKey k) with
  | some item => ⟨item.lineWeight, item.lineStyle⟩
  | none => ⟨1, c!"SOLID"⟩

/-! ## Labels -/

/-- The labels of `LabelSettings`, settings/mod.rs 227-238 -/
inductive LabelKind
  | vor | ndb | fix | airport | runway
  deriving DecidableEq, Repr

/-- The keys looked up, settings/mod.rs 243-257 -/
def labelKey : LabelKind → Str × Str
  | .runway => (c!"Runways", c!"name")
  | .fix => (c!"Fixes", c!"name")
  | .vor => (c!"VORs", c!"name")
  | .ndb => (c!"NDBs", c!"name")
  | .airport => (c!"Airports", c!"name")

/-- An alignment of `LabelSettings::from_euroscope`, settings/mod.rs 258-277, with `Alignment::default`, adaptation/mod.rs
57-76 -/
def labelAlignment (items : Map (Str × Str) (Item G)) (k : LabelKind) : Alignment :=
  ((items.get? (labelKey k)).map Item.alignment).getD ⟨.center, .center⟩

variable [F64 G] [F32Ops G]

/-- A font size of `LabelSettings::from_euroscope`, settings/mod.rs 258-277; the constants are 16 and 240 -/
def labelSize (items : Map (Str × Str) (Item G)) (k : LabelKind) : G :=
  F32Ops.mul (((items.get? (labelKey k)).map Item.scale).getD (lit G c!"3" c!"0" (by decide))) (lit G c!"3" c!"5" (by decide))

/-! ## Settings of TopSky -/

/-- `Settings::parse_with_default`, topsky/settings.rs 25-37; `parse` is `str::parse` -/
def parseWithDefault {T : Type} (parse : Str → Option T) (settings : Map Str Str) (key : Str) (default : T) : T :=
  ((settings.get? key).bind parse).getD default

/-- `HistoryDotsSettings`, settings/track.rs 10-14 -/
structure HistoryDots where
  enabled : Bool
  count : Nat
  options : List Nat
  deriving DecidableEq

/-- `HistoryDotsSettings::default`, settings/track.rs 33-41 -/
def HistoryDots.default : HistoryDots := ⟨false, 6, [0, 1, 2, 3, 4, 5, 6, 7, 8]⟩

/-- `HistoryDotsSettings::from_topsky`, settings/track.rs 17-31 -/
def HistoryDots.fromTopsky (settings : Map Str Str) : HistoryDots :=
  let n := parseWithDefault (parseUnsigned 10 (2 ^ 32)) settings c!"Track_HistoryDots" 6
  { HistoryDots.default with count := if n ≠ 0 then n else 6, enabled := decide (n ≠ 0) }

/-- `VectorSettings`, settings/track.rs 43-47 -/
structure Vector (G : Type) where
  enabled : Bool
  length : G
  options : List G
  deriving DecidableEq

/-- `VectorSettings::default`, settings/track.rs 66-76 -/
def Vector.default (G : Type) [F64 G] : Vector G where
  enabled := false
  length := lit G c!"1" c!"0" (by decide)
  options := [lit G c!"0" c!"5" (by decide), lit G c!"1" c!"0" (by decide), lit G c!"2" c!"0" (by decide),
    lit G c!"3" c!"0" (by decide), lit G c!"4" c!"0" (by decide), lit G c!"5" c!"0" (by decide),
    lit G c!"6" c!"0" (by decide), lit G c!"7" c!"0" (by decide), lit G c!"8" c!"0" (by decide),
    lit G c!"9" c!"0" (by decide), lit G c!"10" c!"0" (by decide), lit G c!"15" c!"0" (by decide),
    lit G c!"20" c!"0" (by decide)]

/-- `VectorSettings::from_topsky`, settings/track.rs 50-63 -/
def Vector.fromTopsky (settings : Map Str Str) : Vector G :=
  let length := parseWithDefault F64.ofText settings c!"Track_PredictionLine" (lit G c!"1" c!"0" (by decide))
  { Vector.default G with
    length := if F32Ops.eq length (lit G c!"0" c!"0" (by decide)) then lit G c!"1" c!"0" (by decide) else length
    enabled := !F32Ops.eq length (lit G c!"0" c!"0" (by decide)) }

/-- `MapsSettings::font_size`, settings/mod.rs 317-320 -/
def mapsFontSize (topsky : Option (Map Str Str)) : G :=
  match topsky with
  | some settings => parseWithDefault F64.ofText settings c!"Maps_FontSize" (lit G c!"12" c!"0" (by decide))
  | none => lit G c!"12" c!"0" (by decide)

/-- `Settings::coopans`, settings/mod.rs 474-476 -/
def coopans (topsky : Option (Map Str Str)) : Bool :=
  ((topsky.bind fun t => t.get? c!"Setup_COOPANS").map fun v => decide (v ≠ c!"0")).getD true

end

/-! ## All of them -/

/-- `MapsSettings`, settings/mod.rs 298-307, with the fields of `LineSettings` and `LabelSettings` as functions of their
kind. -/
structure MapsSettings (F G : Type) where
  font : Option Path
  fontSize : G
  autoFolder : Str
  layer : G
  labelOffset : F × F
  lineStyles : LineKind → LineStyle
  labelAlignments : LabelKind → Alignment
  labelSizes : LabelKind → G

/-- `Settings`, settings/mod.rs 452-462 -/
structure Settings (F G : Type) where
  maps : MapsSettings F G
  vector : Vector G
  historyDots : HistoryDots
  coopans : Bool
  specialUseCodes : Map Str Str
  asrFiles : List Path
  coordination : CoordinationSettings G

section
variable {F G : Type} [F64 F] [F64 G] [F32Ops G]

/-- `MapsSettings::from_euroscope`, settings/mod.rs 310-340 -/
def MapsSettings.fromEuroscope (items : Map (Str × Str) (Item G)) (topsky : Option (Map Str Str)) : MapsSettings F G where
  font := none
  fontSize := mapsFontSize topsky
  autoFolder := c!"AUTO"
  layer := lit G c!"1" c!"0" (by decide)
  labelOffset := (lit F c!"3" c!"0" (by decide), lit F c!"3" c!"0" (by decide))
  lineStyles := lineStyle items
  labelAlignments := labelAlignment items
  labelSizes := labelSize items

/-- `(lower..upper).filter_map(|i| prf.recent_path(i))` -/
def recentPaths (prf : Prf) : List Nat → Run (List Path)
  | [] => .ok []
  | i :: l => do
    let p ← recentPath prf i
    let ps ← recentPaths prf l
    .ok (match p with
      | some p => p :: ps
      | none => ps)

/-- `CoordinationSettings::default`, settings/mod.rs 409-412 and 440-448 -/
def defaultCoordination : CoordinationSettings G where
  act := F32Ops.minutes (lit G c!"15" c!"0" (by decide))
  abi := F32Ops.minutes (lit G c!"30" c!"0" (by decide))
  rev := F32Ops.minutes (lit G c!"5" c!"0" (by decide))
  lamTimeout := lit G c!"5" c!"0" (by decide)
  firOverrides := []

/-- `Settings::from_euroscope`, settings/mod.rs 465-485.  `topsky` are the settings of TopSky, `squawks` the definitions of
`squawks.json`. -/
def Settings.fromEuroscope (items : Map (Str × Str) (Item G)) (topsky : Option (Map Str Str)) (squawks : Option (List SquawkDef))
    (prf : Prf) : Run (Settings F G) := do
  let asrFiles ← recentPaths prf [1, 2, 3, 4, 5, 6, 7, 8, 9]
  .ok {
    maps := MapsSettings.fromEuroscope items topsky
    vector := match topsky with | some t => Vector.fromTopsky t | none => Vector.default G
    historyDots := match topsky with | some t => HistoryDots.fromTopsky t | none => HistoryDots.default
    coopans := Display.coopans topsky
    specialUseCodes := match squawks with | some s => Verif.Settings.specialUseCodes s | none => []
    asrFiles
    coordination := defaultCoordination }

end
end Verif.Display
