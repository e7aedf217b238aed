import Verif.Grammar.Asr
import Verif.Parse.Isec
import Verif.Base.Map
/-!
# `/repo/src/asr.rs`
-/

namespace Verif.Parse.Asr
open Verif.Peg Verif.Peg.Asr

/-- `Leader`, asr.rs 26-30; the numbers are `u8`. -/
inductive Leader
  | miles (n : Nat)
  | minutes (n : Nat)
  deriving DecidableEq, Repr

/-- `SimulationMode`, asr.rs 32-37. -/
inductive SimulationMode
  | radar
  | ground
  deriving DecidableEq, Repr

/-- `DisplayType`, asr.rs 39-43. -/
inductive DisplayType
  | radar
  | groundRadar
  deriving DecidableEq, Repr

/-- `AsrMapFixType`, asr.rs 84-88. -/
inductive FixType
  | name
  | symbol
  deriving DecidableEq, Repr

/-- `AsrMapNavaidType`, asr.rs 89-94. -/
inductive NavaidType
  | name
  | symbol
  | frequency
  deriving DecidableEq, Repr

/-- `AsrMapRunwayType`, asr.rs 95-100. -/
inductive RunwayType
  | name
  | centreline
  deriving DecidableEq, Repr

/-- `AsrMapAirwayType`, asr.rs 101-105. -/
inductive AirwayElement
  | name
  | line
  deriving DecidableEq, Repr

/-- `AsrMapGroundNetworkType`, asr.rs 106-111. -/
inductive GroundNetworkType
  | exit
  | taxiway
  | terminalTaxiway
  deriving DecidableEq, Repr

/-- `AsrData`, asr.rs 45-82. -/
inductive AsrData (F : Type)
  | above (v : Option Nat)
  | below (v : Option Nat)
  | disablePanning (v : Bool)
  | disableZooming (v : Bool)
  | displayRotation (v : F)
  | displayType (v : DisplayType)
  | displayTypeGeoReferenced (v : Bool)
  | displayTypeNeedRadarContent (v : Bool)
  | historyDots (v : Nat)
  | leader (v : Leader)
  | sectorFile (v : Str)
  | sectorTitle (v : Str)
  | showLeader (v : Bool)
  | showC (v : Bool)
  | showStandby (v : Bool)
  | simulationMode (v : SimulationMode)
  | tagFamily (v : Str)
  | turnLeader (v : Bool)
  | windowArea (v : Point F × Point F)
  | pluginSetting (v : Str × Str × Str)
  | runway (v : Str × Str × Str × RunwayType)
  | airport (v : Str × FixType)
  | vor (v : Str × NavaidType)
  | ndb (v : Str × NavaidType)
  | fix (v : Str × FixType)
  | lowAirway (v : Str × AirwayElement)
  | highAirway (v : Str × AirwayElement)
  | sid (v : Str)
  | star (v : Str)
  | freeText (v : Str × Str)
  | geo (v : Str)
  | groundNetwork (v : Str × GroundNetworkType)
  | region (v : Str)
  | artccBoundary (v : Str)
  | artccLowBoundary (v : Str)
  | artccHighBoundary (v : Str)
  deriving DecidableEq

/-- `AsrMap`, asr.rs 113-131. -/
structure AsrMap where
  runways : List (Str × Str × Str × RunwayType) := []
  airports : List (Str × FixType) := []
  vors : List (Str × NavaidType) := []
  ndbs : List (Str × NavaidType) := []
  fixes : List (Str × FixType) := []
  lowAirways : List (Str × AirwayElement) := []
  highAirways : List (Str × AirwayElement) := []
  sids : List Str := []
  stars : List Str := []
  freeText : List (Str × Str) := []
  geo : List Str := []
  groundNetwork : List (Str × GroundNetworkType) := []
  regions : List Str := []
  artccBoundary : List Str := []
  artccLowBoundary : List Str := []
  artccHighBoundary : List Str := []
  deriving DecidableEq, Repr

/-- The closure of `From<Vec<AsrData>> for AsrMap`, asr.rs 135-155. -/
def AsrMap.push {F : Type} (acc : AsrMap) : AsrData F → AsrMap
  | .runway v => { acc with runways := acc.runways ++ [v] }
  | .airport v => { acc with airports := acc.airports ++ [v] }
  | .vor v => { acc with vors := acc.vors ++ [v] }
  | .ndb v => { acc with ndbs := acc.ndbs ++ [v] }
  | .fix v => { acc with fixes := acc.fixes ++ [v] }
  | .lowAirway v => { acc with lowAirways := acc.lowAirways ++ [v] }
  | .highAirway v => { acc with highAirways := acc.highAirways ++ [v] }
  | .sid v => { acc with sids := acc.sids ++ [v] }
  | .star v => { acc with stars := acc.stars ++ [v] }
  | .freeText v => { acc with freeText := acc.freeText ++ [v] }
  | .geo v => { acc with geo := acc.geo ++ [v] }
  | .groundNetwork v => { acc with groundNetwork := acc.groundNetwork ++ [v] }
  | .region v => { acc with regions := acc.regions ++ [v] }
  | .artccBoundary v => { acc with artccBoundary := acc.artccBoundary ++ [v] }
  | .artccLowBoundary v => { acc with artccLowBoundary := acc.artccLowBoundary ++ [v] }
  | .artccHighBoundary v => { acc with artccHighBoundary := acc.artccHighBoundary ++ [v] }
  | _ => acc

/-- `From<Vec<AsrData>> for AsrMap`, asr.rs 132-158. -/
def AsrMap.ofData {F : Type} (data : List (AsrData F)) : AsrMap := data.foldl AsrMap.push {}

/-- `Asr`, asr.rs 161-205. -/
structure Asr (F : Type) where
  above : Option Nat
  below : Option Nat
  disablePanning : Bool
  disableZooming : Bool
  displayRotation : F
  displayType : DisplayType
  displayTypeGeoReferenced : Bool
  displayTypeNeedRadarContent : Bool
  historyDots : Nat
  leader : Leader
  sectorFile : Str
  sectorTitle : Str
  showLeader : Bool
  showC : Bool
  showStandby : Bool
  simulationMode : SimulationMode
  tagFamily : Str
  turnLeader : Bool
  windowArea : Point F × Point F
  pluginSettings : Map (Str × Str) Str
  map : AsrMap

/-- `to_bool`, asr.rs 209-215. -/
def toBool (data : Str) : Option Bool :=
  if data = c!"0" then some false
  else if data = c!"1" then some true
  else none

section
variable {F : Type} [F64 F]

/-- `inner.next().unwrap().as_str()`. -/
def nextStr (ts : List (Tree Rule)) : Run (Str × List (Tree Rule)) := do
  let (t, ts) ← next ts
  return (t.asStr, ts)

/-- `inner.next().unwrap().as_str().parse::<f64>().unwrap()`, as in asr.rs 294 and 300-303. -/
def nextF64 (ts : List (Tree Rule)) : Run (F × List (Tree Rule)) := do
  let (s, ts) ← nextStr ts
  let v ← unwrap (F64.ofText s)
  return (v, ts)

/-- `parse_setting`, asr.rs 217-425.  The integer types of the `parse` calls are those of the fields of
`AsrData`: `u32` (239, 247), `i8` (255), `u8` (266). -/
def parseSetting (pair : Tree Rule) : Run (Option (AsrData F)) :=
  let rule := pair.asRule
  let inner := pair.inner
  match rule with
  | .display_type => do
    let (s, _) ← nextStr inner
    return some (.displayType (if s = c!"Ground Radar display" then .groundRadar
      else if s = c!"Standard ES radar screen" then .radar else .radar))
  | .display_type_need_radar_content => do
    let (s, _) ← nextStr inner
    return (toBool s).map .displayTypeNeedRadarContent
  | .display_type_geo_referenced => do
    let (s, _) ← nextStr inner
    return (toBool s).map .displayTypeGeoReferenced
  | .sector_file => do
    let (s, _) ← nextStr inner
    return some (.sectorFile s)
  | .sector_title => do
    let (s, _) ← nextStr inner
    return some (.sectorTitle s)
  | .show_c => do
    let (s, _) ← nextStr inner
    return (toBool s).map .showC
  | .show_standby => do
    let (s, _) ← nextStr inner
    return (toBool s).map .showStandby
  | .above => do
    let (s, _) ← nextStr inner
    let filter ← unwrap (parseUnsigned 10 (2 ^ 32) s)
    return some (if filter = 0 then .above none else .above (some filter))
  | .below => do
    let (s, _) ← nextStr inner
    let filter ← unwrap (parseUnsigned 10 (2 ^ 32) s)
    return some (if filter = 0 then .below none else .below (some filter))
  | .leader => do
    let (s, _) ← nextStr inner
    let leader ← unwrap (parseSigned (2 ^ 7) s)
    return some (if 0 < leader then .leader (.miles leader.toNat) else .leader (.minutes leader.natAbs))
  | .show_leader => do
    let (s, _) ← nextStr inner
    return (toBool s).map .showLeader
  | .turn_leader => do
    let (s, _) ← nextStr inner
    return (toBool s).map .turnLeader
  | .history_dots => do
    let (s, _) ← nextStr inner
    let n ← unwrap (parseUnsigned 10 (2 ^ 8) s)
    return some (.historyDots n)
  | .simulation_mode => do
    let (s, _) ← nextStr inner
    return some (.simulationMode (if s = c!"1" then .radar else if s = c!"4" then .ground else .radar))
  | .disable_panning => do
    let (s, _) ← nextStr inner
    return (toBool s).map .disablePanning
  | .disable_zooming => do
    let (s, _) ← nextStr inner
    return (toBool s).map .disableZooming
  | .display_rotation => do
    let (v, _) ← nextF64 inner
    return some (.displayRotation v)
  | .tag_family => do
    let (s, _) ← nextStr inner
    return some (.tagFamily s)
  | .window_area => do
    let (lat1, inner) ← nextF64 inner
    let (lng1, inner) ← nextF64 inner
    let (lat2, inner) ← nextF64 inner
    let (lng2, _) ← nextF64 inner
    return some (.windowArea ({ x := lng1, y := lat1 }, { x := lng2, y := lat2 }))
  | .plugin => do
    let (plugin, inner) ← nextStr inner
    let (key, inner) ← nextStr inner
    let (value, _) ← nextStr inner
    return some (.pluginSetting (plugin, key, value))
  | .runways => do
    let (airport, inner) ← nextStr inner
    let (desigA, inner) ← nextStr inner
    let (desigB, inner) ← nextStr inner
    let (val, _) ← next inner
    match val.asRule with
    | .centerline => return some (.runway (airport, desigA, desigB, .centreline))
    | .name => return some (.runway (airport, desigA, desigB, .name))
    | .ext_centerline => return none
    | _ => .error .panic
  | .airports => do
    let (name, inner) ← nextStr inner
    let (t, _) ← next inner
    match t.asRule with
    | .symbol => return some (.airport (name, .symbol))
    | .name => return some (.airport (name, .name))
    | _ => .error .panic
  | .fixes => do
    let (name, inner) ← nextStr inner
    let (t, _) ← next inner
    match t.asRule with
    | .symbol => return some (.fix (name, .symbol))
    | .name => return some (.fix (name, .name))
    | _ => .error .panic
  | .ndbs => do
    let (name, inner) ← nextStr inner
    let (t, _) ← next inner
    match t.asRule with
    | .symbol => return some (.ndb (name, .symbol))
    | .name => return some (.ndb (name, .name))
    | .frequency => return some (.ndb (name, .frequency))
    | _ => .error .panic
  | .vors => do
    let (name, inner) ← nextStr inner
    let (t, _) ← next inner
    match t.asRule with
    | .symbol => return some (.vor (name, .symbol))
    | .name => return some (.vor (name, .name))
    | .frequency => return some (.vor (name, .frequency))
    | _ => .error .panic
  | .sids => do
    let (s, _) ← nextStr inner
    return some (.sid s)
  | .stars => do
    let (s, _) ← nextStr inner
    return some (.star s)
  | .low_airways => do
    let (name, inner) ← nextStr inner
    let (t, _) ← next inner
    match t.asRule with
    | .line => return some (.lowAirway (name, .line))
    | .name => return some (.lowAirway (name, .name))
    | _ => .error .panic
  | .high_airways => do
    let (name, inner) ← nextStr inner
    let (t, _) ← next inner
    match t.asRule with
    | .line => return some (.highAirway (name, .line))
    | .name => return some (.highAirway (name, .name))
    | _ => .error .panic
  | .free_text => do
    let (a, inner) ← nextStr inner
    let (b, _) ← nextStr inner
    return some (.freeText (a, b))
  | .artcc_boundary => do
    let (s, _) ← nextStr inner
    return some (.artccBoundary s)
  | .artcc_high_boundary => do
    let (s, _) ← nextStr inner
    return some (.artccHighBoundary s)
  | .artcc_low_boundary => do
    let (s, _) ← nextStr inner
    return some (.artccLowBoundary s)
  | .geo => do
    let (s, _) ← nextStr inner
    return some (.geo s)
  | .ground_network => do
    let (name, inner) ← nextStr inner
    let (t, _) ← next inner
    match t.asRule with
    | .exit => return some (.groundNetwork (name, .exit))
    | .taxiway => return some (.groundNetwork (name, .taxiway))
    | .terminal_taxiway => return some (.groundNetwork (name, .terminalTaxiway))
    | _ => .error .panic
  | .regions => do
    let (s, _) ← nextStr inner
    return some (.region s)
  | .EOI => .ok none
  | _ => .error .panic

/-- `filter_map(parse_setting).collect()`, asr.rs 434-435: a panic of any element panics. -/
def collect : List (Tree Rule) → Run (List (AsrData F))
  | [] => .ok []
  | t :: ts => do
    let d ← parseSetting t
    let ds ← collect ts
    return d.toList ++ ds

/-- The floating-point literal `ds.fs` of the source. -/
def lit (F : Type) [F64 F] (ds fs : Str) (h : IsDigits ds ∧ IsDigits fs) : F :=
  (F64.ofText (ds ++ '.' :: fs)).get (F64.ofText_decimal _
    ⟨[], ds, '.' :: fs, rfl, Or.inl rfl, h.1.2, Or.inr ⟨fs, rfl, h.2⟩⟩)

/-- `sections.iter().find_map(..).unwrap_or(default)`, the shape of asr.rs 439-646. -/
def findMapOr {A B : Type} (l : List A) (f : A → Option B) (default : B) : B := (l.findSome? f).getD default

/-- The part of `Asr::parse` after the parsing, asr.rs 439-674. -/
def build (sections : List (AsrData F)) : Asr F where
  above := findMapOr sections (fun | .above v => some v | _ => none) none
  below := findMapOr sections (fun | .below v => some v | _ => none) none
  disablePanning := findMapOr sections (fun | .disablePanning v => some v | _ => none) false
  disableZooming := findMapOr sections (fun | .disableZooming v => some v | _ => none) false
  displayRotation := findMapOr sections (fun | .displayRotation v => some v | _ => none) (lit F c!"0" c!"0" (by decide))
  displayType := findMapOr sections (fun | .displayType v => some v | _ => none) .radar
  displayTypeGeoReferenced :=
    findMapOr sections (fun | .displayTypeGeoReferenced v => some v | _ => none) true
  displayTypeNeedRadarContent :=
    findMapOr sections (fun | .displayTypeNeedRadarContent v => some v | _ => none) true
  historyDots := findMapOr sections (fun | .historyDots v => some v | _ => none) 5
  leader := findMapOr sections (fun | .leader v => some v | _ => none) (.minutes 3)
  sectorFile := findMapOr sections (fun | .sectorFile v => some v | _ => none) []
  sectorTitle := findMapOr sections (fun | .sectorTitle v => some v | _ => none) []
  showLeader := findMapOr sections (fun | .showLeader v => some v | _ => none) false
  showC := findMapOr sections (fun | .showC v => some v | _ => none) true
  showStandby := findMapOr sections (fun | .showStandby v => some v | _ => none) false
  simulationMode := findMapOr sections (fun | .simulationMode v => some v | _ => none) .radar
  tagFamily := findMapOr sections (fun | .tagFamily v => some v | _ => none) c!"Matias (built in)"
  turnLeader := findMapOr sections (fun | .turnLeader v => some v | _ => none) false
  windowArea := findMapOr sections (fun | .windowArea v => some v | _ => none)
    ({ x := lit F c!"6" c!"678287" (by decide), y := lit F c!"46" c!"529122" (by decide) },
     { x := lit F c!"16" c!"599900" (by decide), y := lit F c!"50" c!"105536" (by decide) })
  pluginSettings := Map.ofList (sections.filterMap
    (fun | .pluginSetting (plugin, key, value) => some ((plugin, key), value) | _ => none))
  map := AsrMap.ofData sections

/-- `Asr::parse`, asr.rs 427-675, from the decoded text on. -/
def parse (content : Str) : Run (Asr F) := do
  let pairs ← run skip asr content
  let (p, _) ← next pairs
  let sections ← collect p.inner
  return build sections

end

end Verif.Parse.Asr
