import Verif.Grammar.Topsky
import Verif.Parse.SymbolRule
import Verif.Parse.TopskySettings
import Verif.Parse.Sct
/-!
# TopSky symbols and maps

Models `/repo/src/topsky/symbol.rs`, `/repo/src/topsky/map/mod.rs`, `/repo/src/topsky/map/active.rs` and
`Topsky::parse` of `/repo/src/topsky/mod.rs`.  `F` stands for `f64`, `G` for `f32` and `upper` for
`str::to_uppercase`.
-/

namespace Verif.Parse.Topsky
open Verif.Peg Verif.Peg.Topsky Verif.Dms
open Verif.Settings (SymbolRule)
open Verif.Parse.SymbolRule (Kind Close parseRule parsePoint)
open Verif.Parse.Sct (Loc)
open Verif.Parse.TopskySettings (ColourDef parseU8)
open Verif.Colours (fromRgb)

/-! ## Types -/

/-- `SymbolDef`, topsky/symbol.rs 13-17 -/
structure SymbolDef (F : Type) where
  name : Str
  rules : List (SymbolRule F)
  deriving DecidableEq

/-- `RunwayIdentifier`, adaptation/maps/active.rs 5-8 -/
structure RunwayIdentifier where
  icao : Str
  designator : Str
  deriving DecidableEq, Repr

/-- `ActiveIds`, adaptation/maps/active.rs 11-16 -/
structure ActiveIds where
  own : Option (List Str)
  ownExcludes : Option (List Str)
  online : Option (List Str)
  onlineExcludes : Option (List Str)
  deriving DecidableEq, Repr

/-- `ActiveRunways`, adaptation/maps/active.rs 19-24 -/
structure ActiveRunways where
  arrival : Option (List RunwayIdentifier)
  arrivalExcludes : Option (List RunwayIdentifier)
  departure : Option (List RunwayIdentifier)
  departureExcludes : Option (List RunwayIdentifier)
  deriving DecidableEq, Repr

/-- `ActiveAreas`, adaptation/maps/active.rs 27-30 -/
structure ActiveAreas where
  areas : List Str
  areaExcludes : Option (List Str)
  deriving DecidableEq, Repr

/-- `ActiveMapOperator`, adaptation/maps/active.rs 33-36 -/
inductive ActiveMapOperator
  | same | opposite
  deriving DecidableEq, Repr

/-- `Active`, adaptation/maps/active.rs 39-50 -/
inductive Active
  | true
  | schedule
  | aup (l : List Str)
  | notam (icao : Str) (l : List Str)
  | area (a : ActiveAreas)
  | id (a : ActiveIds)
  | callsign (a : ActiveIds)
  | runway (a : ActiveRunways)
  | map (op : ActiveMapOperator) (folder name : Str)
  deriving DecidableEq, Repr

/-- `Label`, topsky/map/mod.rs 78-83 -/
structure Label (F : Type) where
  text : Str
  pos : F × F
  deriving DecidableEq

/-- `MapSymbol`, topsky/map/mod.rs 84-90.  `label_alignment` is left out: it is always `None`. -/
structure MapSymbol (F : Type) where
  name : Str
  location : Loc F
  label : Option (Label F)
  deriving DecidableEq

/-- `Text`, topsky/map/mod.rs 119-124.  `alignment` is left out: it is always `None`. -/
structure Text (F : Type) where
  location : Loc F
  content : Str
  deriving DecidableEq

/-- `FontSize`, topsky/map/mod.rs 146-153 -/
inductive FontSize (G : Type)
  | exact (x : G)
  | add (x : G)
  | subtract (x : G)
  | multiply (x : G)
  | default
  deriving DecidableEq

/-- `LineStyle`, adaptation/line_styles.rs 14-17 -/
structure LineStyle where
  width : Int
  style : Str
  deriving DecidableEq, Repr

/-- `MapRule`, topsky/map/mod.rs 224-243.  A `MapLine` is its list of points. -/
inductive MapRule (F G : Type)
  | folder (s : Str)
  | colour (s : Str)
  | asrData (l : Option (List Str))
  | active (a : Active)
  | andActive (a : Active)
  | global
  | screenSpecific
  | hidden
  | layer (x : G)
  | symbol (s : MapSymbol F)
  | zoom (x : G)
  | fontSize (x : FontSize G)
  | lineStyle (s : LineStyle)
  | line (l : List (List (Loc F)))
  | text (t : Text F)
  | coordPoly (s : Str)
  | coordLine
  | coord (l : Loc F)
  deriving DecidableEq

/-- `OverrideSct`, topsky/map/mod.rs 314-318 -/
structure OverrideSct where
  folder : Str
  name : Option Str
  deriving DecidableEq, Repr

/-- `LineStyleDef`, topsky/map/mod.rs 326-332 -/
structure LineStyleDef (G : Type) where
  name : Str
  brush : Str
  hatch : Str
  dashLengths : List G
  deriving DecidableEq

/-- `MapDef`, topsky/map/mod.rs 334-338 -/
structure MapDef (F G : Type) where
  name : Str
  rules : List (MapRule F G)
  deriving DecidableEq

/-- `MapDefinition`, topsky/map/mod.rs 408-414 -/
inductive MapDefinition (F G : Type)
  | map (d : MapDef F G)
  | colour (d : ColourDef)
  | symbol (d : SymbolDef F)
  | override (d : OverrideSct)
  | lineStyle (d : LineStyleDef G)
  deriving DecidableEq

/-! ## Symbols -/

/-- The patterns of the match in `parse_symbol_rules`, topsky/symbol.rs 24-98 -/
def kind : Rule → Option Kind
  | .moveto => some .moveto
  | .line => some .line
  | .fillarc => some .fillarc
  | .fillarc_ellipse => some .fillarcEllipse
  | .arc => some .arc
  | .arc_ellipse => some .arcEllipse
  | .ellipse => some .ellipse
  | .ellipse_circle => some .ellipseCircle
  | .polygon => some .polygon
  | .pixel => some .pixel
  | .fillrect => some .fillrect
  | _ => none

/-- `inner.next().unwrap().as_str()` -/
def nextStr (ts : List (Tree Rule)) : Run (Str × List (Tree Rule)) := do
  let (t, ts) ← next ts
  return (t.asStr, ts)

/-- `parse_symbol`, topsky/symbol.rs 103-116 -/
def parseSymbol {F : Type} [F64 F] [Close F] (pair : Tree Rule) : Run (Option (SymbolDef F)) :=
  match pair.asRule with
  | .symbol | .symboldef => do
    let (name, symbol) ← nextStr pair.inner
    let rules ← symbol.mapM (parseRule kind)
    return some { name, rules }
  | .EOI => return none
  | _ => .error .panic

/-- `parse_topsky_symbols`, topsky/symbol.rs 118-133, after the bytes have been read as text -/
def parseSymbols {F : Type} [F64 F] [Close F] (contents : Str) : Run (Map Str (SymbolDef F)) := do
  let pairs ← run skip symbols contents
  let (p, _) ← next pairs
  let found ← p.inner.mapM parseSymbol
  return Map.ofList ((found.filterMap id).map fun s => (s.name, s))

/-! ## Conditions -/

/-- `pair.into_inner().map(|pair| pair.as_str().to_string()).collect()` -/
def strings (ts : List (Tree Rule)) : List Str := ts.map Tree.asStr

/-- `RunwayIdentifier::parse`, topsky/map/active.rs 9-14 -/
def parseRunwayIdentifier (pair : Tree Rule) : Run RunwayIdentifier := do
  let (icao, rwy) ← nextStr pair.inner
  let (designator, _) ← nextStr rwy
  return { icao, designator }

/-- `ActiveIds::parse_value`, topsky/map/active.rs 32-42; also the match in `MapRule::parse`,
topsky/map/mod.rs 260-268 -/
def parseNames (pair : Tree Rule) : Run (Option (List Str)) :=
  match pair.asRule with
  | .wildcard => return none
  | .names => return some (strings pair.inner)
  | _ => .error .panic

/-- `Self::parse_value(active.next().unwrap())` of `ActiveIds` -/
def nextNames (ts : List (Tree Rule)) : Run (Option (List Str) × List (Tree Rule)) := do
  let (t, ts) ← next ts
  let v ← parseNames t
  return (v, ts)

/-- `ActiveIds::parse`, topsky/map/active.rs 18-30 -/
def parseActiveIds (pair : Tree Rule) : Run ActiveIds := do
  let (own, active) ← nextNames pair.inner
  let (ownExcludes, active) ← nextNames active
  let (online, active) ← nextNames active
  let (onlineExcludes, _) ← nextNames active
  return { own, ownExcludes, online, onlineExcludes }

/-- `ActiveRunways::parse_value`, topsky/map/active.rs 73-79 -/
def parseRunways (pair : Tree Rule) : Run (Option (List RunwayIdentifier)) :=
  match pair.asRule with
  | .wildcard => return none
  | .runways => do
    let l ← pair.inner.mapM parseRunwayIdentifier
    return some l
  | _ => .error .panic

/-- `Self::parse_value(active.next().unwrap())` of `ActiveRunways` -/
def nextRunways (ts : List (Tree Rule)) : Run (Option (List RunwayIdentifier) × List (Tree Rule)) := do
  let (t, ts) ← next ts
  let v ← parseRunways t
  return (v, ts)

/-- `ActiveRunways::parse`, topsky/map/active.rs 46-56 -/
def parseActiveRunways (pair : Tree Rule) : Run ActiveRunways := do
  let (arrival, active) ← nextRunways pair.inner
  let (departure, _) ← nextRunways active
  return { arrival, arrivalExcludes := none, departure, departureExcludes := none }

/-- `ActiveRunways::parse_with_excludes`, topsky/map/active.rs 58-71 -/
def parseActiveRunwaysWithExcludes (pair : Tree Rule) : Run ActiveRunways := do
  let (arrival, active) ← nextRunways pair.inner
  let (arrivalExcludes, active) ← nextRunways active
  let (departure, active) ← nextRunways active
  let (departureExcludes, _) ← nextRunways active
  return { arrival, arrivalExcludes, departure, departureExcludes }

/-- `ActiveAreas::parse`, topsky/map/active.rs 83-95 -/
def parseActiveAreas (pair : Tree Rule) : Run ActiveAreas := do
  let (a, _) ← next pair.inner
  return { areas := strings a.inner, areaExcludes := none }

/-- `ActiveAreas::parse_with_excludes`, topsky/map/active.rs 97-117 -/
def parseActiveAreasWithExcludes (pair : Tree Rule) : Run ActiveAreas := do
  let (a, active) ← next pair.inner
  let (b, _) ← next active
  return { areas := strings a.inner, areaExcludes := some (strings b.inner) }

/-- The match on the operator of a map condition, topsky/map/active.rs 152-156 -/
def parseOperator (s : Str) : Run ActiveMapOperator :=
  if s = c!"!" then .ok .opposite
  else if s = c!"=" then .ok .same
  else .error .panic

/-- `Active::parse`, topsky/map/active.rs 121-166 -/
def parseActive (pair : Tree Rule) : Run Active := do
  let (active, _) ← next pair.inner
  match active.asRule with
  | .active_always => return .true
  | .active_id => do
    let v ← parseActiveIds active
    return .id v
  | .active_callsign => do
    let v ← parseActiveIds active
    return .callsign v
  | .active_aup => return .aup (strings active.inner)
  | .active_notam => do
    let (icao, ts) ← nextStr active.inner
    return .notam icao (strings ts)
  | .active_area => do
    let v ← parseActiveAreas active
    return .area v
  | .active_area_with_excludes => do
    let v ← parseActiveAreasWithExcludes active
    return .area v
  | .active_sched => return .schedule
  | .active_rwy => do
    let v ← parseActiveRunways active
    return .runway v
  | .active_rwy_with_excludes => do
    let v ← parseActiveRunwaysWithExcludes active
    return .runway v
  | .active_map => do
    let (op, ts) ← nextStr active.inner
    let op ← parseOperator op
    let (folder, ts) ← nextStr ts
    let (name, _) ← nextStr ts
    return .map op folder name
  | _ => .error .panic

/-! ## Maps -/

/-- `CoordinatePart`, topsky/map/mod.rs 25-28 -/
inductive CoordinatePart (F : Type)
  | decimal (x : F)
  | degMinSec (x : DegMinSec F)

section
variable {F : Type} [F64 F]

/-- `CoordinatePart::parse`, topsky/map/mod.rs 30-52 -/
def parseCoordinatePart (pair : Tree Rule) : Run (CoordinatePart F) := do
  let (p, _) ← next pair.inner
  match p.asRule with
  | .decimal => do
    let v ← unwrap (F64.ofText p.asStr)
    return .decimal v
  | .sct_coord_part => do
    let (hemi, ts) ← nextStr p.inner
    let sign ← Sign.ofHemi hemi
    let (d, ts) ← nextStr ts
    let deg ← unwrap (parseUnsigned 10 (2 ^ 16) d)
    let (m, ts) ← nextStr ts
    let min ← unwrap (parseUnsigned 10 (2 ^ 8) m)
    let (s, _) ← nextStr ts
    let sec ← unwrap (F64.ofText s)
    return .degMinSec { sign, deg, min, sec }
  | _ => .error .panic

variable [DmsArith F]

/-- The match in `parse_coord`, topsky/map/mod.rs 59-65 -/
def joinParts : CoordinatePart F → CoordinatePart F → Run (Point F)
  | .decimal y, .decimal x => .ok { x, y }
  | .degMinSec lat, .degMinSec lng => .ok (fromDegMinSec lat lng)
  | _, _ => .error .panic

/-- `parse_coord`, topsky/map/mod.rs 55-66 -/
def parseCoord (pair : Tree Rule) : Run (Point F) := do
  let (a, coordinate) ← next pair.inner
  let lat ← parseCoordinatePart a
  let (b, _) ← next coordinate
  let lng ← parseCoordinatePart b
  joinParts lat lng

/-- `Location::parse`, topsky/map/mod.rs 69-75 -/
def parseLocation (pair : Tree Rule) : Run (Loc F) :=
  match pair.asRule with
  | .colon_delimited_text => return .fix pair.asStr
  | .coordinate => do
    let p ← parseCoord pair
    return .coordinate p
  | _ => .error .panic

/-- `Location::parse(inner.next().unwrap())` -/
def nextLocation (ts : List (Tree Rule)) : Run (Loc F × List (Tree Rule)) := do
  let (t, ts) ← next ts
  let l ← parseLocation t
  return (l, ts)

/-- The closure for the label in `MapSymbol::parse`, topsky/map/mod.rs 103-108 -/
def parseLabel (pair : Tree Rule) : Run (Label F) := do
  let (text, ts) ← nextStr pair.inner
  let (p, _) ← next ts
  let pos ← parsePoint p
  return { text, pos }

/-- `symbol.next().map(…)`, topsky/map/mod.rs 103 -/
def parseOptLabel : List (Tree Rule) → Run (Option (Label F))
  | [] => .ok none
  | t :: _ => do
    let l ← parseLabel t
    return some l

/-- Drops an alignment in front of the first token, topsky/map/mod.rs 95-101 and 129-136 -/
def skipAlignment (ts : List (Tree Rule)) : Run (Tree Rule × List (Tree Rule)) := do
  let (t, ts) ← next ts
  if t.asRule = .textalign_config then next ts else return (t, ts)

/-- `MapSymbol::parse`, topsky/map/mod.rs 93-116 -/
def parseMapSymbol (pair : Tree Rule) : Run (MapSymbol F) := do
  let (name, symbol) ← skipAlignment pair.inner
  let (location, symbol) ← nextLocation symbol
  let label ← parseOptLabel symbol
  return { name := name.asStr, location, label }

/-- `Text::parse`, topsky/map/mod.rs 127-143 -/
def parseText (pair : Tree Rule) : Run (Text F) := do
  let (l, text) ← skipAlignment pair.inner
  let location ← parseLocation l
  let (content, _) ← nextStr text
  return { location, content }

/-- The start and end of a line in `MapLine::parse`, topsky/map/mod.rs 197-199 -/
def parseEnds (pair : Tree Rule) : Run (Loc F × Loc F) := do
  let (start, line) ← nextLocation pair.inner
  let (stop, _) ← nextLocation line
  return (start, stop)

/-- `MapLine::parse`, topsky/map/mod.rs 194-222.  The ends are read first and then merged; in the code the
two steps alternate, which makes no difference as the merging does not fail. -/
def parseMapLine [DecidableEq F] (pair : Tree Rule) : Run (List (List (Loc F))) := do
  let ls ← pair.inner.mapM parseEnds
  return Lines.mergeLines ls

variable {G : Type} [F64 G]

/-- `inner.next().unwrap().as_str().parse::<f32>().unwrap()` -/
def nextF32 (ts : List (Tree Rule)) : Run (G × List (Tree Rule)) := do
  let (s, ts) ← nextStr ts
  let v ← unwrap (F64.ofText s)
  return (v, ts)

/-- The match on the modifier of a font size, topsky/map/mod.rs 164-170 -/
def sizeOf (modifier : Str) (size : G) : Run (FontSize G) :=
  if modifier = c!"=" then .ok (.exact size)
  else if modifier = c!"+" then .ok (.add size)
  else if modifier = c!"-" then .ok (.subtract size)
  else if modifier = c!"*" then .ok (.multiply size)
  else .error .panic

/-- `FontSize::parse`, topsky/map/mod.rs 156-172 -/
def parseFontSize (pair : Tree Rule) : Run (FontSize G) := do
  let (m, fontsize) ← next pair.inner
  if m.asRule = .fontsize_default then return .default
  else do
    let (size, _) ← nextF32 fontsize
    sizeOf m.asStr size

/-- `LineStyle::parse`, topsky/map/mod.rs 176-185 -/
def parseLineStyle (upper : Str → Str) (pair : Tree Rule) : Run LineStyle := do
  let (style, linestyle) ← nextStr pair.inner
  let width := (linestyle.head?.bind fun w => parseSigned (2 ^ 31) w.asStr).getD 1
  return { width, style := upper style }

/-- The closure of `MapRule::parse`, topsky/map/mod.rs 248-308 -/
def parseMapRule [DecidableEq F] (upper : Str → Str) (pair : Tree Rule) : Run (Option (MapRule F G)) :=
  match pair.asRule with
  | .folder => do
    let (s, _) ← nextStr pair.inner
    return some (.folder s)
  | .colour => do
    let (s, _) ← nextStr pair.inner
    return some (.colour s)
  | .asrdata => do
    let (t, _) ← next pair.inner
    let l ← parseNames t
    return some (.asrData l)
  | .active => do
    let a ← parseActive pair
    return some (.active a)
  | .andactive => do
    let a ← parseActive pair
    return some (.andActive a)
  | .layer => do
    let (x, _) ← nextF32 pair.inner
    return some (.layer x)
  | .mapsymbol => do
    let s ← parseMapSymbol pair
    return some (.symbol s)
  | .fontsize => do
    let s ← parseFontSize pair
    return some (.fontSize s)
  | .zoom => do
    let (x, _) ← nextF32 pair.inner
    return some (.zoom x)
  | .style => do
    let s ← parseLineStyle upper pair
    return some (.lineStyle s)
  | .mapline => do
    let l ← parseMapLine pair
    return some (.line l)
  | .text => do
    let t ← parseText pair
    return some (.text t)
  | .screen_specific => return some .screenSpecific
  | .global_ => return some .global
  | .hidden => return some .hidden
  | .coordline => return some .coordLine
  | .coord => do
    let (l, _) ← nextLocation pair.inner
    return some (.coord l)
  | .coordpoly => do
    let (s, _) ← nextStr pair.inner
    return some (.coordPoly s)
  | .circle | .fontstyle | .textalign | .override_sct | .sctfiledata | .sctdata | .coord_af | .coord_hm
  | .coord_pbd => return none
  | _ => .error .panic

/-- `parse_map`, topsky/map/mod.rs 340-351 -/
def parseMap [DecidableEq F] (upper : Str → Str) (pair : Tree Rule) : Run (Option (MapDef F G)) :=
  match pair.asRule with
  | .map => do
    let (name, symbol) ← nextStr pair.inner
    let rules ← symbol.mapM (parseMapRule upper)
    return some { name, rules := rules.filterMap id }
  | .EOI => return none
  | _ => .error .panic

/-- `parse_linestyle`, topsky/map/mod.rs 353-371 -/
def parseLinestyle (pair : Tree Rule) : Run (Option (LineStyleDef G)) :=
  match pair.asRule with
  | .linestyledef => do
    let (name, ts) ← nextStr pair.inner
    let (brush, ts) ← nextStr ts
    let (hatch, ts) ← nextStr ts
    let dashLengths ← ts.mapM fun t => unwrap (F64.ofText t.asStr)
    return some { name, brush, hatch, dashLengths }
  | .EOI => return none
  | _ => .error .panic

/-- `inner.next().unwrap().as_str().parse::<u8>().unwrap()` -/
def nextU8 (ts : List (Tree Rule)) : Run (Fin 256 × List (Tree Rule)) := do
  let (s, ts) ← nextStr ts
  let v ← unwrap (parseU8 s)
  return (v, ts)

/-- `parse_colour`, topsky/map/mod.rs 373-389 -/
def parseColour (pair : Tree Rule) : Run (Option ColourDef) :=
  match pair.asRule with
  | .colourdef => do
    let (name, ts) ← nextStr pair.inner
    let (r, ts) ← nextU8 ts
    let (g, ts) ← nextU8 ts
    let (b, _) ← nextU8 ts
    return some { name, colour := fromRgb r g b }
  | .EOI => return none
  | _ => .error .panic

/-- `parse_override`, topsky/map/mod.rs 391-402 -/
def parseOverride (pair : Tree Rule) : Run (Option OverrideSct) :=
  match pair.asRule with
  | .override_sct => do
    let (folder, ts) ← nextStr pair.inner
    return some { folder, name := ts.head?.map Tree.asStr }
  | .EOI => return none
  | _ => .error .panic

/-- The closure of the `filter_map`, topsky/map/mod.rs 430-440 -/
def parseDefinition [DecidableEq F] [Close F] (upper : Str → Str) (pair : Tree Rule) :
    Run (Option (MapDefinition F G)) :=
  match pair.asRule with
  | .map => do
    let d ← parseMap upper pair
    return d.map .map
  | .colourdef => do
    let d ← parseColour pair
    return d.map .colour
  | .symboldef => do
    let d ← parseSymbol pair
    return d.map .symbol
  | .linestyledef => do
    let d ← parseLinestyle pair
    return d.map .lineStyle
  | .override_sct => do
    let d ← parseOverride pair
    return d.map .override
  | .sctfilepath => return none
  | .EOI => return none
  | _ => .error .panic

/-- The five collections of `ParseMapResult`, topsky/map/mod.rs 415-424 -/
structure Maps (F G : Type) where
  maps : List (MapDef F G)
  symbols : Map Str (SymbolDef F)
  colours : Map Str ColourDef
  lineStyles : Map Str (LineStyleDef G)
  overrides : List OverrideSct

/-- The closure of the `fold`, topsky/map/mod.rs 449-468 -/
def step (acc : Maps F G) : MapDefinition F G → Maps F G
  | .map d => { acc with maps := acc.maps ++ [d] }
  | .colour d => { acc with colours := acc.colours.insert d.name d }
  | .symbol d => { acc with symbols := acc.symbols.insert d.name d }
  | .lineStyle d => { acc with lineStyles := acc.lineStyles.insert d.name d }
  | .override d => { acc with overrides := acc.overrides ++ [d] }

/-- `parse_topsky_maps`, topsky/map/mod.rs 425-473, after the bytes have been read as text -/
def parseMaps [DecidableEq F] [Close F] (upper : Str → Str) (contents : Str) : Run (Maps F G) := do
  let pairs ← run skip maps contents
  let (p, _) ← next pairs
  let found ← p.inner.mapM (parseDefinition upper)
  return (found.filterMap id).foldl step ⟨[], [], [], [], []⟩

/-! ## The three files -/

/-- `Topsky`, topsky/mod.rs 209-217 -/
structure Topsky (F G : Type) where
  symbols : Map Str (SymbolDef F)
  maps : List (MapDef F G)
  colours : Map Str ColourDef
  settings : Map Str Str
  lineStyles : Map Str (LineStyleDef G)
  overrides : List OverrideSct

/-- `HashMap::extend`: the pairs of the argument are inserted one by one.  Each key occurs once in a `HashMap`,
so their order makes no difference. -/
def extend {V : Type} (m new : Map Str V) : Map Str V := new.foldl (fun m e => m.insert e.1 e.2) m

/-- How `Topsky::parse` can end: `missing` stands for the I/O error of a file that cannot be read. -/
inductive Outcome (α : Type)
  | ok (a : α)
  | missing
  | fault (f : Fault)

/-- `Topsky::parse`, topsky/mod.rs 229-248.  The arguments are the texts of `TopSkySettings.txt`,
`TopSkySymbols.txt` and `TopSkyMaps.txt` after `read_to_string`, or `none` if the file cannot be read. -/
def parse [DecidableEq F] [Close F] (upper : Str → Str) (settings symbols maps : Option Str) :
    Outcome (Topsky F G) :=
  match settings with
  | none => .missing
  | some settings =>
  match TopskySettings.parse settings with
  | .error f => .fault f
  | .ok (colours, settings) =>
  match (match symbols with | none => .ok [] | some s => parseSymbols s : Run (Map Str (SymbolDef F))) with
  | .error f => .fault f
  | .ok symbols =>
  match maps with
  | none => .missing
  | some maps =>
  match parseMaps (F := F) (G := G) upper maps with
  | .error f => .fault f
  | .ok m =>
    .ok {
      symbols := extend symbols m.symbols
      maps := m.maps
      colours := extend colours m.colours
      settings
      lineStyles := m.lineStyles
      overrides := m.overrides }

end

end Verif.Parse.Topsky
