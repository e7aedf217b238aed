import Verif.Model.Adaptation
/-!
# An adaptation as JSON

Models the derived `Serialize` and `Deserialize` of the types in `Adaptation`: each struct is an object with the names of
its Rust fields, each enumeration the name of its variant.  `sector_index` is not written (`#[serde(skip)]`).
-/

namespace Verif.AdaptationJson
open Verif.Json Verif.Json.Codec
open Verif.Adaptation (Adaptation Position Timed Folder world)
open Verif.Display (F32Ops)
open Verif.Colours (Colour)

/-! ## Coordinates -/

section
variable {F G : Type} [JsonFloat F] [JsonFloat G]

/-- `geo::Point` and `geo::Coord` -/
def point : Codec (F × F) :=
  Fields.struct (.cons c!"x" float <| .cons c!"y" float <| .nil) (fun p => (p.1, p.2, ())) fun (x, y, _) => (x, y)

/-- The same for the points of a file -/
def point' : Codec (Parse.Point F) := iso point (fun p => (p.x, p.y)) fun (x, y) => ⟨x, y⟩

/-- `geo::MultiLineString` -/
def multiLine : Codec (List (List (F × F))) := list (list point)

/-- `geo::Polygon` without holes, as all polygons here are.  The holes of a polygon that is read are dropped. -/
def polygon : Codec (List (F × F)) :=
  Fields.struct (.cons c!"exterior" (list point) <| .cons c!"interiors" (list (list (point (F := F)))) <| .nil)
    (fun p => (p, [], ())) fun (p, _, _) => p

/-! ## Locations -/

/-- `Fix`, locations/mod.rs 27-31 -/
def fix : Codec (Locations.Fix F) :=
  Fields.struct (.cons c!"designator" text <| .cons c!"coordinate" point <| .nil) (fun a => (a.designator, a.coordinate, ()))
    fun (d, p, _) => ⟨d, p⟩

/-- `NDB` and `VOR`, locations/mod.rs 73-84 -/
def navaid : Codec (Locations.Navaid F) :=
  Fields.struct (.cons c!"designator" text <| .cons c!"frequency" text <| .cons c!"coordinate" point <| .nil)
    (fun a => (a.designator, a.frequency, a.coordinate, ())) fun (d, f, p, _) => ⟨d, f, p⟩

/-- `Runway`, locations/mod.rs 86-92 -/
def runway : Codec (Locations.Runway F) :=
  Fields.struct (.cons c!"designators" (tuple2 text text) <| .cons c!"headings" (tuple2 u32 u32) <|
      .cons c!"location" (tuple2 point point) <| .cons c!"aerodrome" text <| .nil)
    (fun a => (a.designators, a.headings, a.location, a.aerodrome, ())) fun (d, h, l, a, _) => ⟨d, h, l, a⟩

/-- `Airport`, locations/mod.rs 94-101 -/
def airport : Codec (Locations.Airport F) :=
  Fields.struct (.cons c!"designator" text <| .cons c!"coordinate" point <| .cons c!"name" (opt text) <|
      .cons c!"country" (opt text) <| .cons c!"runways" (list runway) <| .nil)
    (fun a => (a.designator, a.coordinate, a.name, a.country, a.runways, ())) fun (d, p, n, c, r, _) => ⟨d, p, n, c, r⟩

/-- `SID` and `STAR`, locations/mod.rs 129-143 -/
def procedure : Codec (Locations.Procedure F) :=
  Fields.struct (.cons c!"name" text <| .cons c!"airport" text <| .cons c!"runway" (opt text) <|
      .cons c!"waypoints" (list fix) <| .nil)
    (fun a => (a.name, a.airport, a.runway, a.waypoints, ())) fun (n, a, r, w, _) => ⟨n, a, r, w⟩

/-- `AirwayType`, airways.rs 14-20 -/
def airwayType : Codec AirwayGraph.AirwayType :=
  enum [.high, .low, .both, .unknown] fun
    | .high => c!"High"
    | .low => c!"Low"
    | .both => c!"Both"
    | .unknown => c!"Unknown"

/-- `AirwayEdge`, airways.rs 29-36 -/
def airwayEdge : Codec AirwayGraph.AirwayEdge :=
  Fields.struct (.cons c!"to" usize <| .cons c!"valid_direction" bool <| .cons c!"minimum_level" (opt u32) <|
      .cons c!"maximum_level" (opt u32) <| .cons c!"airway_type" airwayType <| .nil)
    (fun a => (a.to, a.validDirection, a.minimumLevel, a.maximumLevel, a.airwayType, ())) fun (t, v, l, m, y, _) => ⟨t, v, l, m, y⟩

/-- `GraphFix`, airways.rs 337-341 -/
def graphFix : Codec (AirwayGraph.GraphFix (Parse.Point F)) :=
  Fields.struct (.cons c!"position" point' <| .cons c!"edges" (numMap (list airwayEdge)) <| .nil)
    (fun a => (a.position, a.edges, ())) fun (p, e, _) => ⟨p, e⟩

/-- `AirwayGraph`, airways.rs 65-72 -/
def airwayGraph : Codec (AirwayGraph.Graph (Parse.Point F)) :=
  Fields.struct (.cons c!"fixes" (list graphFix) <| .cons c!"fix_id_by_name" (map (list usize)) <|
      .cons c!"fix_name_by_id" (list text) <| .cons c!"airway_id_by_name" (map usize) <|
      .cons c!"airway_name_by_id" (list text) <| .nil)
    (fun g => (g.fixes, g.fixIdByName, g.fixNameById, g.airwayIdByName, g.airwayNameById, ()))
    fun (f, i, n, a, m, _) => ⟨f, i, n, a, m⟩

/-- `Locations`, locations/mod.rs 156-165 -/
def locations : Codec (Locations.Db F × AirwayGraph.Graph (Parse.Point F)) :=
  Fields.struct (.cons c!"fixes" (multiMap fix) <| .cons c!"vors" (multiMap navaid) <| .cons c!"ndbs" (multiMap navaid) <|
      .cons c!"airports" (map airport) <| .cons c!"airways" airwayGraph <| .cons c!"sids" (map (multiMap procedure)) <|
      .cons c!"stars" (map (multiMap procedure)) <| .nil)
    (fun l => (l.1.fixes, l.1.vors, l.1.ndbs, l.1.airports, l.2, l.1.sids, l.1.stars, ()))
    fun (f, v, n, a, g, s, t, _) => (⟨f, v, n, a, s, t⟩, g)

/-! ## Positions, sectors and constraints -/

/-- `Position`, mod.rs 78-86 -/
def position : Codec (Position F) :=
  Fields.struct (.cons c!"id" text <| .cons c!"name" text <| .cons c!"frequency" text <| .cons c!"prefix" text <|
      .cons c!"suffix" text <| .cons c!"visibility_points" (list point) <| .nil)
    (fun a => (a.id, a.name, a.frequency, a.prefix_, a.suffix, a.visibilityPoints, ()))
    fun (i, n, f, p, s, v, _) => ⟨i, n, f, p, s, v⟩

/-- `PhantomData`, which is written as `null` -/
def phantom : Codec Unit where
  to _ := .null
  of
    | .null => some ()
    | _ => none
  parts _ := []

/-- `Volume`, sectors.rs 32-39 -/
def volume : Codec (Sectors.Volume (SectorIndex.Border F)) :=
  Fields.struct (.cons c!"id" text <| .cons c!"lower_level" u32 <| .cons c!"upper_level" u32 <|
      .cons c!"lateral_border" polygon <| .cons c!"private" phantom <| .nil)
    (fun a => (a.id, a.lowerLevel, a.upperLevel, a.lateralBorder, (), ())) fun (i, l, u, b, _, _) => ⟨i, l, u, b⟩

/-- `RunwayIdentifier`, maps/active.rs 5-8 -/
def runwayIdentifier : Codec Parse.Topsky.RunwayIdentifier :=
  Fields.struct (.cons c!"icao" text <| .cons c!"designator" text <| .nil) (fun r => (r.icao, r.designator, ()))
    fun (i, d, _) => ⟨i, d⟩

/-- `Sector`, sectors.rs 58-66 -/
def sector : Codec Sectors.Sector :=
  Fields.struct (.cons c!"id" text <| .cons c!"position_priority" (list text) <|
      .cons c!"runway_filter" (list (list (iso runwayIdentifier (fun r => ⟨r.1, r.2⟩) fun r => (r.icao, r.designator)))) <|
      .cons c!"volumes" (list text) <| .cons c!"departure_aerodromes" (list text) <|
      .cons c!"arrival_aerodromes" (list text) <| .nil)
    (fun a => (a.id, a.positionPriority, a.runwayFilter, a.volumes, a.departureAerodromes, a.arrivalAerodromes, ()))
    fun (i, p, r, v, d, a, _) => ⟨i, p, r, v, d, a⟩

/-- `CoordinationTiming`, settings/mod.rs 383-388 -/
def timing : Codec (Settings.CoordinationTiming G) :=
  Fields.struct (.cons c!"act_time" (opt float) <| .cons c!"abi_time" (opt float) <| .cons c!"rev_time" (opt float) <| .nil)
    (fun t => (t.act, t.abi, t.rev, ())) fun (a, b, r, _) => ⟨a, b, r⟩

/-- `Constraint`, ese.rs 266-282 -/
def constraint : Codec (Timed G) :=
  Fields.struct (.cons c!"previous_fix" (opt text) <| .cons c!"departure_runway" (opt text) <|
      .cons c!"subsequent_fix" (opt text) <| .cons c!"arrival_runway" (opt text) <| .cons c!"fix" (opt text) <|
      .cons c!"exit_sector" text <| .cons c!"entry_sector" text <| .cons c!"climb_level" (opt u32) <|
      .cons c!"descent_level" (opt u32) <| .cons c!"description" text <| .cons c!"coord_timing" (opt timing) <| .nil)
    (fun a => (a.rule.previousFix, a.rule.departureRunway, a.rule.subsequentFix, a.rule.arrivalRunway, a.rule.fix,
      a.rule.exitSector, a.rule.entrySector, a.rule.climbLevel, a.rule.descentLevel, a.rule.description, a.timing, ()))
    fun (p, d, s, r, f, x, e, c, l, t, g, _) => ⟨⟨p, d, s, r, f, x, e, c, l, t⟩, g⟩

/-! ## Maps -/

/-- `ActiveIds`, maps/active.rs 11-16 -/
def activeIds : Codec Parse.Topsky.ActiveIds :=
  Fields.struct (.cons c!"own" (opt (list text)) <| .cons c!"own_excludes" (opt (list text)) <|
      .cons c!"online" (opt (list text)) <| .cons c!"online_excludes" (opt (list text)) <| .nil)
    (fun a => (a.own, a.ownExcludes, a.online, a.onlineExcludes, ())) fun (a, b, c, d, _) => ⟨a, b, c, d⟩

/-- `ActiveRunways`, maps/active.rs 19-24 -/
def activeRunways : Codec Parse.Topsky.ActiveRunways :=
  Fields.struct (.cons c!"arrival" (opt (list runwayIdentifier)) <| .cons c!"arrival_excludes" (opt (list runwayIdentifier)) <|
      .cons c!"departure" (opt (list runwayIdentifier)) <|
      .cons c!"departure_excludes" (opt (list runwayIdentifier)) <| .nil)
    (fun a => (a.arrival, a.arrivalExcludes, a.departure, a.departureExcludes, ())) fun (a, b, c, d, _) => ⟨a, b, c, d⟩

/-- `ActiveAreas`, maps/active.rs 27-30 -/
def activeAreas : Codec Parse.Topsky.ActiveAreas :=
  Fields.struct (.cons c!"areas" (list text) <| .cons c!"area_excludes" (opt (list text)) <| .nil)
    (fun a => (a.areas, a.areaExcludes, ())) fun (a, b, _) => ⟨a, b⟩

/-- `ActiveMapOperator`, maps/active.rs 33-36 -/
def activeMapOperator : Codec Parse.Topsky.ActiveMapOperator :=
  enum [.same, .opposite] fun
    | .same => c!"Same"
    | .opposite => c!"Opposite"

/-- `Active`, maps/active.rs 39-50 -/
def active : Codec Parse.Topsky.Active where
  to
    | .true => .str c!"True"
    | .schedule => .str c!"Schedule"
    | .aup l => variant c!"Aup" ((list text).to l)
    | .notam s l => variant c!"Notam" (.arr [text.to s, (list text).to l])
    | .area a => variant c!"Area" (activeAreas.to a)
    | .id a => variant c!"Id" (activeIds.to a)
    | .callsign a => variant c!"Callsign" (activeIds.to a)
    | .runway a => variant c!"Runway" (activeRunways.to a)
    | .map op f n => variant c!"Map" (.arr [activeMapOperator.to op, text.to f, text.to n])
  of
    | .str s => if s = c!"True" then some .true else if s = c!"Schedule" then some .schedule else none
    | j => readVariant [
      (c!"True", fun
        | .null => some .true
        | _ => none),
      (c!"Schedule", fun
        | .null => some .schedule
        | _ => none),
      (c!"Aup", fun j => ((list text).of j).map .aup),
      (c!"Notam", fun
        | .arr [s, l] => (text.of s).bind fun s => ((list text).of l).map fun l => .notam s l
        | _ => none),
      (c!"Area", fun j => (activeAreas.of j).map .area),
      (c!"Id", fun j => (activeIds.of j).map .id),
      (c!"Callsign", fun j => (activeIds.of j).map .callsign),
      (c!"Runway", fun j => (activeRunways.of j).map .runway),
      (c!"Map", fun
        | .arr [op, f, n] =>
          (activeMapOperator.of op).bind fun op => (text.of f).bind fun f => (text.of n).map fun n => .map op f n
        | _ => none)] j
  parts
    | .true => []
    | .schedule => []
    | .aup l => (list text).parts l
    | .notam s l => text.parts s ++ (list text).parts l
    | .area a => activeAreas.parts a
    | .id a => activeIds.parts a
    | .callsign a => activeIds.parts a
    | .runway a => activeRunways.parts a
    | .map op f n => activeMapOperator.parts op ++ text.parts f ++ text.parts n

/-- `HorizontalAlignment`, mod.rs 56-62 -/
def horizontal : Codec Parse.Symbology.Horizontal :=
  enum [.left, .center, .right] fun
    | .left => c!"Left"
    | .center => c!"Center"
    | .right => c!"Right"

/-- `VerticalAlignment`, mod.rs 64-70 -/
def vertical : Codec Parse.Symbology.Vertical :=
  enum [.top, .center, .bottom] fun
    | .top => c!"Top"
    | .center => c!"Center"
    | .bottom => c!"Bottom"

/-- `Alignment`, mod.rs 72-76 -/
def alignment : Codec Parse.Symbology.Alignment :=
  Fields.struct (.cons c!"horizontal" horizontal <| .cons c!"vertical" vertical <| .nil)
    (fun a => (a.horizontal, a.vertical, ())) fun (h, v, _) => ⟨h, v⟩

/-- `LineStyle`, line_styles.rs 14-18 -/
def lineStyle : Codec Parse.Topsky.LineStyle :=
  Fields.struct (.cons c!"width" i32 <| .cons c!"style" text <| .nil) (fun a => (a.width, a.style, ())) fun (w, s, _) => ⟨w, s⟩

section
variable (F G) [DecidableEq F] [F32Ops G]

/-- `Label`, maps/mod.rs 171-176 -/
def label : Codec (@Maps.Label (world F G)) :=
  letI := world F G
  Fields.struct (.cons c!"coordinate" (point (F := F)) <| .cons c!"alignment" alignment <| .cons c!"text" text <| .nil)
    (fun a => (a.coordinate, a.alignment, a.text, ())) fun (p, a, t, _) => ⟨p, a, t⟩

/-- `Symbol`, maps/mod.rs 178-185 -/
def mapSymbol : Codec (@Maps.Symbol (world F G)) :=
  letI := world F G
  Fields.struct (.cons c!"name" text <| .cons c!"coordinate" (point (F := F)) <| .cons c!"label" (opt text) <|
      .cons c!"label_alignment" alignment <| .cons c!"label_offset" (tuple2 (float (A := F)) float) <| .nil)
    (fun a => (a.name, a.coordinate, a.label, a.labelAlignment, a.labelOffset, ())) fun (n, p, l, a, o, _) => ⟨n, p, l, a, o⟩

/-- `MapGroup`, maps/mod.rs 75-88 -/
def mapGroup : Codec (@Maps.MapGroup (world F G)) :=
  letI := world F G
  Fields.struct (.cons c!"colour" colour <| .cons c!"font_size" (float (A := G)) <| .cons c!"layer" (float (A := G)) <|
      .cons c!"asr_data" (opt (list text)) <| .cons c!"zoom" (opt (float (A := G))) <|
      .cons c!"lines" (multiLine (F := F)) <| .cons c!"labels" (list (label F G)) <| .cons c!"symbols" (list (mapSymbol F G)) <|
      .cons c!"polygons" (list (polygon (F := F))) <| .cons c!"line_style" lineStyle <| .nil)
    (fun a => (a.attr.colour, a.attr.fontSize, a.attr.layer, a.attr.asrData, a.attr.zoom, a.lines, a.labels, a.symbols,
      a.polygons, a.attr.lineStyle, ()))
    fun (c, f, l, r, z, n, t, s, p, y, _) => ⟨⟨c, f, l, r, z, y⟩, n, t, s, p⟩

/-- `Map`, maps/mod.rs 36-43 -/
def mapV : Codec (@Maps.MapV (world F G)) :=
  letI := world F G
  Fields.struct (.cons c!"name" text <| .cons c!"folder" text <| .cons c!"map_groups" (list (mapGroup F G)) <|
      .cons c!"hidden" bool <| .cons c!"active" (list (list active)) <| .nil)
    (fun a => (a.name, a.folder, a.groups, a.hidden, a.active, ())) fun (n, f, g, h, a, _) => ⟨n, f, g, h, a⟩

/-- `Folder`, maps/mod.rs 29-34 -/
def folder : Codec (Folder F G) :=
  letI := world F G
  Fields.struct (.cons c!"name" text <| .cons c!"hidden" bool <| .cons c!"maps" (map (mapV F G)) <| .nil)
    (fun a => (a.name, a.hidden, a.maps, ())) fun (n, h, m, _) => ⟨n, h, m⟩

end

/-! ## Symbols, colours and line styles -/

/-- `(f64, f64)` -/
def pair : Codec (F × F) := tuple2 float float

/-- `SymbolRule`, symbols.rs 11-21 -/
def symbolRule : Codec (Settings.SymbolRule F) where
  to
    | .move p => variant c!"Move" (pair.to p)
    | .line p => variant c!"Line" (pair.to p)
    | .pixel p => variant c!"Pixel" (pair.to p)
    | .arc p r a b => variant c!"Arc" (.arr [pair.to p, float.to r, i64.to a, i64.to b])
    | .ellipticArc p r s a b => variant c!"EllipticArc" (.arr [pair.to p, float.to r, float.to s, i64.to a, i64.to b])
    | .filledArc p r a b => variant c!"FilledArc" (.arr [pair.to p, float.to r, i64.to a, i64.to b])
    | .filledEllipticArc p r s a b =>
      variant c!"FilledEllipticArc" (.arr [pair.to p, float.to r, float.to s, i64.to a, i64.to b])
    | .polygon ps => variant c!"Polygon" ((list pair).to ps)
  of := readVariant [
    (c!"Move", fun j => (pair.of j).map .move),
    (c!"Line", fun j => (pair.of j).map .line),
    (c!"Pixel", fun j => (pair.of j).map .pixel),
    (c!"Arc", fun
      | .arr [p, r, a, b] => (pair.of p).bind fun p => (float.of r).bind fun r => (i64.of a).bind fun a =>
        (i64.of b).map fun b => .arc p r a b
      | _ => none),
    (c!"EllipticArc", fun
      | .arr [p, r, s, a, b] => (pair.of p).bind fun p => (float.of r).bind fun r => (float.of s).bind fun s =>
        (i64.of a).bind fun a => (i64.of b).map fun b => .ellipticArc p r s a b
      | _ => none),
    (c!"FilledArc", fun
      | .arr [p, r, a, b] => (pair.of p).bind fun p => (float.of r).bind fun r => (i64.of a).bind fun a =>
        (i64.of b).map fun b => .filledArc p r a b
      | _ => none),
    (c!"FilledEllipticArc", fun
      | .arr [p, r, s, a, b] => (pair.of p).bind fun p => (float.of r).bind fun r => (float.of s).bind fun s =>
        (i64.of a).bind fun a => (i64.of b).map fun b => .filledEllipticArc p r s a b
      | _ => none),
    (c!"Polygon", fun j => ((list pair).of j).map .polygon)]
  parts
    | .move p => pair.parts p
    | .line p => pair.parts p
    | .pixel p => pair.parts p
    | .arc p r a b => pair.parts p ++ float.parts r ++ i64.parts a ++ i64.parts b
    | .ellipticArc p r s a b => pair.parts p ++ float.parts r ++ float.parts s ++ i64.parts a ++ i64.parts b
    | .filledArc p r a b => pair.parts p ++ float.parts r ++ i64.parts a ++ i64.parts b
    | .filledEllipticArc p r s a b => pair.parts p ++ float.parts r ++ float.parts s ++ i64.parts a ++ i64.parts b
    | .polygon ps => (list pair).parts ps

/-- `Symbols`, symbols.rs 24-36 -/
def symbols : Codec ((Settings.Kind → Settings.Symbol F) × Map Str (Settings.Symbol F)) :=
  Fields.struct (.cons c!"history_dot" (list symbolRule) <| .cons c!"fix" (list symbolRule) <|
      .cons c!"ndb" (list symbolRule) <| .cons c!"vor" (list symbolRule) <| .cons c!"airport" (list symbolRule) <|
      .cons c!"primary" (list symbolRule) <| .cons c!"coasted" (list symbolRule) <|
      .cons c!"uncontrolled" (list symbolRule) <| .cons c!"controlled" (list symbolRule) <|
      .cons c!"other" (map (list symbolRule)) <| .nil)
    (fun s => (s.1 .historyDot, s.1 .fix, s.1 .ndb, s.1 .vor, s.1 .airport, s.1 .primary, s.1 .coasted, s.1 .uncontrolled,
      s.1 .controlled, s.2, ()))
    fun (h, f, n, v, a, p, c, u, k, o, _) => (fun
      | .historyDot => h
      | .fix => f
      | .ndb => n
      | .vor => v
      | .airport => a
      | .primary => p
      | .coasted => c
      | .uncontrolled => u
      | .controlled => k, o)

/-- `TrackColours`, colours.rs 359-372 -/
def trackColours : Fields (Colour × Colour × Colour × Colour × Colour × Colour × Colour × Colour × Colour × Colour × Unit) :=
  .cons c!"assumed" colour <| .cons c!"advanced" colour <| .cons c!"concerned" colour <|
    .cons c!"unconcerned" colour <| .cons c!"flight_leg" colour <| .cons c!"predicted_alert" colour <|
    .cons c!"current_alert" colour <| .cons c!"reaction" colour <| .cons c!"cleared" colour <|
    .cons c!"vfr" colour <| .nil

/-- `UIColours`, colours.rs 458-468 -/
def uiColours : Fields (Colour × Colour × Colour × Colour × Colour × Colour × Colour × Unit) :=
  .cons c!"foreground" colour <| .cons c!"background" colour <| .cons c!"armed" colour <|
    .cons c!"window_title_background_selected" colour <| .cons c!"text_input" colour <| .cons c!"warning" colour <|
    .cons c!"alert" colour <| .nil

/-- `SectorColours`, colours.rs 322-326 -/
def sectorColours : Fields (Colour × Colour × Unit) :=
  .cons c!"active_background" colour <| .cons c!"inactive_background" colour <| .nil

/-- The first half of `MapColours`, colours.rs 113-126 -/
def mapColours {B : Type} (fs : Fields B) : Fields (Colour × Colour × Colour × Colour × Colour × Colour × Colour × Colour ×
    Colour × Colour × Colour × Colour × B) :=
  .cons c!"fix_symbol" colour <| .cons c!"fix_name" colour <| .cons c!"airport_symbol" colour <|
    .cons c!"airport_name" colour <| .cons c!"ndb_symbol" colour <| .cons c!"ndb_name" colour <|
    .cons c!"ndb_frequency" colour <| .cons c!"vor_symbol" colour <| .cons c!"vor_name" colour <|
    .cons c!"vor_frequency" colour <| .cons c!"low_airway_line" colour <| .cons c!"low_airway_name" colour <| fs

/-- The second half of `MapColours`, colours.rs 127-139 -/
def mapColours2 : Fields (Colour × Colour × Colour × Colour × Colour × Colour × Colour × Colour × Colour × Colour × Colour ×
    Colour × Unit) :=
  .cons c!"high_airway_line" colour <| .cons c!"high_airway_name" colour <| .cons c!"sid" colour <|
    .cons c!"star" colour <| .cons c!"artcc_boundary" colour <| .cons c!"artcc_low_boundary" colour <|
    .cons c!"artcc_high_boundary" colour <| .cons c!"geo" colour <| .cons c!"runway_centreline" colour <|
    .cons c!"runway_extended_centreline" colour <| .cons c!"runway_name" colour <| .cons c!"free_text" colour <| .nil

/-- `Colours`, colours.rs 533-540 -/
def colours : Codec ((Colours.MapElement → Colour) × (Colours.Role → Colour) × Map Str Colour) :=
  Fields.struct (.cons c!"track" (trackColours.struct id id) <| .cons c!"sector" (sectorColours.struct id id) <|
      .cons c!"map" ((mapColours mapColours2).struct id id) <| .cons c!"ui" (uiColours.struct id id) <|
      .cons c!"other" (map colour) <| .nil)
    (fun (m, r, o) =>
      ((r .assumed, r .advanced, r .concerned, r .unconcerned, r .flightLeg, r .predictedAlert, r .currentAlert, r .reaction,
          r .cleared, r .vfr, ()),
        (m .activeBackground, m .inactiveBackground, ()),
        (m .fixSymbol, m .fixName, m .airportSymbol, m .airportName, m .ndbSymbol, m .ndbName, m .ndbFrequency, m .vorSymbol,
          m .vorName, m .vorFrequency, m .lowAirwayLine, m .lowAirwayName, m .highAirwayLine, m .highAirwayName, m .sid,
          m .star, m .artccBoundary, m .artccLowBoundary, m .artccHighBoundary, m .geo, m .runwayCentreline,
          m .runwayExtendedCentreline, m .runwayName, m .freeText, ()),
        (r .foreground, r .background, r .armed, r .windowTitleBackgroundSelected, r .textInput, r .warning, r .alert, ()),
        o, ()))
    fun ((t0, t1, t2, t3, t4, t5, t6, t7, t8, t9, _), (s0, s1, _),
        (m0, m1, m2, m3, m4, m5, m6, m7, m8, m9, m10, m11, m12, m13, m14, m15, m16, m17, m18, m19, m20, m21, m22, m23, _),
        (u0, u1, u2, u3, u4, u5, u6, _), o, _) =>
      (fun
        | .fixSymbol => m0 | .fixName => m1 | .airportSymbol => m2 | .airportName => m3 | .ndbSymbol => m4 | .ndbName => m5
        | .ndbFrequency => m6 | .vorSymbol => m7 | .vorName => m8 | .vorFrequency => m9 | .lowAirwayLine => m10
        | .lowAirwayName => m11 | .highAirwayLine => m12 | .highAirwayName => m13 | .sid => m14 | .star => m15
        | .artccBoundary => m16 | .artccLowBoundary => m17 | .artccHighBoundary => m18 | .geo => m19
        | .runwayCentreline => m20 | .runwayExtendedCentreline => m21 | .runwayName => m22 | .freeText => m23
        | .activeBackground => s0 | .inactiveBackground => s1,
      fun
        | .assumed => t0 | .advanced => t1 | .concerned => t2 | .unconcerned => t3 | .flightLeg => t4
        | .predictedAlert => t5 | .currentAlert => t6 | .reaction => t7 | .cleared => t8 | .vfr => t9
        | .foreground => u0 | .background => u1 | .armed => u2 | .windowTitleBackgroundSelected => u3 | .textInput => u4
        | .warning => u5 | .alert => u6,
      o)

/-- `Dash`, line_styles.rs 8-12 -/
def dash : Codec (G × G) :=
  Fields.struct (.cons c!"length" float <| .cons c!"gap" float <| .nil) (fun p => (p.1, p.2, ())) fun (l, g, _) => (l, g)

/-! ## Settings -/

/-- `LineSettings`, settings/mod.rs 18-38 -/
def lineSettings : Codec (Display.LineKind → Parse.Topsky.LineStyle) :=
  Fields.struct (.cons c!"runway_centreline" lineStyle <| .cons c!"geo" lineStyle <| .cons c!"sid" lineStyle <|
      .cons c!"star" lineStyle <| .cons c!"high_airways" lineStyle <| .cons c!"low_airways" lineStyle <|
      .cons c!"artcc_low" lineStyle <| .cons c!"artcc" lineStyle <| .cons c!"artcc_high" lineStyle <| .nil)
    (fun f => (f .runwayCentreline, f .geo, f .sid, f .star, f .highAirways, f .lowAirways, f .artccLow, f .artcc,
      f .artccHigh, ()))
    fun (a, b, c, d, e, f, g, h, i, _) => fun
      | .runwayCentreline => a
      | .geo => b
      | .sid => c
      | .star => d
      | .highAirways => e
      | .lowAirways => f
      | .artccLow => g
      | .artcc => h
      | .artccHigh => i

/-- `LabelSettings`, settings/mod.rs 226-239 -/
def labelSettings : Codec ((Display.LabelKind → Parse.Symbology.Alignment) × (Display.LabelKind → G)) :=
  Fields.struct (.cons c!"vor_alignment" alignment <| .cons c!"vor_font_size" float <| .cons c!"ndb_alignment" alignment <|
      .cons c!"ndb_font_size" float <| .cons c!"fix_alignment" alignment <| .cons c!"fix_font_size" float <|
      .cons c!"airport_alignment" alignment <| .cons c!"airport_font_size" float <|
      .cons c!"runway_alignment" alignment <| .cons c!"runway_font_size" float <| .nil)
    (fun f => (f.1 .vor, f.2 .vor, f.1 .ndb, f.2 .ndb, f.1 .fix, f.2 .fix, f.1 .airport, f.2 .airport, f.1 .runway,
      f.2 .runway, ()))
    fun (a, a', b, b', c, c', d, d', e, e', _) => (fun
      | .vor => a
      | .ndb => b
      | .fix => c
      | .airport => d
      | .runway => e, fun
      | .vor => a'
      | .ndb => b'
      | .fix => c'
      | .airport => d'
      | .runway => e')

/-- `MapsSettings`, settings/mod.rs 297-308 -/
def mapsSettings : Codec (Display.MapsSettings F G) :=
  Fields.struct (.cons c!"font" (opt path) <| .cons c!"font_size" float <| .cons c!"auto_folder" text <|
      .cons c!"layer" float <| .cons c!"label_offset" pair <| .cons c!"line_styles" lineSettings <|
      .cons c!"labels" labelSettings <| .nil)
    (fun a => (a.font, a.fontSize, a.autoFolder, a.layer, a.labelOffset, a.lineStyles, (a.labelAlignments, a.labelSizes), ()))
    fun (f, s, a, l, o, i, (b, c), _) => ⟨f, s, a, l, o, i, b, c⟩

/-- `VectorSettings`, settings/track.rs 42-47 -/
def vector : Codec (Display.Vector G) :=
  Fields.struct (.cons c!"enabled" bool <| .cons c!"length" float <| .cons c!"options" (list float) <| .nil)
    (fun a => (a.enabled, a.length, a.options, ())) fun (e, l, o, _) => ⟨e, l, o⟩

/-- `HistoryDotsSettings`, settings/track.rs 9-14 -/
def historyDots : Codec Display.HistoryDots :=
  Fields.struct (.cons c!"enabled" bool <| .cons c!"count" u32 <| .cons c!"options" (list u32) <| .nil)
    (fun a => (a.enabled, a.count, a.options, ())) fun (e, c, o, _) => ⟨e, c, o⟩

/-- `TrackSettings`, settings/track.rs 77-81 -/
def track : Codec (Display.Vector G × Display.HistoryDots) :=
  Fields.struct (.cons c!"vector" vector <| .cons c!"history_dots" historyDots <| .nil)
    (fun a => (a.1, a.2, ())) fun (v, h, _) => (v, h)

/-- `SsrSettings`, settings/mod.rs 342-345 -/
def ssr : Codec (Map Str Str) :=
  Fields.struct (.cons c!"special_use_codes" (map text) <| .nil) (fun a => (a, ())) fun (a, _) => a

/-- `CoordinationSettings`, settings/mod.rs 396-406 -/
def coordination : Codec (Settings.CoordinationSettings G) :=
  Fields.struct (.cons c!"act_time" float <| .cons c!"abi_time" float <| .cons c!"rev_time" float <|
      .cons c!"lam_timeout" float <| .cons c!"fir_overrides" (orDefault (map timing) []) <| .nil)
    (fun a => (a.act, a.abi, a.rev, a.lamTimeout, a.firOverrides, ())) fun (a, b, r, l, f, _) => ⟨a, b, r, l, f⟩

/-- The fields of `Settings`, settings/mod.rs 451-462 -/
def settingsFields : Fields (Display.MapsSettings F G × (Display.Vector G × Display.HistoryDots) × Bool × Map Str Str ×
    List PrfPaths.Path × Settings.CoordinationSettings G × Unit) :=
  .cons c!"maps" mapsSettings <| .cons c!"track" track <| .cons c!"coopans" bool <| .cons c!"ssr" ssr <|
    .cons c!"asr_files" (list path) <| .cons c!"coordination" coordination <| .nil

/-- `Settings`, settings/mod.rs 451-462 -/
def settings : Codec (Display.Settings F G) :=
  settingsFields.struct
    (fun a => (a.maps, (a.vector, a.historyDots), a.coopans, a.specialUseCodes, a.asrFiles, a.coordination, ()))
    fun (m, (v, h), c, s, a, k, _) => ⟨m, v, h, c, s, a, k⟩

/-! ## Aircraft and airlines -/

/-- `Wtc`, icao.rs 8-16 -/
def wtc : Codec Parse.Icao.Wtc :=
  enum [.light, .medium, .heavy, .super, .unknown] fun
    | .light => c!"LIGHT"
    | .medium => c!"MEDIUM"
    | .heavy => c!"HEAVY"
    | .super => c!"SUPER"
    | .unknown => c!"UNKNOWN"

/-- `AircraftType`, icao.rs 52-61 -/
def aircraftType : Codec Parse.Icao.AircraftType :=
  enum [.landplane, .seaplane, .amphibian, .gyrocopter, .helicopter, .tiltrotor, .unknown] fun
    | .landplane => c!"LANDPLANE"
    | .seaplane => c!"SEAPLANE"
    | .amphibian => c!"AMPHIBIAN"
    | .gyrocopter => c!"GYROCOPTER"
    | .helicopter => c!"HELICOPTER"
    | .tiltrotor => c!"TILTROTOR"
    | .unknown => c!"UNKNOWN"

/-- `EngineType`, icao.rs 87-95 -/
def engineType : Codec Parse.Icao.EngineType :=
  enum [.jet, .turboprop, .piston, .electric, .rocket, .unknown] fun
    | .jet => c!"JET"
    | .turboprop => c!"TURBOPROP"
    | .piston => c!"PISTON"
    | .electric => c!"ELECTRIC"
    | .rocket => c!"ROCKET"
    | .unknown => c!"UNKNOWN"

/-- `Aircraft`, icao.rs 131-140 -/
def aircraft : Codec Parse.Icao.Aircraft :=
  Fields.struct (.cons c!"designator" text <| .cons c!"wtc" wtc <| .cons c!"aircrafttype" aircraftType <|
      .cons c!"num_engines" u8 <| .cons c!"enginetype" engineType <| .cons c!"manufacturer" text <|
      .cons c!"name" text <| .nil)
    (fun a => (a.designator, a.wtc, a.aircrafttype, a.numEngines, a.enginetype, a.manufacturer, a.name, ()))
    fun (d, w, t, n, e, m, a, _) => ⟨d, w, t, n, e, m, a⟩

/-- `Airline`, icao_airlines.rs 32-43 -/
def airline : Codec Parse.Icao.Airline :=
  Fields.struct (.cons c!"designator" text <| .cons c!"name" text <| .cons c!"callsign" text <| .cons c!"country" text <| .nil)
    (fun a => (a.designator, a.name, a.callsign, a.country, ())) fun (d, n, c, k, _) => ⟨d, n, c, k⟩

/-! ## Items of the sector file -/

/-- `ColouredLines`, sct_items.rs 17-21 -/
def coloured : Codec (Model.SctItems.Coloured F) :=
  Fields.struct (.cons c!"colour" colour <| .cons c!"lines" multiLine <| .nil) (fun a => (a.colour, a.lines, ()))
    fun (c, l, _) => ⟨c, l⟩

/-- `Location`, lib.rs 140-145 -/
def location : Codec (Parse.Sct.Loc F) where
  to
    | .fix s => variant c!"Fix" (text.to s)
    | .coordinate p => variant c!"Coordinate" (point'.to p)
  of := readVariant [
    (c!"Fix", fun j => (text.of j).map .fix),
    (c!"Coordinate", fun j => (point'.of j).map .coordinate)]
  parts
    | .fix _ => []
    | .coordinate p => point'.parts p

/-- `Region`, sct.rs 53-58 -/
def region : Codec (Parse.Sct.Region F) :=
  Fields.struct (.cons c!"name" text <| .cons c!"colour_name" text <| .cons c!"polygon" (list point') <| .nil)
    (fun a => (a.name, a.colourName, a.polygon, ())) fun (n, c, p, _) => ⟨n, c, p⟩

/-- `Label`, sct.rs 60-65 -/
def sctLabel : Codec (Parse.Sct.Label F) :=
  Fields.struct (.cons c!"name" text <| .cons c!"coordinate" location <| .cons c!"colour_name" text <| .nil)
    (fun a => (a.name, a.coordinate, a.colourName, ())) fun (n, p, c, _) => ⟨n, p, c⟩

/-- `SctItems`, sct_items.rs 154-168 -/
def sctItems : Codec (Model.SctItems.SctItems F) :=
  Fields.struct (.cons c!"sids" (multiMap coloured) <| .cons c!"stars" (multiMap coloured) <|
      .cons c!"high_airways" (multiMap multiLine) <| .cons c!"low_airways" (multiMap multiLine) <|
      .cons c!"artccs_high" (multiMap coloured) <| .cons c!"artccs" (multiMap coloured) <|
      .cons c!"artccs_low" (multiMap coloured) <| .cons c!"geo" (multiMap coloured) <|
      .cons c!"regions" (multiMap region) <| .cons c!"labels" (multiMap sctLabel) <| .nil)
    (fun a => (a.sids, a.stars, a.highAirways, a.lowAirways, a.artccsHigh, a.artccs, a.artccsLow, a.geo, a.regions, a.labels, ()))
    fun (a, b, c, d, e, f, g, h, r, l, _) => ⟨a, b, c, d, e, f, g, h, r, l⟩

/-! ## Adaptation -/

section
variable (F G) [DecidableEq F] [F32Ops G]

/-- The fields of `Adaptation`, mod.rs 172-208 -/
def adaptationFields : Fields (Str × (Locations.Db F × AirwayGraph.Graph (Parse.Point F)) × Map Str (Position F) ×
    Map Str (Sectors.Volume (SectorIndex.Border F)) × Map Str Sectors.Sector × Map Str (Timed G) × Map Str (Timed G) ×
    Map Str (Folder F G) × ((Settings.Kind → Settings.Symbol F) × Map Str (Settings.Symbol F)) ×
    ((Colours.MapElement → Colour) × (Colours.Role → Colour) × Map Str Colour) × Map Str (Option (List (G × G))) ×
    Display.Settings F G × Parse.Icao.AircraftMap × Map Str Parse.Icao.Airline × Model.SctItems.SctItems F × Unit) :=
  .cons c!"name" text <| .cons c!"locations" locations <| .cons c!"positions" (map position) <|
    .cons c!"volumes" (map volume) <| .cons c!"sectors" (map sector) <|
    .cons c!"departure_constraints" (map constraint) <| .cons c!"destination_constraints" (map constraint) <|
    .cons c!"maps" (map (folder F G)) <| .cons c!"symbols" symbols <| .cons c!"colours" colours <|
    .cons c!"line_styles" (map (opt (list dash))) <| .cons c!"settings" settings <|
    .cons c!"aircraft" (map aircraft) <| .cons c!"airlines" (map airline) <| .cons c!"sct_items" sctItems <| .nil

variable {F G}

/-- The fields of an adaptation that are written, mod.rs 172-208 -/
def contents (a : Adaptation F G) : Str × (Locations.Db F × AirwayGraph.Graph (Parse.Point F)) × Map Str (Position F) ×
    Map Str (Sectors.Volume (SectorIndex.Border F)) × Map Str Sectors.Sector × Map Str (Timed G) × Map Str (Timed G) ×
    Map Str (Folder F G) × ((Settings.Kind → Settings.Symbol F) × Map Str (Settings.Symbol F)) ×
    ((Colours.MapElement → Colour) × (Colours.Role → Colour) × Map Str Colour) × Map Str (Option (List (G × G))) ×
    Display.Settings F G × Parse.Icao.AircraftMap × Map Str Parse.Icao.Airline × Model.SctItems.SctItems F × Unit :=
  (a.name, (a.locations, a.airways), a.positions, a.volumes, a.sectors, a.departureConstraints,
    a.destinationConstraints, a.maps, (a.symbols, a.otherSymbols), (a.mapColours, a.roleColours, a.otherColours),
    a.lineStyles, a.settings, a.aircraft, a.airlines, a.sctItems, ())

/-- The adaptation with these fields, mod.rs 172-208 -/
def ofContents : Str × (Locations.Db F × AirwayGraph.Graph (Parse.Point F)) × Map Str (Position F) ×
    Map Str (Sectors.Volume (SectorIndex.Border F)) × Map Str Sectors.Sector × Map Str (Timed G) × Map Str (Timed G) ×
    Map Str (Folder F G) × ((Settings.Kind → Settings.Symbol F) × Map Str (Settings.Symbol F)) ×
    ((Colours.MapElement → Colour) × (Colours.Role → Colour) × Map Str Colour) × Map Str (Option (List (G × G))) ×
    Display.Settings F G × Parse.Icao.AircraftMap × Map Str Parse.Icao.Airline × Model.SctItems.SctItems F × Unit →
    Adaptation F G :=
  fun (n, (l, w), p, v, s, d, e, m, (y, y'), (c, r, o), t, g, k, i, x, _) =>
    ⟨n, l, w, p, v, s, d, e, m, y, y', c, r, o, t, g, k, i, x, none⟩

variable (F G)

/-- `Adaptation`, mod.rs 172-208.  The index is skipped: it is not written, and empty after reading. -/
def adaptation : Codec (Adaptation F G) := (adaptationFields F G).struct contents ofContents

end
end
end Verif.AdaptationJson
