import Verif.Props.Schema
/-!
# C92: the names in the JSON of the values inside the lists of an adaptation

How each field of a struct is written that occurs inside a list, where an overlay cannot go, but where other programs that
read the JSON look.
-/

namespace Verif.Props
open Verif.Adaptation Verif.Json Verif.Json.Codec Verif.Spec.Jsonnet
open Verif.Display (F32Ops)

variable {F G : Type} [JsonFloat F] [JsonFloat G]

/-- **C92, fix.** -/
theorem C92_fix (x : Locations.Fix F) :
    lookup (AdaptationJson.fix.to x) [c!"designator"] = some (text.to x.designator) ∧
    lookup (AdaptationJson.fix.to x) [c!"coordinate"] = some (AdaptationJson.point.to x.coordinate) := by
  refine ⟨rfl, rfl⟩

/-- **C92, navaid.** -/
theorem C92_navaid (x : Locations.Navaid F) :
    lookup (AdaptationJson.navaid.to x) [c!"designator"] = some (text.to x.designator) ∧
    lookup (AdaptationJson.navaid.to x) [c!"frequency"] = some (text.to x.frequency) ∧
    lookup (AdaptationJson.navaid.to x) [c!"coordinate"] = some (AdaptationJson.point.to x.coordinate) := by
  refine ⟨rfl, rfl, rfl⟩

/-- **C92, runway.** -/
theorem C92_runway (x : Locations.Runway F) :
    lookup (AdaptationJson.runway.to x) [c!"designators"] = some ((tuple2 text text).to x.designators) ∧
    lookup (AdaptationJson.runway.to x) [c!"headings"] = some ((tuple2 u32 u32).to x.headings) ∧
    lookup (AdaptationJson.runway.to x) [c!"location"] = some ((tuple2 AdaptationJson.point AdaptationJson.point).to x.location) ∧
    lookup (AdaptationJson.runway.to x) [c!"aerodrome"] = some (text.to x.aerodrome) := by
  refine ⟨rfl, rfl, rfl, rfl⟩

/-- **C92, airport.** -/
theorem C92_airport (x : Locations.Airport F) :
    lookup (AdaptationJson.airport.to x) [c!"designator"] = some (text.to x.designator) ∧
    lookup (AdaptationJson.airport.to x) [c!"coordinate"] = some (AdaptationJson.point.to x.coordinate) ∧
    lookup (AdaptationJson.airport.to x) [c!"name"] = some ((opt text).to x.name) ∧
    lookup (AdaptationJson.airport.to x) [c!"country"] = some ((opt text).to x.country) ∧
    lookup (AdaptationJson.airport.to x) [c!"runways"] = some ((list AdaptationJson.runway).to x.runways) := by
  refine ⟨rfl, rfl, rfl, rfl, rfl⟩

/-- **C92, procedure.** -/
theorem C92_procedure (x : Locations.Procedure F) :
    lookup (AdaptationJson.procedure.to x) [c!"name"] = some (text.to x.name) ∧
    lookup (AdaptationJson.procedure.to x) [c!"airport"] = some (text.to x.airport) ∧
    lookup (AdaptationJson.procedure.to x) [c!"runway"] = some ((opt text).to x.runway) ∧
    lookup (AdaptationJson.procedure.to x) [c!"waypoints"] = some ((list AdaptationJson.fix).to x.waypoints) := by
  refine ⟨rfl, rfl, rfl, rfl⟩

/-- **C92, airway edge.** -/
theorem C92_airway_edge (x : AirwayGraph.AirwayEdge) :
    lookup (AdaptationJson.airwayEdge.to x) [c!"to"] = some (usize.to x.to) ∧
    lookup (AdaptationJson.airwayEdge.to x) [c!"valid_direction"] = some (bool.to x.validDirection) ∧
    lookup (AdaptationJson.airwayEdge.to x) [c!"minimum_level"] = some ((opt u32).to x.minimumLevel) ∧
    lookup (AdaptationJson.airwayEdge.to x) [c!"maximum_level"] = some ((opt u32).to x.maximumLevel) ∧
    lookup (AdaptationJson.airwayEdge.to x) [c!"airway_type"] = some (AdaptationJson.airwayType.to x.airwayType) := by
  refine ⟨rfl, rfl, rfl, rfl, rfl⟩

/-- **C92, airway fix.** -/
theorem C92_airway_fix (x : AirwayGraph.GraphFix (Parse.Point F)) :
    lookup (AdaptationJson.graphFix.to x) [c!"position"] = some (AdaptationJson.point'.to x.position) ∧
    lookup (AdaptationJson.graphFix.to x) [c!"edges"] = some ((numMap (list AdaptationJson.airwayEdge)).to x.edges) := by
  refine ⟨rfl, rfl⟩

/-- **C92, airways.** -/
theorem C92_airways (x : AirwayGraph.Graph (Parse.Point F)) :
    lookup (AdaptationJson.airwayGraph.to x) [c!"fixes"] = some ((list AdaptationJson.graphFix).to x.fixes) ∧
    lookup (AdaptationJson.airwayGraph.to x) [c!"fix_id_by_name"] = some ((map (list usize)).to x.fixIdByName) ∧
    lookup (AdaptationJson.airwayGraph.to x) [c!"fix_name_by_id"] = some ((list text).to x.fixNameById) ∧
    lookup (AdaptationJson.airwayGraph.to x) [c!"airway_id_by_name"] = some ((map usize).to x.airwayIdByName) ∧
    lookup (AdaptationJson.airwayGraph.to x) [c!"airway_name_by_id"] = some ((list text).to x.airwayNameById) := by
  refine ⟨rfl, rfl, rfl, rfl, rfl⟩

/-- **C92, point.** -/
theorem C92_point (x : F × F) :
    lookup (AdaptationJson.point.to x) [c!"x"] = some (float.to x.1) ∧
    lookup (AdaptationJson.point.to x) [c!"y"] = some (float.to x.2) := by
  refine ⟨rfl, rfl⟩

/-- **C92, timing.** -/
theorem C92_timing (x : Settings.CoordinationTiming G) :
    lookup (AdaptationJson.timing.to x) [c!"act_time"] = some ((opt float).to x.act) ∧
    lookup (AdaptationJson.timing.to x) [c!"abi_time"] = some ((opt float).to x.abi) ∧
    lookup (AdaptationJson.timing.to x) [c!"rev_time"] = some ((opt float).to x.rev) := by
  refine ⟨rfl, rfl, rfl⟩

/-- **C92, active ids.** -/
theorem C92_active_ids (x : Parse.Topsky.ActiveIds) :
    lookup (AdaptationJson.activeIds.to x) [c!"own"] = some ((opt (list text)).to x.own) ∧
    lookup (AdaptationJson.activeIds.to x) [c!"own_excludes"] = some ((opt (list text)).to x.ownExcludes) ∧
    lookup (AdaptationJson.activeIds.to x) [c!"online"] = some ((opt (list text)).to x.online) ∧
    lookup (AdaptationJson.activeIds.to x) [c!"online_excludes"] = some ((opt (list text)).to x.onlineExcludes) := by
  refine ⟨rfl, rfl, rfl, rfl⟩

/-- **C92, active runways.** -/
theorem C92_active_runways (x : Parse.Topsky.ActiveRunways) :
    lookup (AdaptationJson.activeRunways.to x) [c!"arrival"] = some ((opt (list AdaptationJson.runwayIdentifier)).to x.arrival) ∧
    lookup (AdaptationJson.activeRunways.to x) [c!"arrival_excludes"] = some ((opt (list AdaptationJson.runwayIdentifier)).to x.arrivalExcludes) ∧
    lookup (AdaptationJson.activeRunways.to x) [c!"departure"] = some ((opt (list AdaptationJson.runwayIdentifier)).to x.departure) ∧
    lookup (AdaptationJson.activeRunways.to x) [c!"departure_excludes"] = some ((opt (list AdaptationJson.runwayIdentifier)).to x.departureExcludes) := by
  refine ⟨rfl, rfl, rfl, rfl⟩

/-- **C92, active areas.** -/
theorem C92_active_areas (x : Parse.Topsky.ActiveAreas) :
    lookup (AdaptationJson.activeAreas.to x) [c!"areas"] = some ((list text).to x.areas) ∧
    lookup (AdaptationJson.activeAreas.to x) [c!"area_excludes"] = some ((opt (list text)).to x.areaExcludes) := by
  refine ⟨rfl, rfl⟩

/-- **C92, runway identifier.** -/
theorem C92_runway_identifier (x : Parse.Topsky.RunwayIdentifier) :
    lookup (AdaptationJson.runwayIdentifier.to x) [c!"icao"] = some (text.to x.icao) ∧
    lookup (AdaptationJson.runwayIdentifier.to x) [c!"designator"] = some (text.to x.designator) := by
  refine ⟨rfl, rfl⟩

/-- **C92, alignment.** -/
theorem C92_alignment (x : Parse.Symbology.Alignment) :
    lookup (AdaptationJson.alignment.to x) [c!"horizontal"] = some (AdaptationJson.horizontal.to x.horizontal) ∧
    lookup (AdaptationJson.alignment.to x) [c!"vertical"] = some (AdaptationJson.vertical.to x.vertical) := by
  refine ⟨rfl, rfl⟩

/-- **C92, line style.** -/
theorem C92_line_style (x : Parse.Topsky.LineStyle) :
    lookup (AdaptationJson.lineStyle.to x) [c!"width"] = some (i32.to x.width) ∧
    lookup (AdaptationJson.lineStyle.to x) [c!"style"] = some (text.to x.style) := by
  refine ⟨rfl, rfl⟩

/-- **C92, label.** -/
theorem C92_label [DecidableEq F] [F32Ops G] (x : @Maps.Label (world F G)) : letI := world F G
    lookup ((AdaptationJson.label F G).to x) [c!"coordinate"] = some ((AdaptationJson.point (F := F)).to x.coordinate) ∧
    lookup ((AdaptationJson.label F G).to x) [c!"alignment"] = some (AdaptationJson.alignment.to x.alignment) ∧
    lookup ((AdaptationJson.label F G).to x) [c!"text"] = some (text.to x.text) := by
  refine ⟨rfl, rfl, rfl⟩

/-- **C92, symbol.** -/
theorem C92_symbol [DecidableEq F] [F32Ops G] (x : @Maps.Symbol (world F G)) : letI := world F G
    lookup ((AdaptationJson.mapSymbol F G).to x) [c!"name"] = some (text.to x.name) ∧
    lookup ((AdaptationJson.mapSymbol F G).to x) [c!"coordinate"] = some ((AdaptationJson.point (F := F)).to x.coordinate) ∧
    lookup ((AdaptationJson.mapSymbol F G).to x) [c!"label"] = some ((opt text).to x.label) ∧
    lookup ((AdaptationJson.mapSymbol F G).to x) [c!"label_alignment"] = some (AdaptationJson.alignment.to x.labelAlignment) ∧
    lookup ((AdaptationJson.mapSymbol F G).to x) [c!"label_offset"] = some ((tuple2 (float (A := F)) float).to x.labelOffset) := by
  refine ⟨rfl, rfl, rfl, rfl, rfl⟩

/-- **C92, map group.** -/
theorem C92_map_group [DecidableEq F] [F32Ops G] (x : @Maps.MapGroup (world F G)) : letI := world F G
    lookup ((AdaptationJson.mapGroup F G).to x) [c!"colour"] = some (colour.to x.attr.colour) ∧
    lookup ((AdaptationJson.mapGroup F G).to x) [c!"font_size"] = some ((float (A := G)).to x.attr.fontSize) ∧
    lookup ((AdaptationJson.mapGroup F G).to x) [c!"layer"] = some ((float (A := G)).to x.attr.layer) ∧
    lookup ((AdaptationJson.mapGroup F G).to x) [c!"asr_data"] = some ((opt (list text)).to x.attr.asrData) ∧
    lookup ((AdaptationJson.mapGroup F G).to x) [c!"zoom"] = some ((opt (float (A := G))).to x.attr.zoom) ∧
    lookup ((AdaptationJson.mapGroup F G).to x) [c!"lines"] = some ((AdaptationJson.multiLine (F := F)).to x.lines) ∧
    lookup ((AdaptationJson.mapGroup F G).to x) [c!"labels"] = some ((list (AdaptationJson.label F G)).to x.labels) ∧
    lookup ((AdaptationJson.mapGroup F G).to x) [c!"symbols"] = some ((list (AdaptationJson.mapSymbol F G)).to x.symbols) ∧
    lookup ((AdaptationJson.mapGroup F G).to x) [c!"polygons"] = some ((list (AdaptationJson.polygon (F := F))).to x.polygons) ∧
    lookup ((AdaptationJson.mapGroup F G).to x) [c!"line_style"] = some (AdaptationJson.lineStyle.to x.attr.lineStyle) := by
  refine ⟨rfl, rfl, rfl, rfl, rfl, rfl, rfl, rfl, rfl, rfl⟩

/-- **C92, dash.** -/
theorem C92_dash (x : G × G) :
    lookup (AdaptationJson.dash.to x) [c!"length"] = some (float.to x.1) ∧
    lookup (AdaptationJson.dash.to x) [c!"gap"] = some (float.to x.2) := by
  refine ⟨rfl, rfl⟩

/-- **C92, coloured.** -/
theorem C92_coloured (x : Model.SctItems.Coloured F) :
    lookup (AdaptationJson.coloured.to x) [c!"colour"] = some (colour.to x.colour) ∧
    lookup (AdaptationJson.coloured.to x) [c!"lines"] = some (AdaptationJson.multiLine.to x.lines) := by
  refine ⟨rfl, rfl⟩

/-- **C92, region.** -/
theorem C92_region (x : Parse.Sct.Region F) :
    lookup (AdaptationJson.region.to x) [c!"name"] = some (text.to x.name) ∧
    lookup (AdaptationJson.region.to x) [c!"colour_name"] = some (text.to x.colourName) ∧
    lookup (AdaptationJson.region.to x) [c!"polygon"] = some ((list AdaptationJson.point').to x.polygon) := by
  refine ⟨rfl, rfl, rfl⟩

/-- **C92, sct label.** -/
theorem C92_sct_label (x : Parse.Sct.Label F) :
    lookup (AdaptationJson.sctLabel.to x) [c!"name"] = some (text.to x.name) ∧
    lookup (AdaptationJson.sctLabel.to x) [c!"coordinate"] = some (AdaptationJson.location.to x.coordinate) ∧
    lookup (AdaptationJson.sctLabel.to x) [c!"colour_name"] = some (text.to x.colourName) := by
  refine ⟨rfl, rfl, rfl⟩

/-- **C92, names.**  The enumerations are written as these names. -/
theorem C92_names :
    (∀ x, AdaptationJson.airwayType.to x = .str (match x with
      | .high => c!"High" | .low => c!"Low" | .both => c!"Both" | .unknown => c!"Unknown")) ∧
    (∀ x, AdaptationJson.horizontal.to x = .str (match x with | .left => c!"Left" | .center => c!"Center" | .right => c!"Right")) ∧
    (∀ x, AdaptationJson.vertical.to x = .str (match x with | .top => c!"Top" | .center => c!"Center" | .bottom => c!"Bottom")) ∧
    (∀ x, AdaptationJson.activeMapOperator.to x = .str (match x with | .same => c!"Same" | .opposite => c!"Opposite")) ∧
    (∀ x, AdaptationJson.wtc.to x = .str (match x with
      | .light => c!"LIGHT" | .medium => c!"MEDIUM" | .heavy => c!"HEAVY" | .super => c!"SUPER" | .unknown => c!"UNKNOWN")) ∧
    (∀ x, AdaptationJson.aircraftType.to x = .str (match x with
      | .landplane => c!"LANDPLANE" | .seaplane => c!"SEAPLANE" | .amphibian => c!"AMPHIBIAN" | .gyrocopter => c!"GYROCOPTER"
      | .helicopter => c!"HELICOPTER" | .tiltrotor => c!"TILTROTOR" | .unknown => c!"UNKNOWN")) ∧
    (∀ x, AdaptationJson.engineType.to x = .str (match x with
      | .jet => c!"JET" | .turboprop => c!"TURBOPROP" | .piston => c!"PISTON" | .electric => c!"ELECTRIC" | .rocket => c!"ROCKET"
      | .unknown => c!"UNKNOWN")) := by
  refine ⟨?_, ?_, ?_, ?_, ?_, ?_, ?_⟩ <;> intro x <;> cases x <;> rfl

/-- **C92, conditions of maps.** -/
theorem C92_active (x : Parse.Topsky.Active) : AdaptationJson.active.to x = match x with
    | .true => .str c!"True"
    | .schedule => .str c!"Schedule"
    | .aup areas => .obj [(c!"Aup", (list text).to areas)]
    | .notam icao texts => .obj [(c!"Notam", .arr [text.to icao, (list text).to texts])]
    | .area a => .obj [(c!"Area", AdaptationJson.activeAreas.to a)]
    | .id a => .obj [(c!"Id", AdaptationJson.activeIds.to a)]
    | .callsign a => .obj [(c!"Callsign", AdaptationJson.activeIds.to a)]
    | .runway a => .obj [(c!"Runway", AdaptationJson.activeRunways.to a)]
    | .map op folder name => .obj [(c!"Map", .arr [AdaptationJson.activeMapOperator.to op, text.to folder, text.to name])] := by
  cases x <;> rfl

/-- **C92, symbols.** -/
theorem C92_symbol_rule (x : Settings.SymbolRule F) : AdaptationJson.symbolRule.to x = match x with
    | .move p => .obj [(c!"Move", AdaptationJson.pair.to p)]
    | .line p => .obj [(c!"Line", AdaptationJson.pair.to p)]
    | .pixel p => .obj [(c!"Pixel", AdaptationJson.pair.to p)]
    | .arc p r a b => .obj [(c!"Arc", .arr [AdaptationJson.pair.to p, float.to r, i64.to a, i64.to b])]
    | .ellipticArc p r s a b => .obj [(c!"EllipticArc", .arr [AdaptationJson.pair.to p, float.to r, float.to s, i64.to a, i64.to b])]
    | .filledArc p r a b => .obj [(c!"FilledArc", .arr [AdaptationJson.pair.to p, float.to r, i64.to a, i64.to b])]
    | .filledEllipticArc p r s a b =>
      .obj [(c!"FilledEllipticArc", .arr [AdaptationJson.pair.to p, float.to r, float.to s, i64.to a, i64.to b])]
    | .polygon ps => .obj [(c!"Polygon", (list AdaptationJson.pair).to ps)] := by
  cases x <;> rfl

end Verif.Props
