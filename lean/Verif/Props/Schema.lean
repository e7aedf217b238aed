import Verif.Props.AdaptationJson
import Verif.Proofs.Schema
/-!
# C92: the names in the JSON of an adaptation

`Verif.Spec.Schema` is the shape; the theorems `C92_…` say which value of the adaptation each name stands for.  With C89 they
say what an overlay that sets or keeps a name does.
-/

namespace Verif.Props
open Verif.Adaptation Verif.Json Verif.Spec.Jsonnet Verif.Proofs.Jsonnet Verif.Spec.Schema Verif.Proofs.Schema
open Verif.Display (F32Ops)

variable {F G : Type} [DecidableEq F] [F32Ops G] [JsonFloat F] [JsonFloat G]

/-- **C92, the shape.**  Every adaptation is written in the shape of the specification. -/
theorem C92_shape (a : Adaptation F G) : Fits Spec.Schema.adaptation ((AdaptationJson.adaptation F G).to a) := adaptation_shaped a

/-- What is written at this path is this part of the adaptation. -/
def At {A : Type} (path : List Str) (get : Adaptation F G → Option A) : Prop := ∃ c, AdaptationPlace path c get

theorem at_field {A B C : Type} {path : List Str} {fs : Fields A} {f : B → A} {g : A → B} {get : Adaptation F G → Option B} {k : Str}
    {c : Codec C} {proj : A → C} {get' : Adaptation F G → Option C}
    (h : AdaptationPlace path (fs.struct f g) get) (hfg : ∀ x, f (g x) = x) (hf : HasField fs k c proj)
    (he : ∀ a, get' a = (get a).map fun b => proj (f b)) : At (path ++ [k]) get' := by
  have := Place.field h hfg hf
  rw [← funext he] at this
  exact ⟨c, this⟩

theorem at_top {C : Type} {k : Str} {c : Codec C} {proj : _ → C} {get' : Adaptation F G → Option C}
    (hf : HasField (AdaptationJson.adaptationFields F G) k c proj)
    (he : ∀ a, get' a = some (proj (AdaptationJson.contents a))) : At [k] get' := by
  have := Place.top (fields := AdaptationJson.contents) hf
  rw [← funext he] at this
  exact ⟨c, this⟩

theorem place_top {C : Type} {k : Str} {c : Codec C} {proj : _ → C} {get' : Adaptation F G → Option C}
    (hf : HasField (AdaptationJson.adaptationFields F G) k c proj)
    (he : ∀ a, get' a = some (proj (AdaptationJson.contents a))) : AdaptationPlace [k] c get' := by
  have := Place.top (fields := AdaptationJson.contents) hf
  rwa [← funext he] at this

theorem place_field {A B C : Type} {path : List Str} {fs : Fields A} {f : B → A} {g : A → B} {get : Adaptation F G → Option B} {k : Str}
    {c : Codec C} {proj : A → C} {get' : Adaptation F G → Option C}
    (h : AdaptationPlace path (fs.struct f g) get) (hfg : ∀ x, f (g x) = x) (hf : HasField fs k c proj)
    (he : ∀ a, get' a = (get a).map fun b => proj (f b)) : AdaptationPlace (path ++ [k]) c get' := by
  have := Place.field h hfg hf
  rwa [← funext he] at this

/-- Finds the field of a struct. -/
local macro "field" : tactic => `(tactic| repeat' first | exact HasField.here .. | apply HasField.there (by decide +kernel))
local macro "equal" : tactic => `(tactic| first | (intro a; rfl) | (intro a; simp only [Option.map_map]; rfl))
/-- The places at the fields of an adaptation -/
local macro "tops" : tactic => `(tactic| (repeat' apply And.intro) <;> (apply at_top; (· field); (· equal)))
/-- The places at the fields of a place -/
local macro "fields " h:term : tactic => `(tactic| (repeat' apply And.intro) <;> (apply at_field $h (fun _ => rfl); (· field); (· equal)))

/-- **C92, the fields of an adaptation.** -/
theorem C92_top :
    At [c!"name"] (fun a : Adaptation F G => some a.name) ∧
    At [c!"positions"] (fun a : Adaptation F G => some a.positions) ∧
    At [c!"volumes"] (fun a : Adaptation F G => some a.volumes) ∧
    At [c!"sectors"] (fun a : Adaptation F G => some a.sectors) ∧
    At [c!"departure_constraints"] (fun a : Adaptation F G => some a.departureConstraints) ∧
    At [c!"destination_constraints"] (fun a : Adaptation F G => some a.destinationConstraints) ∧
    At [c!"maps"] (fun a : Adaptation F G => some a.maps) ∧
    At [c!"line_styles"] (fun a : Adaptation F G => some a.lineStyles) ∧
    At [c!"settings"] (fun a : Adaptation F G => some a.settings) ∧
    At [c!"aircraft"] (fun a : Adaptation F G => some a.aircraft) ∧
    At [c!"airlines"] (fun a : Adaptation F G => some a.airlines) ∧
    At [c!"sct_items"] (fun a : Adaptation F G => some a.sctItems) := by
  tops

theorem locations_at : AdaptationPlace [c!"locations"] AdaptationJson.locations (fun a : Adaptation F G => some (a.locations, a.airways)) := by
  apply place_top
  · field
  · equal

/-- **C92, locations.** -/
theorem C92_locations :
    At [c!"locations", c!"fixes"] (fun a : Adaptation F G => some a.locations.fixes) ∧
    At [c!"locations", c!"vors"] (fun a : Adaptation F G => some a.locations.vors) ∧
    At [c!"locations", c!"ndbs"] (fun a : Adaptation F G => some a.locations.ndbs) ∧
    At [c!"locations", c!"airports"] (fun a : Adaptation F G => some a.locations.airports) ∧
    At [c!"locations", c!"sids"] (fun a : Adaptation F G => some a.locations.sids) ∧
    At [c!"locations", c!"stars"] (fun a : Adaptation F G => some a.locations.stars) ∧
    At [c!"locations", c!"airways"] (fun a : Adaptation F G => some a.airways) := by
  fields locations_at

theorem symbols_at : AdaptationPlace [c!"symbols"] AdaptationJson.symbols (fun a : Adaptation F G => some (a.symbols, a.otherSymbols)) := by
  apply place_top
  · field
  · equal

/-- **C92, symbols.** -/
theorem C92_symbols :
    At [c!"symbols", c!"history_dot"] (fun a : Adaptation F G => some (a.symbols .historyDot)) ∧
    At [c!"symbols", c!"fix"] (fun a : Adaptation F G => some (a.symbols .fix)) ∧
    At [c!"symbols", c!"ndb"] (fun a : Adaptation F G => some (a.symbols .ndb)) ∧
    At [c!"symbols", c!"vor"] (fun a : Adaptation F G => some (a.symbols .vor)) ∧
    At [c!"symbols", c!"airport"] (fun a : Adaptation F G => some (a.symbols .airport)) ∧
    At [c!"symbols", c!"primary"] (fun a : Adaptation F G => some (a.symbols .primary)) ∧
    At [c!"symbols", c!"coasted"] (fun a : Adaptation F G => some (a.symbols .coasted)) ∧
    At [c!"symbols", c!"uncontrolled"] (fun a : Adaptation F G => some (a.symbols .uncontrolled)) ∧
    At [c!"symbols", c!"controlled"] (fun a : Adaptation F G => some (a.symbols .controlled)) ∧
    At [c!"symbols", c!"other"] (fun a : Adaptation F G => some a.otherSymbols) := by
  fields symbols_at

theorem colours_at : AdaptationPlace [c!"colours"] AdaptationJson.colours (fun a : Adaptation F G => some (a.mapColours, a.roleColours, a.otherColours)) := by
  apply place_top
  · field
  · equal

/-- **C92, other colours.** -/
theorem C92_other_colours :
    At [c!"colours", c!"other"] (fun a : Adaptation F G => some a.otherColours) := by
  fields colours_at

theorem trackColours_at : AdaptationPlace [c!"colours", c!"track"] (AdaptationJson.trackColours.struct id id) (fun a : Adaptation F G => some (a.roleColours .assumed, a.roleColours .advanced, a.roleColours .concerned, a.roleColours .unconcerned, a.roleColours .flightLeg, a.roleColours .predictedAlert, a.roleColours .currentAlert, a.roleColours .reaction, a.roleColours .cleared, a.roleColours .vfr, ())) := by
  apply place_field colours_at (fun _ => rfl)
  · field
  · equal

/-- **C92, colours.** -/
theorem C92_track_colours :
    At [c!"colours", c!"track", c!"assumed"] (fun a : Adaptation F G => some (a.roleColours .assumed)) ∧
    At [c!"colours", c!"track", c!"advanced"] (fun a : Adaptation F G => some (a.roleColours .advanced)) ∧
    At [c!"colours", c!"track", c!"concerned"] (fun a : Adaptation F G => some (a.roleColours .concerned)) ∧
    At [c!"colours", c!"track", c!"unconcerned"] (fun a : Adaptation F G => some (a.roleColours .unconcerned)) ∧
    At [c!"colours", c!"track", c!"flight_leg"] (fun a : Adaptation F G => some (a.roleColours .flightLeg)) ∧
    At [c!"colours", c!"track", c!"predicted_alert"] (fun a : Adaptation F G => some (a.roleColours .predictedAlert)) ∧
    At [c!"colours", c!"track", c!"current_alert"] (fun a : Adaptation F G => some (a.roleColours .currentAlert)) ∧
    At [c!"colours", c!"track", c!"reaction"] (fun a : Adaptation F G => some (a.roleColours .reaction)) ∧
    At [c!"colours", c!"track", c!"cleared"] (fun a : Adaptation F G => some (a.roleColours .cleared)) ∧
    At [c!"colours", c!"track", c!"vfr"] (fun a : Adaptation F G => some (a.roleColours .vfr)) := by
  fields trackColours_at

theorem sectorColours_at : AdaptationPlace [c!"colours", c!"sector"] (AdaptationJson.sectorColours.struct id id) (fun a : Adaptation F G => some (a.mapColours .activeBackground, a.mapColours .inactiveBackground, ())) := by
  apply place_field colours_at (fun _ => rfl)
  · field
  · equal

/-- **C92, colours.** -/
theorem C92_sector_colours :
    At [c!"colours", c!"sector", c!"active_background"] (fun a : Adaptation F G => some (a.mapColours .activeBackground)) ∧
    At [c!"colours", c!"sector", c!"inactive_background"] (fun a : Adaptation F G => some (a.mapColours .inactiveBackground)) := by
  fields sectorColours_at

theorem mapColours_at : AdaptationPlace [c!"colours", c!"map"] ((AdaptationJson.mapColours AdaptationJson.mapColours2).struct id id) (fun a : Adaptation F G => some (a.mapColours .fixSymbol, a.mapColours .fixName, a.mapColours .airportSymbol, a.mapColours .airportName, a.mapColours .ndbSymbol, a.mapColours .ndbName, a.mapColours .ndbFrequency, a.mapColours .vorSymbol, a.mapColours .vorName, a.mapColours .vorFrequency, a.mapColours .lowAirwayLine, a.mapColours .lowAirwayName, a.mapColours .highAirwayLine, a.mapColours .highAirwayName, a.mapColours .sid, a.mapColours .star, a.mapColours .artccBoundary, a.mapColours .artccLowBoundary, a.mapColours .artccHighBoundary, a.mapColours .geo, a.mapColours .runwayCentreline, a.mapColours .runwayExtendedCentreline, a.mapColours .runwayName, a.mapColours .freeText, ())) := by
  apply place_field colours_at (fun _ => rfl)
  · field
  · equal

/-- **C92, colours.** -/
theorem C92_map_colours :
    At [c!"colours", c!"map", c!"fix_symbol"] (fun a : Adaptation F G => some (a.mapColours .fixSymbol)) ∧
    At [c!"colours", c!"map", c!"fix_name"] (fun a : Adaptation F G => some (a.mapColours .fixName)) ∧
    At [c!"colours", c!"map", c!"airport_symbol"] (fun a : Adaptation F G => some (a.mapColours .airportSymbol)) ∧
    At [c!"colours", c!"map", c!"airport_name"] (fun a : Adaptation F G => some (a.mapColours .airportName)) ∧
    At [c!"colours", c!"map", c!"ndb_symbol"] (fun a : Adaptation F G => some (a.mapColours .ndbSymbol)) ∧
    At [c!"colours", c!"map", c!"ndb_name"] (fun a : Adaptation F G => some (a.mapColours .ndbName)) ∧
    At [c!"colours", c!"map", c!"ndb_frequency"] (fun a : Adaptation F G => some (a.mapColours .ndbFrequency)) ∧
    At [c!"colours", c!"map", c!"vor_symbol"] (fun a : Adaptation F G => some (a.mapColours .vorSymbol)) ∧
    At [c!"colours", c!"map", c!"vor_name"] (fun a : Adaptation F G => some (a.mapColours .vorName)) ∧
    At [c!"colours", c!"map", c!"vor_frequency"] (fun a : Adaptation F G => some (a.mapColours .vorFrequency)) ∧
    At [c!"colours", c!"map", c!"low_airway_line"] (fun a : Adaptation F G => some (a.mapColours .lowAirwayLine)) ∧
    At [c!"colours", c!"map", c!"low_airway_name"] (fun a : Adaptation F G => some (a.mapColours .lowAirwayName)) ∧
    At [c!"colours", c!"map", c!"high_airway_line"] (fun a : Adaptation F G => some (a.mapColours .highAirwayLine)) ∧
    At [c!"colours", c!"map", c!"high_airway_name"] (fun a : Adaptation F G => some (a.mapColours .highAirwayName)) ∧
    At [c!"colours", c!"map", c!"sid"] (fun a : Adaptation F G => some (a.mapColours .sid)) ∧
    At [c!"colours", c!"map", c!"star"] (fun a : Adaptation F G => some (a.mapColours .star)) ∧
    At [c!"colours", c!"map", c!"artcc_boundary"] (fun a : Adaptation F G => some (a.mapColours .artccBoundary)) ∧
    At [c!"colours", c!"map", c!"artcc_low_boundary"] (fun a : Adaptation F G => some (a.mapColours .artccLowBoundary)) ∧
    At [c!"colours", c!"map", c!"artcc_high_boundary"] (fun a : Adaptation F G => some (a.mapColours .artccHighBoundary)) ∧
    At [c!"colours", c!"map", c!"geo"] (fun a : Adaptation F G => some (a.mapColours .geo)) ∧
    At [c!"colours", c!"map", c!"runway_centreline"] (fun a : Adaptation F G => some (a.mapColours .runwayCentreline)) ∧
    At [c!"colours", c!"map", c!"runway_extended_centreline"] (fun a : Adaptation F G => some (a.mapColours .runwayExtendedCentreline)) ∧
    At [c!"colours", c!"map", c!"runway_name"] (fun a : Adaptation F G => some (a.mapColours .runwayName)) ∧
    At [c!"colours", c!"map", c!"free_text"] (fun a : Adaptation F G => some (a.mapColours .freeText)) := by
  fields mapColours_at

theorem uiColours_at : AdaptationPlace [c!"colours", c!"ui"] (AdaptationJson.uiColours.struct id id) (fun a : Adaptation F G => some (a.roleColours .foreground, a.roleColours .background, a.roleColours .armed, a.roleColours .windowTitleBackgroundSelected, a.roleColours .textInput, a.roleColours .warning, a.roleColours .alert, ())) := by
  apply place_field colours_at (fun _ => rfl)
  · field
  · equal

/-- **C92, colours.** -/
theorem C92_ui_colours :
    At [c!"colours", c!"ui", c!"foreground"] (fun a : Adaptation F G => some (a.roleColours .foreground)) ∧
    At [c!"colours", c!"ui", c!"background"] (fun a : Adaptation F G => some (a.roleColours .background)) ∧
    At [c!"colours", c!"ui", c!"armed"] (fun a : Adaptation F G => some (a.roleColours .armed)) ∧
    At [c!"colours", c!"ui", c!"window_title_background_selected"] (fun a : Adaptation F G => some (a.roleColours .windowTitleBackgroundSelected)) ∧
    At [c!"colours", c!"ui", c!"text_input"] (fun a : Adaptation F G => some (a.roleColours .textInput)) ∧
    At [c!"colours", c!"ui", c!"warning"] (fun a : Adaptation F G => some (a.roleColours .warning)) ∧
    At [c!"colours", c!"ui", c!"alert"] (fun a : Adaptation F G => some (a.roleColours .alert)) := by
  fields uiColours_at

theorem settings_at : AdaptationPlace [c!"settings"] AdaptationJson.settings (fun a : Adaptation F G => some a.settings) := by
  apply place_top
  · field
  · equal

theorem mapsSettings_at : AdaptationPlace [c!"settings", c!"maps"] AdaptationJson.mapsSettings (fun a : Adaptation F G => some a.settings.maps) := by
  apply place_field settings_at (fun _ => rfl)
  · field
  · equal

/-- **C92, settings.** -/
theorem C92_settings :
    At [c!"settings", c!"maps"] (fun a : Adaptation F G => some a.settings.maps) ∧
    At [c!"settings", c!"coopans"] (fun a : Adaptation F G => some a.settings.coopans) ∧
    At [c!"settings", c!"asr_files"] (fun a : Adaptation F G => some a.settings.asrFiles) ∧
    At [c!"settings", c!"coordination"] (fun a : Adaptation F G => some a.settings.coordination) := by
  fields settings_at

/-- **C92, settings of the maps.** -/
theorem C92_maps_settings :
    At [c!"settings", c!"maps", c!"font"] (fun a : Adaptation F G => some a.settings.maps.font) ∧
    At [c!"settings", c!"maps", c!"font_size"] (fun a : Adaptation F G => some a.settings.maps.fontSize) ∧
    At [c!"settings", c!"maps", c!"auto_folder"] (fun a : Adaptation F G => some a.settings.maps.autoFolder) ∧
    At [c!"settings", c!"maps", c!"layer"] (fun a : Adaptation F G => some a.settings.maps.layer) ∧
    At [c!"settings", c!"maps", c!"label_offset"] (fun a : Adaptation F G => some a.settings.maps.labelOffset) ∧
    At [c!"settings", c!"maps", c!"line_styles"] (fun a : Adaptation F G => some a.settings.maps.lineStyles) := by
  fields mapsSettings_at

theorem track_at : AdaptationPlace [c!"settings", c!"track"] AdaptationJson.track (fun a : Adaptation F G => some (a.settings.vector, a.settings.historyDots)) := by
  apply place_field settings_at (fun _ => rfl)
  · field
  · equal

/-- **C92, vectors and history dots.** -/
theorem C92_track :
    At [c!"settings", c!"track", c!"vector"] (fun a : Adaptation F G => some a.settings.vector) ∧
    At [c!"settings", c!"track", c!"history_dots"] (fun a : Adaptation F G => some a.settings.historyDots) := by
  fields track_at

theorem ssr_at : AdaptationPlace [c!"settings", c!"ssr"] AdaptationJson.ssr (fun a : Adaptation F G => some a.settings.specialUseCodes) := by
  apply place_field settings_at (fun _ => rfl)
  · field
  · equal

/-- **C92, special codes.** -/
theorem C92_ssr :
    At [c!"settings", c!"ssr", c!"special_use_codes"] (fun a : Adaptation F G => some a.settings.specialUseCodes) := by
  fields ssr_at

theorem vector_at : AdaptationPlace [c!"settings", c!"track", c!"vector"] AdaptationJson.vector (fun a : Adaptation F G => some a.settings.vector) := by
  apply place_field track_at (fun _ => rfl)
  · field
  · equal

/-- **C92, vectors.** -/
theorem C92_vector :
    At [c!"settings", c!"track", c!"vector", c!"enabled"] (fun a : Adaptation F G => some a.settings.vector.enabled) ∧
    At [c!"settings", c!"track", c!"vector", c!"length"] (fun a : Adaptation F G => some a.settings.vector.length) ∧
    At [c!"settings", c!"track", c!"vector", c!"options"] (fun a : Adaptation F G => some a.settings.vector.options) := by
  fields vector_at

theorem historyDots_at : AdaptationPlace [c!"settings", c!"track", c!"history_dots"] AdaptationJson.historyDots (fun a : Adaptation F G => some a.settings.historyDots) := by
  apply place_field track_at (fun _ => rfl)
  · field
  · equal

/-- **C92, history dots.** -/
theorem C92_history_dots :
    At [c!"settings", c!"track", c!"history_dots", c!"enabled"] (fun a : Adaptation F G => some a.settings.historyDots.enabled) ∧
    At [c!"settings", c!"track", c!"history_dots", c!"count"] (fun a : Adaptation F G => some a.settings.historyDots.count) ∧
    At [c!"settings", c!"track", c!"history_dots", c!"options"] (fun a : Adaptation F G => some a.settings.historyDots.options) := by
  fields historyDots_at

theorem coordination_at : AdaptationPlace [c!"settings", c!"coordination"] AdaptationJson.coordination (fun a : Adaptation F G => some a.settings.coordination) := by
  apply place_field settings_at (fun _ => rfl)
  · field
  · equal

/-- **C92, coordination.** -/
theorem C92_coordination :
    At [c!"settings", c!"coordination", c!"act_time"] (fun a : Adaptation F G => some a.settings.coordination.act) ∧
    At [c!"settings", c!"coordination", c!"abi_time"] (fun a : Adaptation F G => some a.settings.coordination.abi) ∧
    At [c!"settings", c!"coordination", c!"rev_time"] (fun a : Adaptation F G => some a.settings.coordination.rev) ∧
    At [c!"settings", c!"coordination", c!"lam_timeout"] (fun a : Adaptation F G => some a.settings.coordination.lamTimeout) ∧
    At [c!"settings", c!"coordination", c!"fir_overrides"] (fun a : Adaptation F G => some a.settings.coordination.firOverrides) := by
  fields coordination_at

theorem lineSettings_at : AdaptationPlace [c!"settings", c!"maps", c!"line_styles"] AdaptationJson.lineSettings (fun a : Adaptation F G => some a.settings.maps.lineStyles) := by
  apply place_field mapsSettings_at (fun _ => rfl)
  · field
  · equal

/-- **C92, lines.** -/
theorem C92_line_settings :
    At [c!"settings", c!"maps", c!"line_styles", c!"runway_centreline"] (fun a : Adaptation F G => some (a.settings.maps.lineStyles .runwayCentreline)) ∧
    At [c!"settings", c!"maps", c!"line_styles", c!"geo"] (fun a : Adaptation F G => some (a.settings.maps.lineStyles .geo)) ∧
    At [c!"settings", c!"maps", c!"line_styles", c!"sid"] (fun a : Adaptation F G => some (a.settings.maps.lineStyles .sid)) ∧
    At [c!"settings", c!"maps", c!"line_styles", c!"star"] (fun a : Adaptation F G => some (a.settings.maps.lineStyles .star)) ∧
    At [c!"settings", c!"maps", c!"line_styles", c!"high_airways"] (fun a : Adaptation F G => some (a.settings.maps.lineStyles .highAirways)) ∧
    At [c!"settings", c!"maps", c!"line_styles", c!"low_airways"] (fun a : Adaptation F G => some (a.settings.maps.lineStyles .lowAirways)) ∧
    At [c!"settings", c!"maps", c!"line_styles", c!"artcc_low"] (fun a : Adaptation F G => some (a.settings.maps.lineStyles .artccLow)) ∧
    At [c!"settings", c!"maps", c!"line_styles", c!"artcc"] (fun a : Adaptation F G => some (a.settings.maps.lineStyles .artcc)) ∧
    At [c!"settings", c!"maps", c!"line_styles", c!"artcc_high"] (fun a : Adaptation F G => some (a.settings.maps.lineStyles .artccHigh)) := by
  fields lineSettings_at

theorem labelSettings_at : AdaptationPlace [c!"settings", c!"maps", c!"labels"] AdaptationJson.labelSettings (fun a : Adaptation F G => some (a.settings.maps.labelAlignments, a.settings.maps.labelSizes)) := by
  apply place_field mapsSettings_at (fun _ => rfl)
  · field
  · equal

/-- **C92, labels.** -/
theorem C92_label_settings :
    At [c!"settings", c!"maps", c!"labels", c!"vor_alignment"] (fun a : Adaptation F G => some (a.settings.maps.labelAlignments .vor)) ∧
    At [c!"settings", c!"maps", c!"labels", c!"vor_font_size"] (fun a : Adaptation F G => some (a.settings.maps.labelSizes .vor)) ∧
    At [c!"settings", c!"maps", c!"labels", c!"ndb_alignment"] (fun a : Adaptation F G => some (a.settings.maps.labelAlignments .ndb)) ∧
    At [c!"settings", c!"maps", c!"labels", c!"ndb_font_size"] (fun a : Adaptation F G => some (a.settings.maps.labelSizes .ndb)) ∧
    At [c!"settings", c!"maps", c!"labels", c!"fix_alignment"] (fun a : Adaptation F G => some (a.settings.maps.labelAlignments .fix)) ∧
    At [c!"settings", c!"maps", c!"labels", c!"fix_font_size"] (fun a : Adaptation F G => some (a.settings.maps.labelSizes .fix)) ∧
    At [c!"settings", c!"maps", c!"labels", c!"airport_alignment"] (fun a : Adaptation F G => some (a.settings.maps.labelAlignments .airport)) ∧
    At [c!"settings", c!"maps", c!"labels", c!"airport_font_size"] (fun a : Adaptation F G => some (a.settings.maps.labelSizes .airport)) ∧
    At [c!"settings", c!"maps", c!"labels", c!"runway_alignment"] (fun a : Adaptation F G => some (a.settings.maps.labelAlignments .runway)) ∧
    At [c!"settings", c!"maps", c!"labels", c!"runway_font_size"] (fun a : Adaptation F G => some (a.settings.maps.labelSizes .runway)) := by
  fields labelSettings_at

theorem sctItems_at : AdaptationPlace [c!"sct_items"] AdaptationJson.sctItems (fun a : Adaptation F G => some a.sctItems) := by
  apply place_top
  · field
  · equal

/-- **C92, items of the sector file.** -/
theorem C92_sct_items :
    At [c!"sct_items", c!"sids"] (fun a : Adaptation F G => some a.sctItems.sids) ∧
    At [c!"sct_items", c!"stars"] (fun a : Adaptation F G => some a.sctItems.stars) ∧
    At [c!"sct_items", c!"high_airways"] (fun a : Adaptation F G => some a.sctItems.highAirways) ∧
    At [c!"sct_items", c!"low_airways"] (fun a : Adaptation F G => some a.sctItems.lowAirways) ∧
    At [c!"sct_items", c!"artccs_high"] (fun a : Adaptation F G => some a.sctItems.artccsHigh) ∧
    At [c!"sct_items", c!"artccs"] (fun a : Adaptation F G => some a.sctItems.artccs) ∧
    At [c!"sct_items", c!"artccs_low"] (fun a : Adaptation F G => some a.sctItems.artccsLow) ∧
    At [c!"sct_items", c!"geo"] (fun a : Adaptation F G => some a.sctItems.geo) ∧
    At [c!"sct_items", c!"regions"] (fun a : Adaptation F G => some a.sctItems.regions) ∧
    At [c!"sct_items", c!"labels"] (fun a : Adaptation F G => some a.sctItems.labels) := by
  fields sctItems_at

theorem positions_at : AdaptationPlace [c!"positions"] (Codec.map AdaptationJson.position) (fun a : Adaptation F G => some a.positions) := by
  apply place_top
  · field
  · equal

/-- **C92, positions.** -/
theorem C92_positions (id : Str) :
    At [c!"positions", id] (fun a : Adaptation F G => a.positions.get? id) ∧
    At [c!"positions", id, c!"id"] (fun a : Adaptation F G => (a.positions.get? id).map fun x => x.id) ∧
    At [c!"positions", id, c!"name"] (fun a : Adaptation F G => (a.positions.get? id).map fun x => x.name) ∧
    At [c!"positions", id, c!"frequency"] (fun a : Adaptation F G => (a.positions.get? id).map fun x => x.frequency) ∧
    At [c!"positions", id, c!"prefix"] (fun a : Adaptation F G => (a.positions.get? id).map fun x => x.prefix_) ∧
    At [c!"positions", id, c!"suffix"] (fun a : Adaptation F G => (a.positions.get? id).map fun x => x.suffix) ∧
    At [c!"positions", id, c!"visibility_points"] (fun a : Adaptation F G => (a.positions.get? id).map fun x => x.visibilityPoints) := by
  have h : AdaptationPlace [c!"positions", id] AdaptationJson.position (fun a : Adaptation F G => a.positions.get? id) := .entry id positions_at
  exact ⟨⟨_, h⟩, by fields h⟩

theorem volumes_at : AdaptationPlace [c!"volumes"] (Codec.map AdaptationJson.volume) (fun a : Adaptation F G => some a.volumes) := by
  apply place_top
  · field
  · equal

/-- **C92, volumes.** -/
theorem C92_volumes (id : Str) :
    At [c!"volumes", id] (fun a : Adaptation F G => a.volumes.get? id) ∧
    At [c!"volumes", id, c!"id"] (fun a : Adaptation F G => (a.volumes.get? id).map fun x => x.id) ∧
    At [c!"volumes", id, c!"lower_level"] (fun a : Adaptation F G => (a.volumes.get? id).map fun x => x.lowerLevel) ∧
    At [c!"volumes", id, c!"upper_level"] (fun a : Adaptation F G => (a.volumes.get? id).map fun x => x.upperLevel) ∧
    At [c!"volumes", id, c!"lateral_border"] (fun a : Adaptation F G => (a.volumes.get? id).map fun x => x.lateralBorder) := by
  have h : AdaptationPlace [c!"volumes", id] AdaptationJson.volume (fun a : Adaptation F G => a.volumes.get? id) := .entry id volumes_at
  exact ⟨⟨_, h⟩, by fields h⟩

theorem sectors_at : AdaptationPlace [c!"sectors"] (Codec.map AdaptationJson.sector) (fun a : Adaptation F G => some a.sectors) := by
  apply place_top
  · field
  · equal

/-- **C92, sectors.** -/
theorem C92_sectors (id : Str) :
    At [c!"sectors", id] (fun a : Adaptation F G => a.sectors.get? id) ∧
    At [c!"sectors", id, c!"id"] (fun a : Adaptation F G => (a.sectors.get? id).map fun x => x.id) ∧
    At [c!"sectors", id, c!"position_priority"] (fun a : Adaptation F G => (a.sectors.get? id).map fun x => x.positionPriority) ∧
    At [c!"sectors", id, c!"runway_filter"] (fun a : Adaptation F G => (a.sectors.get? id).map fun x => x.runwayFilter) ∧
    At [c!"sectors", id, c!"volumes"] (fun a : Adaptation F G => (a.sectors.get? id).map fun x => x.volumes) ∧
    At [c!"sectors", id, c!"departure_aerodromes"] (fun a : Adaptation F G => (a.sectors.get? id).map fun x => x.departureAerodromes) ∧
    At [c!"sectors", id, c!"arrival_aerodromes"] (fun a : Adaptation F G => (a.sectors.get? id).map fun x => x.arrivalAerodromes) := by
  have h : AdaptationPlace [c!"sectors", id] AdaptationJson.sector (fun a : Adaptation F G => a.sectors.get? id) := .entry id sectors_at
  exact ⟨⟨_, h⟩, by fields h⟩

theorem departureConstraints_at : AdaptationPlace [c!"departure_constraints"] (Codec.map AdaptationJson.constraint) (fun a : Adaptation F G => some a.departureConstraints) := by
  apply place_top
  · field
  · equal

/-- **C92, departures.** -/
theorem C92_departure_constraints (id : Str) :
    At [c!"departure_constraints", id] (fun a : Adaptation F G => a.departureConstraints.get? id) ∧
    At [c!"departure_constraints", id, c!"previous_fix"] (fun a : Adaptation F G => (a.departureConstraints.get? id).map fun x => x.rule.previousFix) ∧
    At [c!"departure_constraints", id, c!"departure_runway"] (fun a : Adaptation F G => (a.departureConstraints.get? id).map fun x => x.rule.departureRunway) ∧
    At [c!"departure_constraints", id, c!"subsequent_fix"] (fun a : Adaptation F G => (a.departureConstraints.get? id).map fun x => x.rule.subsequentFix) ∧
    At [c!"departure_constraints", id, c!"arrival_runway"] (fun a : Adaptation F G => (a.departureConstraints.get? id).map fun x => x.rule.arrivalRunway) ∧
    At [c!"departure_constraints", id, c!"fix"] (fun a : Adaptation F G => (a.departureConstraints.get? id).map fun x => x.rule.fix) ∧
    At [c!"departure_constraints", id, c!"exit_sector"] (fun a : Adaptation F G => (a.departureConstraints.get? id).map fun x => x.rule.exitSector) ∧
    At [c!"departure_constraints", id, c!"entry_sector"] (fun a : Adaptation F G => (a.departureConstraints.get? id).map fun x => x.rule.entrySector) ∧
    At [c!"departure_constraints", id, c!"climb_level"] (fun a : Adaptation F G => (a.departureConstraints.get? id).map fun x => x.rule.climbLevel) ∧
    At [c!"departure_constraints", id, c!"descent_level"] (fun a : Adaptation F G => (a.departureConstraints.get? id).map fun x => x.rule.descentLevel) ∧
    At [c!"departure_constraints", id, c!"description"] (fun a : Adaptation F G => (a.departureConstraints.get? id).map fun x => x.rule.description) ∧
    At [c!"departure_constraints", id, c!"coord_timing"] (fun a : Adaptation F G => (a.departureConstraints.get? id).map fun x => x.timing) := by
  have h : AdaptationPlace [c!"departure_constraints", id] AdaptationJson.constraint (fun a : Adaptation F G => a.departureConstraints.get? id) := .entry id departureConstraints_at
  exact ⟨⟨_, h⟩, by fields h⟩

theorem destinationConstraints_at : AdaptationPlace [c!"destination_constraints"] (Codec.map AdaptationJson.constraint) (fun a : Adaptation F G => some a.destinationConstraints) := by
  apply place_top
  · field
  · equal

/-- **C92, arrivals.** -/
theorem C92_destination_constraints (id : Str) :
    At [c!"destination_constraints", id] (fun a : Adaptation F G => a.destinationConstraints.get? id) ∧
    At [c!"destination_constraints", id, c!"previous_fix"] (fun a : Adaptation F G => (a.destinationConstraints.get? id).map fun x => x.rule.previousFix) ∧
    At [c!"destination_constraints", id, c!"departure_runway"] (fun a : Adaptation F G => (a.destinationConstraints.get? id).map fun x => x.rule.departureRunway) ∧
    At [c!"destination_constraints", id, c!"subsequent_fix"] (fun a : Adaptation F G => (a.destinationConstraints.get? id).map fun x => x.rule.subsequentFix) ∧
    At [c!"destination_constraints", id, c!"arrival_runway"] (fun a : Adaptation F G => (a.destinationConstraints.get? id).map fun x => x.rule.arrivalRunway) ∧
    At [c!"destination_constraints", id, c!"fix"] (fun a : Adaptation F G => (a.destinationConstraints.get? id).map fun x => x.rule.fix) ∧
    At [c!"destination_constraints", id, c!"exit_sector"] (fun a : Adaptation F G => (a.destinationConstraints.get? id).map fun x => x.rule.exitSector) ∧
    At [c!"destination_constraints", id, c!"entry_sector"] (fun a : Adaptation F G => (a.destinationConstraints.get? id).map fun x => x.rule.entrySector) ∧
    At [c!"destination_constraints", id, c!"climb_level"] (fun a : Adaptation F G => (a.destinationConstraints.get? id).map fun x => x.rule.climbLevel) ∧
    At [c!"destination_constraints", id, c!"descent_level"] (fun a : Adaptation F G => (a.destinationConstraints.get? id).map fun x => x.rule.descentLevel) ∧
    At [c!"destination_constraints", id, c!"description"] (fun a : Adaptation F G => (a.destinationConstraints.get? id).map fun x => x.rule.description) ∧
    At [c!"destination_constraints", id, c!"coord_timing"] (fun a : Adaptation F G => (a.destinationConstraints.get? id).map fun x => x.timing) := by
  have h : AdaptationPlace [c!"destination_constraints", id] AdaptationJson.constraint (fun a : Adaptation F G => a.destinationConstraints.get? id) := .entry id destinationConstraints_at
  exact ⟨⟨_, h⟩, by fields h⟩

theorem maps_at : AdaptationPlace [c!"maps"] (Codec.map (AdaptationJson.folder F G)) (fun a : Adaptation F G => some a.maps) := by
  apply place_top
  · field
  · equal

/-- **C92, folders of maps.** -/
theorem C92_folders (id : Str) : letI := world F G
    At [c!"maps", id] (fun a : Adaptation F G => a.maps.get? id) ∧
    At [c!"maps", id, c!"name"] (fun a : Adaptation F G => (a.maps.get? id).map fun x => x.name) ∧
    At [c!"maps", id, c!"hidden"] (fun a : Adaptation F G => (a.maps.get? id).map fun x => x.hidden) ∧
    At [c!"maps", id, c!"maps"] (fun a : Adaptation F G => (a.maps.get? id).map fun x => x.maps) := by
  have h : AdaptationPlace [c!"maps", id] (AdaptationJson.folder F G) (fun a : Adaptation F G => a.maps.get? id) := .entry id maps_at
  exact ⟨⟨_, h⟩, by fields h⟩

theorem aircraft_at : AdaptationPlace [c!"aircraft"] (Codec.map AdaptationJson.aircraft) (fun a : Adaptation F G => some a.aircraft) := by
  apply place_top
  · field
  · equal

/-- **C92, aircraft.** -/
theorem C92_aircraft (id : Str) :
    At [c!"aircraft", id] (fun a : Adaptation F G => a.aircraft.get? id) ∧
    At [c!"aircraft", id, c!"designator"] (fun a : Adaptation F G => (a.aircraft.get? id).map fun x => x.designator) ∧
    At [c!"aircraft", id, c!"wtc"] (fun a : Adaptation F G => (a.aircraft.get? id).map fun x => x.wtc) ∧
    At [c!"aircraft", id, c!"aircrafttype"] (fun a : Adaptation F G => (a.aircraft.get? id).map fun x => x.aircrafttype) ∧
    At [c!"aircraft", id, c!"num_engines"] (fun a : Adaptation F G => (a.aircraft.get? id).map fun x => x.numEngines) ∧
    At [c!"aircraft", id, c!"enginetype"] (fun a : Adaptation F G => (a.aircraft.get? id).map fun x => x.enginetype) ∧
    At [c!"aircraft", id, c!"manufacturer"] (fun a : Adaptation F G => (a.aircraft.get? id).map fun x => x.manufacturer) ∧
    At [c!"aircraft", id, c!"name"] (fun a : Adaptation F G => (a.aircraft.get? id).map fun x => x.name) := by
  have h : AdaptationPlace [c!"aircraft", id] AdaptationJson.aircraft (fun a : Adaptation F G => a.aircraft.get? id) := .entry id aircraft_at
  exact ⟨⟨_, h⟩, by fields h⟩

theorem airlines_at : AdaptationPlace [c!"airlines"] (Codec.map AdaptationJson.airline) (fun a : Adaptation F G => some a.airlines) := by
  apply place_top
  · field
  · equal

/-- **C92, airlines.** -/
theorem C92_airlines (id : Str) :
    At [c!"airlines", id] (fun a : Adaptation F G => a.airlines.get? id) ∧
    At [c!"airlines", id, c!"designator"] (fun a : Adaptation F G => (a.airlines.get? id).map fun x => x.designator) ∧
    At [c!"airlines", id, c!"name"] (fun a : Adaptation F G => (a.airlines.get? id).map fun x => x.name) ∧
    At [c!"airlines", id, c!"callsign"] (fun a : Adaptation F G => (a.airlines.get? id).map fun x => x.callsign) ∧
    At [c!"airlines", id, c!"country"] (fun a : Adaptation F G => (a.airlines.get? id).map fun x => x.country) := by
  have h : AdaptationPlace [c!"airlines", id] AdaptationJson.airline (fun a : Adaptation F G => a.airlines.get? id) := .entry id airlines_at
  exact ⟨⟨_, h⟩, by fields h⟩

/-- **C92, maps.** -/
theorem C92_maps (f id : Str) : letI := world F G
    At [c!"maps", f, c!"maps", id] (fun a : Adaptation F G => (a.maps.get? f).bind fun x => x.maps.get? id) ∧
    At [c!"maps", f, c!"maps", id, c!"name"] (fun a : Adaptation F G => ((a.maps.get? f).bind fun x => x.maps.get? id).map fun x => x.name) ∧
    At [c!"maps", f, c!"maps", id, c!"folder"] (fun a : Adaptation F G => ((a.maps.get? f).bind fun x => x.maps.get? id).map fun x => x.folder) ∧
    At [c!"maps", f, c!"maps", id, c!"map_groups"] (fun a : Adaptation F G => ((a.maps.get? f).bind fun x => x.maps.get? id).map fun x => x.groups) ∧
    At [c!"maps", f, c!"maps", id, c!"hidden"] (fun a : Adaptation F G => ((a.maps.get? f).bind fun x => x.maps.get? id).map fun x => x.hidden) ∧
    At [c!"maps", f, c!"maps", id, c!"active"] (fun a : Adaptation F G => ((a.maps.get? f).bind fun x => x.maps.get? id).map fun x => x.active) := by
  letI := world F G
  have h0 : AdaptationPlace [c!"maps", f] (AdaptationJson.folder F G) (fun a : Adaptation F G => a.maps.get? f) := .entry f maps_at
  have h1 : AdaptationPlace [c!"maps", f, c!"maps"] (Codec.map (AdaptationJson.mapV F G))
      (fun a : Adaptation F G => (a.maps.get? f).map fun x => x.maps) := by
    apply place_field h0 (fun _ => rfl)
    · field
    · equal
  have h : AdaptationPlace [c!"maps", f, c!"maps", id] (AdaptationJson.mapV F G)
      (fun a : Adaptation F G => (a.maps.get? f).bind fun x => x.maps.get? id) := by
    have := Place.entry id h1
    simp only [Option.bind_map] at this
    exact this
  exact ⟨⟨_, h⟩, by fields h⟩

end Verif.Props
