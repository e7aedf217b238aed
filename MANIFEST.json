{
 "claims": [
  {
   "property": "C01",
   "status": "proved",
   "theorems": [
    "Verif.Props.C01_isec",
    "Verif.Props.C01_airway",
    "Verif.Props.C01_asr",
    "Verif.Props.C01_icao_airlines",
    "Verif.Props.C01_topsky_settings",
    "Verif.Props.C01_symbology",
    "Verif.Props.C01_topsky_symbols",
    "Verif.Props.C01_topsky_maps",
    "Verif.Props.C01_prf",
    "Verif.Props.C01_icao_aircraft",
    "Verif.Props.C01_icao_airports",
    "Verif.Props.C01_navdata_airports",
    "Verif.Props.C01_sct",
    "Verif.Props.C01_ese",
    "Verif.Props.C01_parse_isec",
    "Verif.Props.C01_parse_airway",
    "Verif.Props.C01_parse_prf",
    "Verif.Props.C01_parse_aircraft",
    "Verif.Props.C01_parse_airlines",
    "Verif.Props.C01_parse_airports",
    "Verif.Props.C01_parse_navdata",
    "Verif.Props.C01_parse_sct",
    "Verif.Props.C01_parse_ese",
    "Verif.Props.C01_parse_asr",
    "Verif.Props.C01_parse_symbology",
    "Verif.Props.C01_parse_topsky_settings",
    "Verif.Props.C01_parse_topsky_symbols",
    "Verif.Props.C01_parse_topsky_maps"
   ],
   "note": "Stated for the pest machine run on each grammar (every input ends in pairs or a parse error) and for the whole of each of the 14 parsers."
  },
  {
   "property": "C02",
   "status": "proved",
   "theorems": [
    "Verif.Props.C02_isec_no_panic"
   ],
   "note": "Also characterises the accepted files exactly."
  },
  {
   "property": "C03",
   "status": "proved",
   "theorems": [
    "Verif.Props.C03_isec_lines_round_trip",
    "Verif.Props.C03_isec_round_trip",
    "Verif.Props.isec_map_wellformed"
   ],
   "note": "The text of a coordinate (format {:.6}) is a parameter; the hypothesis says that it reads back as the same number."
  },
  {
   "property": "C04",
   "status": "proved",
   "theorems": [
    "Verif.Props.C04_isec_duplicates"
   ],
   "note": ""
  },
  {
   "property": "C05",
   "status": "proved",
   "theorems": [
    "Verif.Props.C05_aircraft_no_panic",
    "Verif.Props.C05_airlines_no_panic",
    "Verif.Props.C05_airports_no_panic",
    "Verif.Props.C05_navdata_no_panic"
   ],
   "note": "for every decoded text; the Unicode tables and f64 reading are parameters"
  },
  {
   "property": "C06",
   "status": "proved",
   "theorems": [
    "Verif.Props.C06_airlines",
    "Verif.Props.C06_airlines_accepts",
    "Verif.Props.C06_airlines_every",
    "Verif.Props.C06_airports",
    "Verif.Props.C06_airports_accepts",
    "Verif.Props.C06_airports_every",
    "Verif.Props.C06_aircraft",
    "Verif.Props.C06_aircraft_accepts",
    "Verif.Props.C06_aircraft_every",
    "Verif.Props.C06_navdata",
    "Verif.Props.C06_navdata_accepts",
    "Verif.Props.C06_navdata_every"
   ],
   "note": "For every text: the described form is exactly what is accepted (`_accepts`), so the first definition wins in every accepted text (`_every`). The airline, airport and aircraft tables need at least one line with data (a file without any is rejected)."
  },
  {
   "property": "C07",
   "status": "proved",
   "theorems": [
    "Verif.Props.C07_prf_no_panic",
    "Verif.Props.C07_prf_last_wins"
   ],
   "note": "Exact: accepted files are characterised by Spec/Prf.lean."
  },
  {
   "property": "C08",
   "status": "proved",
   "theorems": [
    "Verif.Props.C08_airway_panics_iff",
    "Verif.Props.C08_airway_ok",
    "Verif.Props.C08_airway_panic",
    "Verif.Props.C08_airway_error_iff"
   ],
   "note": "for every decoded text; f64 reading is a parameter"
  },
  {
   "property": "C09",
   "status": "proved",
   "theorems": [
    "Verif.AirwayGraph.C09_build_total",
    "Verif.AirwayGraph.C09_consistent"
   ],
   "note": ""
  },
  {
   "property": "C10",
   "status": "proved",
   "theorems": [
    "Verif.AirwayGraph.C10_edge_iff",
    "Verif.AirwayGraph.C10_edge_unique"
   ],
   "note": ""
  },
  {
   "property": "C100",
   "status": "partial",
   "theorems": [
    "Verif.Props.C100_wtc_partial",
    "Verif.Props.C100_wtc_injective",
    "Verif.Props.C100_wtc_unknown"
   ],
   "note": "False of the code for unknown categories (C100_wtc_unknown)."
  },
  {
   "property": "C101",
   "status": "partial",
   "theorems": [
    "Verif.Props.C101_columns_partial",
    "Verif.Props.C101_ambiguous"
   ],
   "note": "The columns are proved; that the text tells levels and runways apart is false of the code (C101_ambiguous)."
  },
  {
   "property": "C102",
   "status": "partial",
   "theorems": [
    "Verif.Props.C102_first_values_partial",
    "Verif.Props.C102_others_lost",
    "Verif.Props.C102_empty_vector"
   ],
   "note": "full property false: only the first value of each pair of keys is written"
  },
  {
   "property": "C103",
   "status": "proved",
   "theorems": [
    "Verif.Props.C103_text",
    "Verif.Props.C103_bytes",
    "Verif.Props.C103_unique",
    "Verif.Props.C103_refuses",
    "Verif.Props.C103_line_ends",
    "Verif.Props.C103_squawks"
   ],
   "note": "The values of fields that are ignored are read like all others here; serde_json does not look at their surrogates, ranges and depth."
  },
  {
   "property": "C104",
   "status": "proved",
   "theorems": [
    "Verif.Props.C104_round_trip",
    "Verif.Props.C104_strings",
    "Verif.Props.C104_printable",
    "Verif.Props.C104_depth",
    "Verif.Props.C104_adaptation"
   ],
   "note": "How numbers are printed is a parameter: as texts that stand for them."
  },
  {
   "property": "C105",
   "status": "partial",
   "theorems": [
    "Verif.Props.C105_nearest",
    "Verif.Props.C105_short_partial",
    "Verif.Props.C105_error",
    "Verif.Props.C105_error_small",
    "Verif.Props.C105_changed",
    "Verif.Props.C105_overlays",
    "Verif.Props.C105_airport"
   ],
   "note": "full property false: numbers with 16 or 17 digits are not always read as they were printed (C105_changed), as long as no crate turns on the feature float_roundtrip of serde_json"
  },
  {
   "property": "C106",
   "status": "proved",
   "theorems": [
    "Verif.Contains.C106_contains",
    "Verif.Contains.C106_apex",
    "Verif.Contains.C106_triangle",
    "Verif.Contains.C106_rectangle",
    "Verif.Contains.C106_within_extent",
    "Verif.Contains.C106_find_sector"
   ],
   "note": "geo's test as published, over exact coordinates; for polygons made by Polygon::new without holes"
  },
  {
   "property": "C107",
   "status": "partial",
   "theorems": [
    "Verif.Props.C107_loop_partial",
    "Verif.Props.C107_around_partial",
    "Verif.Props.C107_find_none_partial",
    "Verif.Props.C107_owners_partial",
    "Verif.Props.C107_depends",
    "Verif.Props.AdaptationExample.C107_owner_depends"
   ],
   "note": "full property false: C107_depends (border with four lines in a point), AdaptationExample.C107_owner_depends (sectors of different owners over each other)"
  },
  {
   "property": "C108",
   "status": "proved",
   "theorems": [
    "Verif.AirwayGraph.C108_expand_iff",
    "Verif.AirwayGraph.C108_expand_iff_way",
    "Verif.AirwayGraph.C108_way_nodup",
    "Verif.AirwayGraph.C108_way_unique",
    "Verif.AirwayGraph.C108_found_of_way",
    "Verif.AirwayGraph.C108_neighbours",
    "Verif.AirwayGraph.C108_not_symmetric",
    "Verif.AirwayGraph.C108_order_matters",
    "Verif.AirwayGraph.C108_loop_turns_round"
   ],
   "note": ""
  },
  {
   "property": "C109",
   "status": "proved",
   "theorems": [
    "Verif.Props.C109_airways",
    "Verif.Props.C109_routes"
   ],
   "note": "The mark of a fix is what contains_nav_element says, see C17."
  },
  {
   "property": "C11",
   "status": "proved",
   "theorems": [
    "Verif.AirwayGraph.C11_aggregate"
   ],
   "note": ""
  },
  {
   "property": "C110",
   "status": "proved",
   "theorems": [
    "Verif.Props.C110_same_outcome",
    "Verif.Props.C110_loads",
    "Verif.Props.C110_line_styles",
    "Verif.Props.AdaptationExample.C110_line_styles_depend",
    "Verif.Props.AdaptationExample.C110_two_topskys_depend",
    "Verif.Props.AdaptationExample.C110_sector_names_depend"
   ],
   "note": "the last three show that the conditions and exceptions are needed; for queries see C107"
  },
  {
   "property": "C111",
   "status": "proved",
   "theorems": [
    "Verif.Props.C111_keeps",
    "Verif.Props.C111_navdata_airports"
   ],
   "note": "what each file does decide is said by C74 to C84"
  },
  {
   "property": "C112",
   "status": "proved",
   "theorems": [
    "Verif.Props.C112_airlines",
    "Verif.Props.C112_airlines_accepts",
    "Verif.Props.C112_airports",
    "Verif.Props.C112_airports_accepts",
    "Verif.Props.C112_aircraft",
    "Verif.Props.C112_aircraft_accepts",
    "Verif.Props.C112_navdata",
    "Verif.Props.C112_isec",
    "Verif.Props.C112_isec_accepts",
    "Verif.Props.C112_prf",
    "Verif.Props.C112_prf_accepts",
    "Verif.Props.C112_airway",
    "Verif.Props.C112_airway_accepts"
   ],
   "note": "for a line feed as the end of the first file; levels above 4294967295 make the airway parser panic (C08)"
  },
  {
   "property": "C113",
   "status": "proved",
   "theorems": [
    "Verif.SectorIndex.C113_answers",
    "Verif.SectorIndex.C113_find_sector",
    "Verif.SectorIndex.C113_built_once",
    "Verif.SectorIndex.C113_progress",
    "Verif.SectorIndex.C113_afterwards"
   ],
   "note": "OnceLock is modelled step by step after its documentation; steps are atomic"
  },
  {
   "property": "C114",
   "status": "proved",
   "theorems": [
    "Verif.Props.C114_ese_lists",
    "Verif.Props.C114_ese_positions",
    "Verif.Props.C114_ese_sectors",
    "Verif.Props.C114_sct_lists",
    "Verif.Props.C114_sct_drawings",
    "Verif.Props.C114_sct_colours",
    "Verif.Props.C114_topsky_maps",
    "Verif.Props.C114_topsky_definitions",
    "Verif.Props.C114_airlines",
    "Verif.Props.C114_airports",
    "Verif.Props.C114_aircraft",
    "Verif.Props.C114_navdata",
    "Verif.Props.C114_prf",
    "Verif.Props.C114_isec",
    "Verif.Props.C114_airway"
   ],
   "note": "names of line styles in maps are returned in upper case and left out here"
  },
  {
   "property": "C115",
   "status": "proved",
   "theorems": [
    "Verif.Props.C115_airlines",
    "Verif.Props.C115_airports",
    "Verif.Props.C115_aircraft",
    "Verif.Props.C115_navdata",
    "Verif.Props.C115_isec",
    "Verif.Props.C115_prf",
    "Verif.Props.C115_airway",
    "Verif.Props.C115_ese",
    "Verif.Props.C115_sct",
    "Verif.Props.C115_asr",
    "Verif.Props.C115_symbology",
    "Verif.Props.C115_topsky_settings",
    "Verif.Props.C115_topsky_symbols",
    "Verif.Props.C115_topsky_maps"
   ],
   "note": "sections of .ese and .sct files and definitions of TopSky maps: for files of the format of Spec/Ese, Spec/Sct and Spec/Topsky"
  },
  {
   "property": "C116",
   "status": "proved",
   "theorems": [
    "Verif.AirwayGraph.C116_positions",
    "Verif.AirwayGraph.C116_given",
    "Verif.AirwayGraph.C116_unique",
    "Verif.Props.C116_loaded"
   ],
   "note": "quantisation is a parameter"
  },
  {
   "property": "C117",
   "status": "proved",
   "theorems": [
    "Verif.Props.C117_navaids",
    "Verif.Props.C117_airports",
    "Verif.Props.C117_positions",
    "Verif.Props.C117_procedures",
    "Verif.Props.C117_constraints",
    "Verif.Props.C117_sectors",
    "Verif.Props.C117_tables",
    "Verif.Props.C117_airways"
   ],
   "note": "the order of hash maps is a parameter; hypothesis AnyOrder where it matters"
  },
  {
   "property": "C118",
   "status": "proved",
   "theorems": [
    "Verif.Props.C118_load_ends",
    "Verif.Props.C118_overlays_end",
    "Verif.Props.C118_setup_ends"
   ],
   "note": "The only hypothesis is that a point is taken from each set that is not empty. Evaluating Jsonnet and decoding TOML are parameters, which are total functions."
  },
  {
   "property": "C119",
   "status": "proved",
   "theorems": [
    "Verif.Props.cutOff_exists",
    "Verif.Props.C119_isec_accepts",
    "Verif.Props.C119_isec",
    "Verif.Props.C119_airway_accepts",
    "Verif.Props.C119_airway",
    "Verif.Props.C119_ese",
    "Verif.Props.C119_airlines",
    "Verif.Props.C119_airports",
    "Verif.Props.C119_aircraft",
    "Verif.Props.C119_navdata",
    "Verif.Props.C119_prf",
    "Verif.Props.SymbologyCut.C119_symbology_end",
    "Verif.Props.SymbologyCut.C119_symbology",
    "Verif.Props.C119_json",
    "Verif.Props.C119_squawks",
    "Verif.Props.C119_adaptation",
    "Verif.Props.C119_airlines_misread",
    "Verif.Props.C119_prf_misread",
    "Verif.Props.C119_json_number"
   ],
   "note": "The two misread theorems show that the exception of one entry in the statement occurs: an entry that is cut off is read as it stands. Nothing is claimed about .sct, .asr and TopSky files that are cut off."
  },
  {
   "property": "C12",
   "status": "proved",
   "theorems": [
    "Verif.AirwayGraph.C12_expand_sound"
   ],
   "note": ""
  },
  {
   "property": "C13",
   "status": "proved",
   "theorems": [
    "Verif.AirwayGraph.C13_expand_chain"
   ],
   "note": ""
  },
  {
   "property": "C14",
   "status": "proved",
   "theorems": [
    "Verif.AirwayGraph.C14_expand_total"
   ],
   "note": ""
  },
  {
   "property": "C15",
   "status": "proved",
   "theorems": [
    "Verif.Locations.C15_table",
    "Verif.Locations.C15_coordinate",
    "Verif.Locations.C15_range_bearing",
    "Verif.Locations.C15_none",
    "Verif.Locations.C15_tables",
    "Verif.Locations.C15_location"
   ],
   "note": "For designators whose decimal digits are ASCII; others may panic, see C53."
  },
  {
   "property": "C16",
   "status": "proved",
   "theorems": [
    "Verif.Locations.C16_contains_iff",
    "Verif.Locations.C16_contains_iff_built"
   ],
   "note": ""
  },
  {
   "property": "C17",
   "status": "partial",
   "theorems": [
    "Verif.Locations.C17_contains_nav_element_partial",
    "Verif.Locations.C17_not_every_entry"
   ],
   "note": "False of the code for names with several entries (negation proved); proved for at most one entry per name and table, and soundness always."
  },
  {
   "property": "C18",
   "status": "proved",
   "theorems": [
    "Verif.Locations.C18_accepted_iff",
    "Verif.Locations.C18_unique"
   ],
   "note": ""
  },
  {
   "property": "C19",
   "status": "proved",
   "theorems": [
    "Verif.Locations.C19_normalised"
   ],
   "note": ""
  },
  {
   "property": "C20",
   "status": "proved",
   "theorems": [
    "Verif.Locations.C20_airport",
    "Verif.Locations.C20_order_independent"
   ],
   "note": ""
  },
  {
   "property": "C21",
   "status": "proved",
   "theorems": [
    "Verif.Polygon.C21_polygon_sound"
   ],
   "note": "For every border and every hash order of the point set."
  },
  {
   "property": "C22",
   "status": "proved",
   "theorems": [
    "Verif.Polygon.C22_polygon_iff",
    "Verif.Polygon.C22_choice_independent",
    "Verif.Polygon.C22_order_direction_independent"
   ],
   "note": ""
  },
  {
   "property": "C23",
   "status": "proved",
   "theorems": [
    "Verif.Polygon.C23_polygon_terminates"
   ],
   "note": ""
  },
  {
   "property": "C24",
   "status": "proved",
   "theorems": [
    "Verif.Sectors.C24_partition",
    "Verif.Sectors.C24_find_id_by_volume",
    "Verif.Sectors.C24_volume_exists_iff"
   ],
   "note": ""
  },
  {
   "property": "C25",
   "status": "proved",
   "theorems": [
    "Verif.SectorIndex.C25_find_sector_iff",
    "Verif.SectorIndex.C25_find_sector_none",
    "Verif.SectorIndex.C25_volumes_at_iff"
   ],
   "note": "Assumes point-in-polygon does not reach beyond the border's extent (proved of the test of geo in C106) and that the R-tree yields what its specification says."
  },
  {
   "property": "C26",
   "status": "proved",
   "theorems": [
    "Verif.SectorIndex.C26_after_rebuild",
    "Verif.SectorIndex.C26_after_first_query",
    "Verif.SectorIndex.C26_first_query",
    "Verif.SectorIndex.C26_cases",
    "Verif.SectorIndex.C26_rebuild_find"
   ],
   "note": ""
  },
  {
   "property": "C27",
   "status": "proved",
   "theorems": [
    "Verif.SectorIndex.C27_near_line_iff",
    "Verif.SectorIndex.C27_near_line_complete"
   ],
   "note": ""
  },
  {
   "property": "C28",
   "status": "proved",
   "theorems": [
    "Verif.Maps.C28_built",
    "Verif.Maps.C28_folders",
    "Verif.Maps.C28_key_is_name"
   ],
   "note": "Location lookup and colour lookup are arbitrary total functions."
  },
  {
   "property": "C29",
   "status": "partial",
   "theorems": [
    "Verif.Maps.C29_attributes_partial",
    "Verif.Maps.C29_polygon_recoloured"
   ],
   "note": "False of the code for polygons (negation proved); proved for lines, symbols and labels, and for polygons if no attribute changes while only polygons were drawn since the last change."
  },
  {
   "property": "C30",
   "status": "proved",
   "theorems": [
    "Verif.Maps.C30_active"
   ],
   "note": ""
  },
  {
   "property": "C31",
   "status": "proved",
   "theorems": [
    "Verif.Maps.C31_polygons",
    "Verif.Maps.C31_lines"
   ],
   "note": ""
  },
  {
   "property": "C32",
   "status": "proved",
   "theorems": [
    "Verif.Lines.C32_segments",
    "Verif.Lines.C32_shape",
    "Verif.Lines.C32_points"
   ],
   "note": ""
  },
  {
   "property": "C33",
   "status": "proved",
   "theorems": [
    "Verif.Lines.C33_segments",
    "Verif.Lines.C33_groups"
   ],
   "note": ""
  },
  {
   "property": "C34",
   "status": "proved",
   "theorems": [
    "Verif.Colours.C34_accepted_iff",
    "Verif.Colours.C34_components",
    "Verif.Colours.C34_number_round_trip",
    "Verif.Colours.C34_colour_round_trip"
   ],
   "note": "Proved for every integer, so for every i32."
  },
  {
   "property": "C35",
   "status": "proved",
   "theorems": [
    "Verif.Colours.C35_deserialize_iff",
    "Verif.Colours.C35_serialize",
    "Verif.Colours.C35_round_trip",
    "Verif.Colours.C35_case_insensitive"
   ],
   "note": ""
  },
  {
   "property": "C36",
   "status": "proved",
   "theorems": [
    "Verif.Settings.C36_resolve"
   ],
   "note": ""
  },
  {
   "property": "C37",
   "status": "proved",
   "theorems": [
    "Verif.Settings.C37_special_use_codes",
    "Verif.Settings.C37_ignored"
   ],
   "note": ""
  },
  {
   "property": "C38",
   "status": "partial",
   "theorems": [
    "Verif.Constraints.C38_key_iff_partial",
    "Verif.Constraints.C38_levels_share_key",
    "Verif.Constraints.C38_collisions"
   ],
   "note": "The documented uniqueness is false (negations proved); what the key identifies is proved for fields without '#' and literal '*'."
  },
  {
   "property": "C39",
   "status": "proved",
   "theorems": [
    "Verif.Constraints.C39_extract",
    "Verif.Constraints.C39_entries",
    "Verif.Constraints.C39_kept_iff"
   ],
   "note": ""
  },
  {
   "property": "C40",
   "status": "proved",
   "theorems": [
    "Verif.EseAirspace.C40_sector",
    "Verif.EseAirspace.C40_entries",
    "Verif.EseAirspace.C40_order_independent",
    "Verif.EseAirspace.C40_constraints"
   ],
   "note": ""
  },
  {
   "property": "C41",
   "status": "proved",
   "theorems": [
    "Verif.Props.C41_dms_text",
    "Verif.Props.C41_tolerance",
    "Verif.Props.C41_sixty_seconds",
    "Verif.Props.C41_sixty_minutes",
    "Verif.Props.C41_ieee_rounding",
    "Verif.Props.C41_ieee_unique"
   ],
   "note": "For every arithmetic within the error bound of doubles (`Rounding`); IEEE 754 rounding is defined in `Model/Binary64` and proved to be one (`binary64`). The last two theorems show the texts with 60 seconds and 60 minutes for coordinates with finer seconds."
  },
  {
   "property": "C42",
   "status": "proved",
   "theorems": [
    "Verif.Constraints.C42_no_collisions",
    "Verif.Constraints.C42_collision",
    "Verif.Props.C42_prf",
    "Verif.Props.C42_asr",
    "Verif.Props.C42_symbology"
   ],
   "note": "the last three: the condition on the first keys holds for every text that is read"
  },
  {
   "property": "C43",
   "status": "proved",
   "theorems": [
    "Verif.Props.C43_asr_meaning",
    "Verif.Props.C43_asr_accepts",
    "Verif.Props.C43_asr_value"
   ],
   "note": "C43_asr_meaning: for every well-formed file as specified in Spec/Asr.lean (one setting per line, comments and empty lines in between); accepts/value: exactly the texts of Spec/AsrExact.lean are read; f64 reading is a parameter"
  },
  {
   "property": "C44",
   "status": "proved",
   "theorems": [
    "Verif.Props.C43_asr_meaning",
    "Verif.Props.C44_asr_panics",
    "Verif.Props.C44_asr_panics_only",
    "Verif.Props.C44_asr_panics_exactly",
    "Verif.Props.C44_asr_rejects"
   ],
   "note": "panics_exactly and rejects say for every text which of the three outcomes it has; the meaning of the values is in Spec/Asr.lean (leaderOf, filterOf, modeOf); panics_only is for every decoded text"
  },
  {
   "property": "C45",
   "status": "proved",
   "theorems": [
    "Verif.Settings.C45_builtin",
    "Verif.Settings.C45_other",
    "Verif.Settings.C45_without_topsky"
   ],
   "note": "Upper-casing is an arbitrary function; of several styles with the same upper-case name the one iterated last wins."
  },
  {
   "property": "C46",
   "status": "partial",
   "theorems": [
    "Verif.Settings.C46_symbols_partial",
    "Verif.Settings.C46_vor",
    "Verif.Settings.C46_vor_wrong"
   ],
   "note": "False of the code for VORs (negation proved); proved for the other eight symbols."
  },
  {
   "property": "C47",
   "status": "proved",
   "theorems": [
    "Verif.Colours.C47_precedence",
    "Verif.Colours.C47_precedence_without_topsky",
    "Verif.Colours.C47_builtin"
   ],
   "note": ""
  },
  {
   "property": "C48",
   "status": "partial",
   "theorems": [
    "Verif.Props.C48_utf8",
    "Verif.Props.C48_windows_partial",
    "Verif.Props.C48_bom"
   ],
   "note": "False for bytes that are not UTF-8 and start with a byte order mark, which are decoded as UTF-16 or UTF-8 and lose the mark; proved for all other bytes."
  },
  {
   "property": "C49",
   "status": "partial",
   "theorems": [
    "Verif.Props.C49_prf_paths_partial",
    "Verif.Props.C49_cases",
    "Verif.Props.C49_double_separator_escapes"
   ],
   "note": "False for values with two leading separators, which escape the profile directory: proved as a counterexample family. Unix path semantics."
  },
  {
   "property": "C50",
   "status": "proved",
   "theorems": [
    "Verif.Props.C50_ese_outcome",
    "Verif.Props.C50_ese_panics_only",
    "Verif.Props.C50_ese_panics",
    "Verif.Props.C50_sct_outcome",
    "Verif.Props.C50_sct_panics_only",
    "Verif.Props.C50_sct_panics"
   ],
   "note": "Panics come only from such numbers, and every valid file with such a number panics the parser."
  },
  {
   "property": "C51",
   "status": "proved",
   "theorems": [
    "Verif.Props.C51_ese_meaning",
    "Verif.Props.C51_sct_meaning"
   ],
   "note": "The whole meaning of a valid file, for both formats."
  },
  {
   "property": "C52",
   "status": "proved",
   "theorems": [
    "Verif.Locations.C52_procedures"
   ],
   "note": ""
  },
  {
   "property": "C53",
   "status": "partial",
   "theorems": [
    "Verif.Locations.C53_lookup_no_panic_partial",
    "Verif.Locations.C53_build_no_panic_partial",
    "Verif.Locations.C53_panics"
   ],
   "note": "False of the code for non-ASCII decimal digits (negation proved); proved when all decimal digits are ASCII."
  },
  {
   "property": "C54",
   "status": "partial",
   "theorems": [
    "Verif.Colours.C54_map_colours_partial",
    "Verif.Colours.C54_high_airway_name",
    "Verif.Colours.C54_items_distinct"
   ],
   "note": "False of the code for high airway names (negation proved); proved for all other elements."
  },
  {
   "property": "C55",
   "status": "proved",
   "theorems": [
    "Verif.Colours.C55_role_colours"
   ],
   "note": ""
  },
  {
   "property": "C56",
   "status": "partial",
   "theorems": [
    "Verif.Props.C56_points_partial",
    "Verif.Props.C56_first_point_lost",
    "Verif.Props.C56_four_points_rejected"
   ],
   "note": "false: the first visibility point is lost if there is no squawk range, and a file with four points and no squawk range is rejected; proved for positions with a squawk range"
  },
  {
   "property": "C57",
   "status": "proved",
   "theorems": [
    "Verif.Props.C57_setting_paths",
    "Verif.Props.C57_derived_paths"
   ],
   "note": "Unix path semantics of std::path is part of the trusted base."
  },
  {
   "property": "C58",
   "status": "proved",
   "theorems": [
    "Verif.Props.C58_plugin_paths",
    "Verif.Props.C58_plugin_paths_determined"
   ],
   "note": ""
  },
  {
   "property": "C59",
   "status": "proved",
   "theorems": [
    "Verif.Props.C59_ese_last_line"
   ],
   "note": ""
  },
  {
   "property": "C60",
   "status": "partial",
   "theorems": [
    "Verif.Props.C60_comments_partial",
    "Verif.Props.C60_comment_rejected",
    "Verif.Props.C60_comment_in_name",
    "Verif.Props.C60_last_line_rejected",
    "Verif.Props.C60_comment_in_region"
   ],
   "note": "False behind the first line of a drawing and behind the name of a region, and for the line end of the first line of a drawing; proved for valid files, which have comments everywhere else."
  },
  {
   "property": "C61",
   "status": "proved",
   "theorems": [
    "Verif.Props.C61_topsky_settings",
    "Verif.Props.C61_topsky_settings_total",
    "Verif.Props.C61_topsky_settings_accepts",
    "Verif.Props.C61_empty_first_line",
    "Verif.Props.C61_leading_blank",
    "Verif.Props.C61_bad_colour"
   ],
   "note": "The last three theorems are the defects named in the statement, for all such files."
  },
  {
   "property": "C62",
   "status": "proved",
   "theorems": [
    "Verif.Props.C62_symbology",
    "Verif.Props.C62_symbology_panics",
    "Verif.Props.C62_symbology_accepts",
    "Verif.Props.C62_symbology_any_text"
   ],
   "note": "For every two float types; the comparison of radii with the machine epsilon is an arbitrary relation."
  },
  {
   "property": "C63",
   "status": "proved",
   "theorems": [
    "Verif.Props.C63_topsky_symbols",
    "Verif.Props.C63_topsky_symbols_any_text",
    "Verif.Props.C63_topsky_symbols_accepts"
   ],
   "note": "A comment directly behind a name belongs to the name."
  },
  {
   "property": "C64",
   "status": "proved",
   "theorems": [
    "Verif.Props.C64_topsky_maps",
    "Verif.Props.C64_topsky_maps_any_text"
   ],
   "note": "For every two float types and every upper-casing function; joining of lines has its own specification (C32)."
  },
  {
   "property": "C65",
   "status": "proved",
   "theorems": [
    "Verif.Props.C65_topsky_required",
    "Verif.Props.C65_topsky_precedence",
    "Verif.Props.C65_topsky_meaning",
    "Verif.Props.C65_topsky_any_text"
   ],
   "note": ""
  },
  {
   "property": "C66",
   "status": "proved",
   "theorems": [
    "Verif.Props.C66_sct_round_trip",
    "Verif.Props.C66_sct_order"
   ],
   "note": "For every arithmetic within the error bound of doubles and every way of printing the four plain numbers that reads back."
  },
  {
   "property": "C67",
   "status": "proved",
   "theorems": [
    "Verif.Props.C67_sct_near"
   ],
   "note": ""
  },
  {
   "property": "C68",
   "status": "proved",
   "theorems": [
    "Verif.Props.C68_sct_text_order"
   ],
   "note": ""
  },
  {
   "property": "C69",
   "status": "partial",
   "theorems": [
    "Verif.Props.C69_read_write_partial",
    "Verif.Props.C69_dot_lost",
    "Verif.Props.C69_no_info",
    "Verif.Props.C69_name_lost"
   ],
   "note": "Proved for files with [INFO], without lines from a point to itself, in which no drawing that starts between coordinates has a name that starts with an angle or with a word twice (for each of which the full statement is refuted by one of the other theorems), and whose coordinates are whole thousandths of a second (see C67 for others)."
  },
  {
   "property": "C70",
   "status": "proved",
   "theorems": [
    "Verif.Props.C70_sct_drawings",
    "Verif.Props.C70_sct_items_no_panic"
   ],
   "note": ""
  },
  {
   "property": "C71",
   "status": "partial",
   "theorems": [
    "Verif.Props.C71_airways_partial",
    "Verif.Props.C71_airway_lines_lost",
    "Verif.Props.C71_first_part_lost"
   ],
   "note": "False of the code for every airway (negation proved); what is drawn instead is proved."
  },
  {
   "property": "C72",
   "status": "proved",
   "theorems": [
    "Verif.Props.C72_lines_and_labels",
    "Verif.Props.C72_all_kinds"
   ],
   "note": ""
  },
  {
   "property": "C73",
   "status": "proved",
   "theorems": [
    "Verif.Props.C73_topsky_settings",
    "Verif.Props.C73_without_topsky",
    "Verif.Props.C73_fixed",
    "Verif.Props.C73_asr_files"
   ],
   "note": ""
  },
  {
   "property": "C74",
   "status": "proved",
   "theorems": [
    "Verif.Props.C74_needs_all_files",
    "Verif.Props.C74_contents"
   ],
   "note": ""
  },
  {
   "property": "C75",
   "status": "proved",
   "theorems": [
    "Verif.Props.C75_error",
    "Verif.Props.C75_outcome"
   ],
   "note": "Panics are excluded by C50, C62, C65 and others."
  },
  {
   "property": "C76",
   "status": "proved",
   "theorems": [
    "Verif.Props.C76_only_named_files"
   ],
   "note": ""
  },
  {
   "property": "C77",
   "status": "proved",
   "theorems": [
    "Verif.Props.C77_without_topsky",
    "Verif.Props.C77_without_squawks"
   ],
   "note": ""
  },
  {
   "property": "C78",
   "status": "proved",
   "theorems": [
    "Verif.Props.C78_find_none",
    "Verif.Props.C78_find_some"
   ],
   "note": ""
  },
  {
   "property": "C79",
   "status": "proved",
   "theorems": [
    "Verif.Props.C79_no_overlays",
    "Verif.Props.C79_overlays",
    "Verif.Props.C79_queries_see_overlays"
   ],
   "note": "Merging by Jsonnet is an arbitrary partial function."
  },
  {
   "property": "C80",
   "status": "proved",
   "theorems": [
    "Verif.Props.C80_no_panic",
    "Verif.Props.C80_outcome",
    "Verif.Props.C80_missing_setting",
    "Verif.Props.C80_large_number"
   ],
   "note": "Texts that are no well-formed file must not contain a part that is harmful to its parser (C50, C62 to C64); the maps of TopSky must have no decimal digits outside of ASCII (C53)."
  },
  {
   "property": "C81",
   "status": "proved",
   "theorems": [
    "Verif.Props.C81_colours",
    "Verif.Props.C81_role_colours",
    "Verif.Props.C81_map_colours"
   ],
   "note": "The names of high airways are excepted: there the code deviates, see C54."
  },
  {
   "property": "C82",
   "status": "proved",
   "theorems": [
    "Verif.Props.C82_lines_and_labels",
    "Verif.Props.C82_topsky_settings",
    "Verif.Props.C82_without_topsky",
    "Verif.Props.C82_fixed",
    "Verif.Props.C82_asr_files",
    "Verif.Props.C82_special_use_codes"
   ],
   "note": "The file with the squawks is decoded by derived code: its contents are a parameter."
  },
  {
   "property": "C83",
   "status": "proved",
   "theorems": [
    "Verif.Props.C83_symbols",
    "Verif.Props.C83_other_symbols",
    "Verif.Props.C83_builtin_line_styles",
    "Verif.Props.C83_line_styles"
   ],
   "note": "VORs in neither file get the symbol of another kind, see C46."
  },
  {
   "property": "C84",
   "status": "proved",
   "theorems": [
    "Verif.Props.C84_navaids",
    "Verif.Props.C84_airports",
    "Verif.Props.C84_procedures"
   ],
   "note": ""
  },
  {
   "property": "C85",
   "status": "proved",
   "theorems": [
    "Verif.Props.C85_maps",
    "Verif.Props.C85_without_topsky"
   ],
   "note": "The attributes polygons are drawn with are left out: there the code deviates, see C29."
  },
  {
   "property": "C86",
   "status": "proved",
   "theorems": [
    "Verif.Props.C86_sector_items"
   ],
   "note": ""
  },
  {
   "property": "C87",
   "status": "proved",
   "theorems": [
    "Verif.Props.C87_volumes_at",
    "Verif.Props.C87_volumes_near_line",
    "Verif.Props.C87_one_sector",
    "Verif.Props.C87_first_sector"
   ],
   "note": "The R-tree and point-in-polygon are specified as in C25."
  },
  {
   "property": "C88",
   "status": "partial",
   "theorems": [
    "Verif.Props.C88_json_round_trip_partial",
    "Verif.Props.C88_empty_overlays_partial",
    "Verif.Props.C88_not_finite"
   ],
   "note": "A number that is not finite (`Maps_FontSize=inf`) is written as null and makes loading with any overlay fail: C88_not_finite proves this. serde's derived code is modelled by codecs for every type of the adaptation; that a number is read as it was written is a condition, which fails for some coordinates (C105)."
  },
  {
   "property": "C89",
   "status": "proved",
   "theorems": [
    "Verif.Props.C89_sum",
    "Verif.Props.C89_untouched",
    "Verif.Props.C89_rewritten",
    "Verif.Props.C89_set"
   ],
   "note": "What Jsonnet computes for such overlays is a hypothesis (`Evaluates`), after its documentation."
  },
  {
   "property": "C90",
   "status": "proved",
   "theorems": [
    "Verif.Props.C90_setup",
    "Verif.Props.C90_missing",
    "Verif.Props.C90_no_file",
    "Verif.Props.C90_bad_toml",
    "Verif.Props.C90_profile_missing",
    "Verif.Props.C90_overlay_missing",
    "Verif.Props.C90_profile_unusable",
    "Verif.Props.C90_no_panic"
   ],
   "note": "TOML decoding and `canonicalize` are parameters."
  },
  {
   "property": "C91",
   "status": "proved",
   "theorems": [
    "Verif.Props.C91_moved_profile",
    "Verif.Props.C91_moved_setup",
    "Verif.Props.C91_current_directory"
   ],
   "note": "Values of the profile that go up with `..` are excluded, and setups with overlays: what an overlay imports is not modelled."
  },
  {
   "property": "C92",
   "status": "proved",
   "theorems": [
    "Verif.Props.C92_shape",
    "Verif.Props.C92_top",
    "Verif.Props.C92_locations",
    "Verif.Props.C92_symbols",
    "Verif.Props.C92_other_colours",
    "Verif.Props.C92_track_colours",
    "Verif.Props.C92_sector_colours",
    "Verif.Props.C92_map_colours",
    "Verif.Props.C92_ui_colours",
    "Verif.Props.C92_settings",
    "Verif.Props.C92_maps_settings",
    "Verif.Props.C92_track",
    "Verif.Props.C92_ssr",
    "Verif.Props.C92_vector",
    "Verif.Props.C92_history_dots",
    "Verif.Props.C92_coordination",
    "Verif.Props.C92_line_settings",
    "Verif.Props.C92_label_settings",
    "Verif.Props.C92_sct_items",
    "Verif.Props.C92_positions",
    "Verif.Props.C92_volumes",
    "Verif.Props.C92_sectors",
    "Verif.Props.C92_departure_constraints",
    "Verif.Props.C92_destination_constraints",
    "Verif.Props.C92_folders",
    "Verif.Props.C92_aircraft",
    "Verif.Props.C92_airlines",
    "Verif.Props.C92_maps",
    "Verif.Props.C92_fix",
    "Verif.Props.C92_navaid",
    "Verif.Props.C92_runway",
    "Verif.Props.C92_airport",
    "Verif.Props.C92_procedure",
    "Verif.Props.C92_airway_edge",
    "Verif.Props.C92_airway_fix",
    "Verif.Props.C92_airways",
    "Verif.Props.C92_point",
    "Verif.Props.C92_timing",
    "Verif.Props.C92_active_ids",
    "Verif.Props.C92_active_runways",
    "Verif.Props.C92_active_areas",
    "Verif.Props.C92_runway_identifier",
    "Verif.Props.C92_alignment",
    "Verif.Props.C92_line_style",
    "Verif.Props.C92_label",
    "Verif.Props.C92_symbol",
    "Verif.Props.C92_map_group",
    "Verif.Props.C92_dash",
    "Verif.Props.C92_coloured",
    "Verif.Props.C92_region",
    "Verif.Props.C92_sct_label",
    "Verif.Props.C92_names",
    "Verif.Props.C92_active",
    "Verif.Props.C92_symbol_rule"
   ],
   "note": "Written form only: what is accepted on reading is C93."
  },
  {
   "property": "C93",
   "status": "proved",
   "theorems": [
    "Verif.Props.C93_accepts",
    "Verif.Props.C93_left_out",
    "Verif.Props.C93_overlays",
    "Verif.Props.C93_optional"
   ],
   "note": "What serde derives from the types is modelled by the combinators of Model/Json; numbers are those of Jsonnet, which are finite."
  },
  {
   "property": "C94",
   "status": "proved",
   "theorems": [
    "Verif.Props.C94_reads",
    "Verif.Props.C94_refuses",
    "Verif.Props.C94_unknown_fields",
    "Verif.Props.C94_writes",
    "Verif.Props.C94_not_reread"
   ],
   "note": "The value of a JSON text is a parameter; a key may occur several times in an object."
  },
  {
   "property": "C95",
   "status": "proved",
   "theorems": [
    "Verif.Props.C95_six_decimals",
    "Verif.Props.C95_nearest",
    "Verif.Props.C95_apart",
    "Verif.Props.C95_fix_equality",
    "Verif.Props.C95_written_fixes",
    "Verif.Props.C95_airway_fixes"
   ],
   "note": "For every arithmetic within the error bound of doubles; C41_ieee_rounding shows that IEEE doubles are one."
  },
  {
   "property": "C96",
   "status": "proved",
   "theorems": [
    "Verif.Props.C96_coordinate",
    "Verif.Props.C96_any_coordinate",
    "Verif.Props.C96_isec_round_trip"
   ],
   "note": "`{:.6}` is modelled as rounding of the exact value, ties to even."
  },
  {
   "property": "C97",
   "status": "partial",
   "theorems": [
    "Verif.Props.C97_isec",
    "Verif.Props.C97_airways",
    "Verif.Props.C97_icao",
    "Verif.Props.C97_symbology",
    "Verif.Props.C97_ese",
    "Verif.Props.C97_topsky",
    "Verif.Props.C97_sct_partial",
    "Verif.Props.C97_sct",
    "Verif.Props.C97_sct_error",
    "Verif.Props.C97_asr_partial",
    "Verif.Props.C97_asr",
    "Verif.Props.C97_prf_partial",
    "Verif.Props.C97_prf_paths",
    "Verif.Props.C97_prf_differs",
    "Verif.Props.C97_prf_rejected",
    "Verif.Props.C97_sct_differs",
    "Verif.Props.C97_asr_differs"
   ],
   "note": "Proved for eleven parsers. Of profiles the values contain the carriage returns (the paths taken from them do not); in sector and ASR files some names can extend over line ends and then contain them: negations proved. squawks.json is JSON, where line ends are white space for serde_json, which is a parameter."
  },
  {
   "property": "C98",
   "status": "proved",
   "theorems": [
    "Verif.Props.C98_text",
    "Verif.Props.C98_load",
    "Verif.Props.C98_setup"
   ],
   "note": "TOML decoding is a parameter, assumed not to depend on line ends; the order of the settings in the hash map is assumed to depend on the keys only. The two provisos are necessary: C97_sct_differs, C97_prf_rejected."
  },
  {
   "property": "C99",
   "status": "proved",
   "theorems": [
    "Verif.Props.C99_airway_round_trip",
    "Verif.Props.C99_airway_doubles"
   ],
   "note": ""
  }
 ]
}