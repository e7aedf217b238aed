{"id": "C01", "title": "Every text parser terminates on every input", "statement": "Calling any of the text parsers (isec, airway, prf, icao airports/airlines/aircraft, navdata airports, symbology, TopSky symbols/maps/settings, asr, ese, sct) on any content finishes: no grammar contains a repetition that can succeed for ever without consuming input.", "quantifier": "every character sequence given to every parser", "why_tests_cant": "A repetition that stops consuming only hangs on the inputs that reach it; a finite test corpus cannot show the absence of such inputs.", "anchors": ["src/pest/*.pest", "src/isec.rs parse_isec_txt", "src/airway.rs parse_airway_txt", "src/sct.rs Sct::parse", "src/ese.rs Ese::parse", "src/asr.rs Asr::parse", "src/prf.rs Prf::parse", "src/topsky/mod.rs Topsky::parse"]}
{"id": "C02", "title": "parse_isec_txt never panics", "statement": "parse_isec_txt returns Ok or Err for every content: none of the unwrap() calls in the conversion from parse tree to IsecMap can fail.", "quantifier": "every character sequence", "why_tests_cant": "The unwraps depend on the shape of parse trees the grammar can produce, over an unbounded set of texts.", "anchors": ["src/isec.rs parse_isec_txt, parse_coord", "src/pest/isec.pest"]}
{"id": "C03", "title": "isec.txt print/parse round trip", "statement": "Printing a waypoint list in the isec Display format and parsing the result yields exactly the same waypoints (designator and both coordinates, latitude and longitude not swapped) in the printed order.", "quantifier": "every non-empty list of waypoints whose designators are upper-case letters and digits and whose coordinates are 6-place decimals", "why_tests_cant": "Round trip must hold for lists of any length and for every designator and coordinate.", "anchors": ["src/isec.rs IsecMap Display, parse_isec_txt", "src/pest/isec.pest"]}
{"id": "C04", "title": "isec duplicates are all kept in file order", "statement": "After parse_isec_txt succeeds, looking a designator up returns every waypoint line with that designator, in file order, and nothing else.", "quantifier": "every successfully parsed content and every designator", "why_tests_cant": "Depends on arbitrary numbers and positions of duplicate lines.", "anchors": ["src/isec.rs parse_isec_txt"]}
{"id": "C05", "title": "ICAO airline, airport, aircraft and navdata airport parsers never panic", "statement": "parse_airlines, parse_airports, parse_aircraft and parse_navdata_airports return Ok or Err for every content.", "quantifier": "every character sequence", "why_tests_cant": "Needs every possible parse tree, including comments, continued names and unusual numerals.", "anchors": ["src/icao_airlines.rs", "src/icao_airports.rs", "src/icao_aircraft.rs", "src/navdata_airports.rs", "src/pest/icao_*.pest", "src/pest/navdata_airports.pest"]}
{"id": "C06", "title": "First definition wins in the ICAO and navdata tables", "statement": "In the maps returned by parse_airlines, parse_airports, parse_aircraft and parse_navdata_airports every designator defined in the file is present and carries the data of its first definition; no other designators are present. A text is accepted exactly if each of its lines is a definition of the described form, a continuation of a name (aircraft), blank or a comment and, but for the navigation data, one of them has data.", "quantifier": "every text, every list of definitions, every designator", "why_tests_cant": "Duplicate definitions can appear in any number and position.", "anchors": ["src/icao_airlines.rs", "src/icao_airports.rs", "src/icao_aircraft.rs", "src/navdata_airports.rs"]}
{"id": "C07", "title": "Prf parsing never panics and the last setting wins", "statement": "Parsing a profile text returns a value or a parse error for every content, and looking up (category, key) returns the value of the last line with that category and key.", "quantifier": "every character sequence; every (category,key)", "why_tests_cant": "Arbitrary duplicates and arbitrary texts.", "anchors": ["src/prf.rs Prf::parse", "src/pest/prf.pest"]}
{"id": "C08", "title": "Airway file parsing panics exactly on an over-large level", "statement": "parse_airway_txt never panics unless a neighbour's minimum level exceeds 4294967295; with such a level it does panic (so 'never panics' is false).", "quantifier": "every character sequence", "why_tests_cant": "The absence of other panics ranges over all texts; the one panic needs a number no ordinary test would use.", "anchors": ["src/airway.rs parse_airway_txt, parse_level, parse_coord, AirwayFix::parse, AirwayType::parse", "src/pest/airway.pest"]}
{"id": "C09", "title": "Airway graph: ids, names and positions stay consistent", "statement": "After any sequence of segment insertions: every fix id listed under a name is valid and carries that name, every fix is listed under its own name exactly once, no two fixes share both name and quantised position, airway names and airway ids correspond one to one, and every edge target is a valid fix.", "quantifier": "every finite sequence of segment insertions starting from the empty graph", "why_tests_cant": "Invariant over unbounded histories; a stale id would index out of bounds and panic only after specific sequences.", "anchors": ["src/adaptation/locations/airways.rs insert_or_update_segment, add_fix_raw, get_or_insert_fix_id, get_or_insert_airway_id, insert_or_update_edge"]}
{"id": "C10", "title": "Airway graph: edges are exactly the inserted segments, in both directions", "statement": "After any sequence of segment insertions, two fixes are joined by an edge on an airway exactly if some inserted segment joined them on that airway (in either direction), and each pair has at most one edge per direction and airway.", "quantifier": "every finite sequence of segment insertions", "why_tests_cant": "Unbounded histories; symmetric closure must survive merging.", "anchors": ["src/adaptation/locations/airways.rs insert_or_update_segment, insert_or_update_edge"]}
{"id": "C11", "title": "Airway graph: direction flag and minimum level aggregate all reports", "statement": "After any sequence of segment insertions, the edge from A to B on an airway is flyable (valid_direction) exactly if some inserted segment from A to B was flyable, and its minimum level is the smallest level reported by any segment between A and B in either direction, or none if none reported one.", "quantifier": "every finite sequence of segment insertions", "why_tests_cant": "Aggregation over arbitrarily long and arbitrarily ordered histories.", "anchors": ["src/adaptation/locations/airways.rs insert_or_update_edge"]}
{"id": "C12", "title": "Airway expansion returns a real connected path", "statement": "If expand_airway_segment returns a list, it is non-empty, ends with a fix named as the requested end, every consecutive pair (starting from the resolved start fix) is joined by an edge of the requested airway, the reported direction flag and level are those of that edge, it never turns straight back, and it has at most as many fixes as the graph.", "quantifier": "every graph built by insertions, every start, end, airway", "why_tests_cant": "Quantifies over all graphs, including cyclic, forked and self-looping ones.", "anchors": ["src/adaptation/locations/airways.rs expand_airway_segment, traverse_airway"]}
{"id": "C13", "title": "Airway expansion is complete on linear airways", "statement": "If the inserted segments of an airway form a simple chain of distinct fixes, expand_airway_segment from any fix of the chain to any other (in either direction) succeeds and returns exactly the fixes after the start up to and including the end, in order.", "quantifier": "every graph built by insertions in any order and every such chain, of any length", "why_tests_cant": "Chains of any length; must hold whichever direction is stored first.", "anchors": ["src/adaptation/locations/airways.rs expand_airway_segment, traverse_airway"]}
{"id": "C14", "title": "Airway expansion terminates and never indexes out of bounds", "statement": "expand_airway_segment terminates without panicking on every graph built by insertions, even if the airway contains a cycle that avoids the end fix.", "quantifier": "every graph built by insertions, every query", "why_tests_cant": "Non-termination or an out-of-range index appears only on particular graph shapes.", "anchors": ["src/adaptation/locations/airways.rs traverse_airway, expand_airway_segment"]}
{"id": "C15", "title": "Designator lookup precedence", "statement": "convert_designator resolves a designator as VOR, else NDB, else fix, else airport, else runway, else coordinate waypoint, else bearing/range waypoint, taking the first-listed entry of the first table that has the name; it returns none exactly if no table and no pattern matches.", "quantifier": "every location database and every designator", "why_tests_cant": "Names clash across tables in arbitrary combinations.", "anchors": ["src/adaptation/locations/mod.rs convert_designator, convert_fix, convert_rwy, convert_location"]}
{"id": "C16", "title": "contains_designator agrees with lookup", "statement": "contains_designator(d) is true exactly if d resolves through the VOR, NDB, fix, airport or runway tables, i.e. if the table part of the lookup would return a fix.", "quantifier": "every location database and every designator", "why_tests_cant": "Two separately written functions must agree on every database.", "anchors": ["src/adaptation/locations/mod.rs contains_designator, convert_fix"]}
{"id": "C17", "title": "contains_nav_element considers every entry of the name", "statement": "contains_nav_element(name, position) should be true exactly if some VOR, NDB or fix of that name lies at the quantised position. The code only looks at the first entry of each name, so the property fails when names are duplicated; it holds when each table has at most one entry per name.", "quantifier": "every location database, name and position", "why_tests_cant": "Needs databases with duplicate names, which differ in position.", "anchors": ["src/adaptation/locations/mod.rs contains_nav_element"]}
{"id": "C18", "title": "Coordinate waypoints: accepted forms and value", "statement": "A coordinate waypoint is accepted exactly if it is digits, N or S, digits, E or W with 1-6 latitude and 2-7 longitude digits of matching precision after padding one leading zero, where a padded field must not itself start with 0; the value is degrees + minutes/60 + seconds/3600 with the sign of the hemisphere, and the reported designator is the zero-padded one.", "quantifier": "every ASCII designator", "why_tests_cant": "The input space is every string; boundary lengths interact (1-7 digits on both sides).", "anchors": ["src/adaptation/locations/mod.rs convert_coordinate, coord_regex"]}
{"id": "C19", "title": "Coordinate waypoint normalisation is idempotent", "statement": "If a designator is accepted as coordinate waypoint, its normalised designator is accepted too and yields the same designator and the same coordinate.", "quantifier": "every designator", "why_tests_cant": "All digit strings of all admissible lengths.", "anchors": ["src/adaptation/locations/mod.rs convert_coordinate"]}
{"id": "C20", "title": "Airport merge: sector file wins, then navdata, then ICAO", "statement": "The airport table has exactly the designators of the sector file and the navdata file; coordinates come from the sector file if present there (its last entry), otherwise navdata; runways are exactly the sector-file runways of that aerodrome in order; name is the navdata name if present, else the ICAO name; country is the ICAO country if present; the result does not depend on hash iteration order.", "quantifier": "every sector file, navdata map, ICAO map and every iteration order of the maps", "why_tests_cant": "Hash iteration order is nondeterministic and the databases are arbitrary.", "anchors": ["src/adaptation/locations/mod.rs Locations::from_euroscope, Airport::from_sct_airports"]}
{"id": "C21", "title": "Sector border polygon: a result is an Eulerian circuit", "statement": "Whenever a border polygon is produced for a sector, it is a closed ring that runs along each (quantised) border line exactly once, and along nothing else.", "quantifier": "every list of border lines and every start point / adjacency order", "why_tests_cant": "Hierholzer's algorithm over arbitrary multigraphs, with nondeterministic hash order.", "anchors": ["src/adaptation/sectors.rs polygon_from_ese"]}
{"id": "C22", "title": "Sector border polygon: exists exactly for connected even borders", "statement": "A border polygon is produced exactly if there is at least one border line, every border point touches an even number of line ends, and all lines are connected; hence whether a sector gets a volume does not depend on line order, line direction or hash order.", "quantifier": "every list of border lines", "why_tests_cant": "Completeness of an algorithm over all multigraphs cannot be sampled.", "anchors": ["src/adaptation/sectors.rs polygon_from_ese, Sectors::from_ese"]}
{"id": "C23", "title": "Sector border polygon computation terminates", "statement": "The border polygon computation terminates for every list of border lines, including self-loops, duplicate lines and disconnected borders.", "quantifier": "every list of border lines", "why_tests_cant": "The code uses an open while loop with an if-let that would spin for ever on a missing key.", "anchors": ["src/adaptation/sectors.rs polygon_from_ese"]}
{"id": "C24", "title": "Sectors partition the volumes", "statement": "Every ESE sector with a valid polygon yields exactly one volume with its id and levels, every volume belongs to exactly one adaptation sector, two volumes share a sector exactly if their owner priorities and runway filters coincide, and find_id_by_volume returns that sector.", "quantifier": "every set of ESE sectors and every hash iteration order", "why_tests_cant": "Arbitrary groupings and nondeterministic order.", "anchors": ["src/adaptation/sectors.rs Sectors::from_ese, find_id_by_volume"]}
{"id": "C25", "title": "find_sector equals the exhaustive search", "statement": "On a fresh index find_sector(point, level) returns the smallest sector id among sectors with a non-empty position priority having a volume whose border contains the point and whose level band [lower, upper) contains the level, and none if there is no such sector.", "quantifier": "every sector and volume set, every point and level, every order of the index", "why_tests_cant": "Bounding-box prefilter plus tie-break must agree with a scan on all data.", "anchors": ["src/adaptation/sector_index.rs find_sector, volumes_at, build_tree", "src/adaptation/mod.rs Adaptation::find_sector"]}
{"id": "C26", "title": "The sector index is stale until rebuilt", "statement": "Over any history of queries, clones, mutations of sectors/volumes and rebuilds, a query answers from the sectors/volumes at the time of the last rebuild, or of the first query if there was no rebuild; in particular after rebuild_sector_index answers are those of the current data.", "quantifier": "every history of query/mutate/rebuild/clone operations", "why_tests_cant": "Property over histories of cache operations.", "anchors": ["src/adaptation/sector_index.rs SectorVolumeIndex get_or_build, rebuild, Clone", "src/adaptation/mod.rs rebuild_sector_index, apply_jsonnet_overlays"]}
{"id": "C27", "title": "volumes_near_line never misses an intersecting volume", "statement": "Every indexed volume whose border polygon has a vertex or edge point within the line's bounding box in the sense of overlapping bounding boxes is among the candidates; and the candidates are exactly the volumes whose bounding boxes overlap that of the line.", "quantifier": "every sector and volume set and every line", "why_tests_cant": "Arbitrary geometry.", "anchors": ["src/adaptation/sector_index.rs volumes_near_line"]}
{"id": "C28", "title": "Maps: no map is lost and names in a folder are unique", "statement": "Each TopSky map with at least one resolvable colour appears exactly once in the result, in its folder, under its own name or that name with suffix _2, _3, ... (the smallest free one); no other maps appear; the key always equals the map's name.", "quantifier": "every list of TopSky maps", "why_tests_cant": "Name clashes with already-suffixed names arise only from particular sequences.", "anchors": ["src/adaptation/maps/mod.rs from_topsky"]}
{"id": "C29", "title": "Maps: every drawn element carries the attributes in effect when it was drawn", "statement": "In the groups of a map, every line, symbol, label and polygon sits in a group whose colour, layer, zoom, font size, ASR filter and line style are those set by the rules before it. The code violates this for polygons (a change after only polygons rewrites their group); it holds for lines, symbols and labels, and for polygons if no configuration rule directly follows a polygon-only group.", "quantifier": "every list of map rules", "why_tests_cant": "Interleavings of configuration and drawing rules of any length.", "anchors": ["src/adaptation/maps/mod.rs Map::config_change, from_topsky"]}
{"id": "C30", "title": "Maps: active conditions form the OR of AND groups in rule order", "statement": "The active field lists, in order, one group per ACTIVE rule, consisting of that rule's condition followed by the conditions of the AND_ACTIVE rules up to the next ACTIVE rule; AND_ACTIVE rules before the first ACTIVE are ignored.", "quantifier": "every list of map rules", "why_tests_cant": "Arbitrary interleavings.", "anchors": ["src/adaptation/maps/mod.rs from_topsky"]}
{"id": "C31", "title": "Maps: collected coordinates become exactly one polygon or line", "statement": "Each COORDPOLY/COORDLINE draws exactly the coordinates collected since the previous COORDPOLY/COORDLINE, in order, and coordinates after the last one draw nothing.", "quantifier": "every list of map rules", "why_tests_cant": "Arbitrary interleavings with other rules.", "anchors": ["src/adaptation/maps/mod.rs from_topsky"]}
{"id": "C32", "title": "Merging consecutive map lines preserves the drawn segments", "statement": "Merging the LINE entries of a map into polylines keeps exactly the same sequence of non-degenerate segments, and no polyline has two equal consecutive points.", "quantifier": "every sequence of segments", "why_tests_cant": "Unbounded sequences with shared end points and degenerate segments.", "anchors": ["src/topsky/map/mod.rs MapLine::parse"]}
{"id": "C33", "title": "Merging sector-file lines preserves segments and colours", "statement": "Grouping the coloured lines of a geo/sid/star/artcc entry keeps exactly the same sequence of non-degenerate (start, end, colour) segments; adjacent groups differ in colour.", "quantifier": "every sequence of coloured lines", "why_tests_cant": "Unbounded sequences.", "anchors": ["src/sct.rs parse_line_groups"]}
{"id": "C34", "title": "EuroScope colour numbers round trip", "statement": "Colour::from_euroscope accepts exactly 0..=16777215; to_euroscope inverts it; and from_euroscope(to_euroscope(c)) is c with full opacity.", "quantifier": "every i32 and every colour", "why_tests_cant": "2^32 inputs with negative remainders.", "anchors": ["src/adaptation/colours.rs Colour::from_euroscope, to_euroscope"]}
{"id": "C35", "title": "Colour JSON text round trip", "statement": "Serialising a colour and deserialising the text gives the same red, green and blue with full opacity; deserialisation accepts exactly '#' plus six hex digits; upper and lower case are equivalent.", "quantifier": "every colour and every string", "why_tests_cant": "All strings must be classified.", "anchors": ["src/adaptation/colours.rs Serialize/Deserialize for Colour, hash_rgb_regex"]}
{"id": "C36", "title": "Coordination timing: constraint overrides FIR overrides global, per field", "statement": "resolve returns for each of ACT, ABI and REV the constraint's value if set, else the FIR override's value if that FIR has one set, else the global value, independently per field.", "quantifier": "every settings value, FIR and constraint timing", "why_tests_cant": "All combinations of present and absent overrides.", "anchors": ["src/adaptation/settings/mod.rs CoordinationSettings::resolve"]}
{"id": "C37", "title": "Special-use SSR codes", "statement": "The special-use table maps exactly the 4-digit octal forms of the single codes and of all codes in the inclusive ranges to the message of the last entry covering them; entries with both or neither of code and range, or with malformed numbers, contribute nothing.", "quantifier": "every squawk list", "why_tests_cant": "Ranges, overlaps and malformed numbers in any combination.", "anchors": ["src/adaptation/settings/mod.rs SsrSettings::from_squawks_json"]}
{"id": "C38", "title": "Constraint keys", "statement": "Constraint::key is documented as a deterministic, unique key identifying this exact constraint. It is not: constraints that differ only in levels or description share a key, '*' is confused with 'any', and a '#' inside a field shifts fields. Two constraints without '#' and literal '*' in their fields have equal keys exactly if all seven key fields agree.", "quantifier": "every pair of constraints", "why_tests_cant": "Uniqueness is a statement about all pairs.", "anchors": ["src/ese.rs Constraint::key", "src/adaptation/constraints.rs extract_constraints"]}
{"id": "C39", "title": "Constraint extraction", "statement": "extract_constraints drops exactly the constraints without any level, puts those with a climb level into the departure table and the others into the destination table, keyed by key(), the last constraint of a key winning; no other entries exist.", "quantifier": "every list of constraints", "why_tests_cant": "Unbounded lists and key collisions.", "anchors": ["src/adaptation/constraints.rs extract_constraints"]}
{"id": "C40", "title": "ESE sector borders resolve independently of statement order", "statement": "Each sector's border consists of the sector lines named in its BORDER entry in that order, unknown names skipped, regardless of whether the lines are defined before or after the sector; the last definition of a sector or line id wins; constraints appear in file order.", "quantifier": "every list of airspace statements", "why_tests_cant": "Any ordering and duplication of statements.", "anchors": ["src/ese.rs collect_sectors, combine_sectors_with_borders, parse_section"]}
{"id": "C41", "title": "Degree-minute-second text round trip", "statement": "Formatting the coordinate built from sign, degrees 0..=255, minutes 0..=59 and seconds in thousandths 0..=59.999 yields exactly that degree-minute-second text, despite binary rounding in the intermediate arithmetic; degrees above 255 are printed as 255, and 60.000 seconds can be printed for other coordinates.", "quantifier": "every sign, degree, minute, millisecond value and every rounding behaviour within the IEEE double error bound", "why_tests_cant": "More than 10^10 values and rounding of each intermediate result.", "anchors": ["src/lib.rs decimal_to_dms, from_deg_min_sec, lat_deg_min_sec_fmt, lng_deg_min_sec_fmt"]}
{"id": "C42", "title": "Two-key maps serialise without key collisions", "statement": "Serialising a TwoKeyMap writes one entry per key pair under 'k1:k2'; distinct pairs give distinct keys if the first components contain no ':' (as in prf, asr and symbology files); without that condition two pairs can collide.", "quantifier": "every pair of key pairs", "why_tests_cant": "Uniqueness over all pairs of strings.", "anchors": ["src/lib.rs TwoKeyMap Serialize", "src/prf.rs", "src/asr.rs plugin_settings"]}
{"id": "C43", "title": "ASR settings: first occurrence wins, others default", "statement": "Each scalar ASR setting takes the value of its first line, or the documented default if there is none; plugin settings take the last value per (plugin, key); displayed map elements are listed per kind in file order.", "quantifier": "every sequence of ASR lines", "why_tests_cant": "Arbitrary duplicates and orders.", "anchors": ["src/asr.rs Asr::parse, AsrMap::from"]}
{"id": "C44", "title": "ASR leader, filters and modes", "statement": "LEADER n means n nautical miles if n is positive and -n minutes otherwise; ABOVE/BELOW 0 means no filter; simulation mode 4 is ground and everything else radar; values outside the integer ranges panic.", "quantifier": "every integer text", "why_tests_cant": "All integers including extremes of i8.", "anchors": ["src/asr.rs parse_setting"]}
{"id": "C45", "title": "Line styles: built-in styles always win and dash lists pair up", "statement": "The line style table contains the six built-in styles with their fixed patterns whatever the file says; any other style is stored under its upper-case name with consecutive (length, gap) pairs of its dash list, an odd last element being dropped, and no pattern if fewer than two lengths are given.", "quantifier": "every list of style definitions", "why_tests_cant": "Arbitrary names, duplicates and list lengths.", "anchors": ["src/adaptation/line_styles.rs line_styles_from_topsky"]}
{"id": "C46", "title": "Symbol fallback chain", "statement": "Each displayed symbol is the TopSky symbol of its name if defined, else the symbology symbol of its type if defined, else the built-in default for that symbol. The VOR symbol violates the last part: its fallback is the NDB default.", "quantifier": "every combination of TopSky and symbology data", "why_tests_cant": "All combinations of presence.", "anchors": ["src/adaptation/symbols.rs Symbols::from_euroscope"]}
{"id": "C47", "title": "Colour lookup precedence", "statement": "Colours::get returns the TopSky map/settings colour of that name if defined, else the sector-file colour, else the built-in TopSky default for the COOPANS flag, else none.", "quantifier": "every colour table and name", "why_tests_cant": "All combinations of presence across tables.", "anchors": ["src/adaptation/colours.rs Colours::get, Colours::from_euroscope"]}
{"id": "C48", "title": "Text decoding is total and exact for UTF-8", "statement": "Reading file contents never fails: valid UTF-8 is read as is, anything else byte by byte as windows-1252, so one character per byte.", "quantifier": "every byte sequence", "why_tests_cant": "All byte sequences.", "anchors": ["src/lib.rs read_to_string"]}
{"id": "C49", "title": "Profile paths", "statement": "A profile path value starting with a separator is resolved relative to the directory of the profile, any other relative to the working directory; backslashes act as slashes and trailing blanks are ignored.", "quantifier": "every value text", "why_tests_cant": "All strings.", "anchors": ["src/prf.rs join_settings_path"]}
{"id": "C50", "title": "Sector-file and ESE parsing can panic on out-of-range numbers only", "statement": "Sct::parse and Ese::parse return Ok or Err for every content in which all degree, minute, level, heading, colour and squawk numbers fit the integer types they are read into; each overflow (or a negative level) does panic, so unconditional panic freedom is false.", "quantifier": "every character sequence", "why_tests_cant": "All texts; the failing numbers are outside ordinary data.", "anchors": ["src/sct.rs Sct::parse", "src/ese.rs Ese::parse"]}
{"id": "C51", "title": "Repeated sections", "statement": "If an ESE or SCT section occurs several times only its last occurrence is kept (all earlier data of that section is lost), while colour definitions of all sections accumulate, the last definition of a name winning.", "quantifier": "every sequence of sections", "why_tests_cant": "Arbitrary repetition.", "anchors": ["src/sct.rs Sct::parse", "src/ese.rs Ese::parse"]}
{"id": "C52", "title": "SIDs and STARs are grouped by airport and name without loss", "statement": "After building locations, the SIDs (STARs) of an airport and name are exactly those of the ESE file with that airport and name, in file order, each with its resolvable waypoints in order.", "quantifier": "every list of SIDs/STARs", "why_tests_cant": "Unbounded lists and repeated names.", "anchors": ["src/adaptation/locations/mod.rs Locations::from_euroscope"]}
{"id": "C53", "title": "Designator lookup never panics", "statement": "convert_designator (and so building the location database and the maps, which look up waypoints from files) returns Some or None for every designator. This is false: the patterns accept decimal digits of every script while the number parser takes ASCII digits only, so a name followed by six Arabic-Indic digits panics; it holds for designators whose decimal digits are ASCII.", "quantifier": "every designator string and every database", "why_tests_cant": "All of Unicode; the failing inputs do not occur in ordinary test data.", "anchors": ["src/adaptation/locations/mod.rs convert_designator", "src/adaptation/locations/mod.rs convert_coordinate", "src/adaptation/locations/mod.rs convert_range_bearing"]}
{"id": "C54", "title": "Map colours come from the matching symbology entry", "statement": "Each map element (fix names, airway lines, ...) is drawn in the colour of its own symbology item, and in a fixed default colour if that item is absent. False for the names of high airways, which take the colour of the lines.", "quantifier": "every symbology table and every element", "why_tests_cant": "All combinations of present and absent items.", "anchors": ["src/adaptation/colours.rs MapColours::from_euroscope, SectorColours::from_euroscope, Colour::from_symbology"]}
{"id": "C55", "title": "Track and interface colours", "statement": "Each track and interface colour is the TopSky colour of its name if defined, else the built-in colour for the COOPANS flag; the built-in table covers all of them, so no other fallback is ever used.", "quantifier": "every colour table, flag and role", "why_tests_cant": "All combinations of presence.", "anchors": ["src/adaptation/colours.rs TrackColours::from_euroscope, UIColours::from_euroscope", "src/topsky/mod.rs DEFAULT_COLOURS"]}
{"id": "C56", "title": "ESE positions keep all their visibility points", "statement": "A position read from an ESE file has the squawk range and all visibility points written in its line, in order. False: if the squawk range is missing, the first visibility point is taken in its place and lost.", "quantifier": "every position line", "why_tests_cant": "Optional fields in any combination.", "anchors": ["src/ese.rs parse_position, parse_squawk_range", "src/pest/ese.pest position"]}
{"id": "C57", "title": "Files named by a profile", "statement": "Each file path of a profile is its own setting, resolved; the ESE file is the sector file with its extension replaced, the intersection file is isec.txt next to the airway file. Asking for a path panics exactly if its setting is missing.", "quantifier": "every profile, profile location and current directory", "why_tests_cant": "Presence of settings, extensions, dots and separators in values combine freely.", "anchors": ["src/prf.rs sct_path, ese_path, airways_path, isec_path, navdata_airports_path, airlines_path, aircraft_path, airports_path, symbology_path"]}
{"id": "C58", "title": "Plugin directories of a profile", "statement": "The TopSky directory is the directory of a setting that resolves to TopSky.dll, and there is one exactly if some setting does (squawks.json beside Squawks.dll likewise); if all such settings agree the answer does not depend on the iteration order of the hash map.", "quantifier": "every profile and every iteration order", "why_tests_cant": "A test run sees one hash seed and one profile.", "anchors": ["src/prf.rs squawks_path, topsky_path"]}
{"id": "C59", "title": "An ESE file must end with a line end", "statement": "Ese::parse returns Ok only if the text contains a line end and the line behind the last line end is blank or a comment; a file whose last line is not ended is rejected as a whole.", "quantifier": "every character sequence", "why_tests_cant": "All texts.", "anchors": ["src/ese.rs Ese::parse", "src/pest/ese.pest"]}
{"id": "C60", "title": "Comments and empty lines do not change the meaning of a sector file", "statement": "Sct::parse gives the same result for a file and for the file without its comments and empty lines. False: a comment behind the first line of a line group makes the file unreadable or becomes part of the name of the group, one behind a REGIONNAME becomes part of the name.", "quantifier": "every sector file", "why_tests_cant": "All files and all comments in them.", "anchors": ["src/sct.rs Sct::parse", "src/pest/sct.pest", "src/pest/base.pest"]}
{"id": "C61", "title": "Meaning of TopSky settings files", "statement": "parse_topsky_settings never panics. The texts that are accepted are exactly the files of the documented form; every other text gives a parse error. From a file of the documented form it returns under every name the value of the last setting outside of sections with that name, without comments and surrounding blanks, and the colour of the last colour line with that name whose numbers are at most 255. A file that starts with an empty line gives nothing; a blank in front of the first setting, or one colour that is not given by numbers, makes the whole file unreadable.", "quantifier": "every character sequence", "why_tests_cant": "All files, all positions of comments, blanks and sections.", "anchors": ["src/topsky/settings.rs parse_topsky_settings, parse_setting, parse_colour", "src/pest/topsky_settings.pest"]}
{"id": "C62", "title": "Meaning of symbology files", "statement": "Symbology::parse returns, for a file of the documented form whose numbers fit their types, under each folder and name the last item that has a colour, and under each symbol type the drawing rules of its last definition, in order and with the numbers written there. The text is accepted exactly if it is such a file, with blanks allowed between its parts; every other text is rejected with a parse error. A file with a colour or line weight outside of i32, a symbol number outside of u32 or an angle outside of i64 panics.", "quantifier": "every character sequence", "why_tests_cant": "All files, numbers and orders of lines.", "anchors": ["src/symbology.rs Symbology::parse, Item::parse, parse_symbol_rules, parse_linestyle, parse_alignment", "src/pest/symbology.pest", "src/pest/symbol_rule.pest"]}
{"id": "C63", "title": "Meaning of TopSky symbol files", "statement": "parse_topsky_symbols returns, for a file of the documented form whose angles are i64, under each name the drawing rules of the last symbol with this name, in order and with the numbers written there. For any text whatsoever the result is symbols or a parse error, unless a drawing rule in it has an angle outside of i64. It is read exactly if it is a file of the documented form whose angles are i64, panics exactly if it is one with another angle, and is rejected otherwise.", "quantifier": "every file of the described form; for the second and third part every text", "why_tests_cant": "All files, names, rules, comments and empty lines.", "anchors": ["src/topsky/symbol.rs parse_topsky_symbols, parse_symbol, parse_symbol_rules", "src/pest/topsky.pest", "src/pest/symbol_rule.pest"]}
{"id": "C64", "title": "Meaning of TopSky map files", "statement": "parse_topsky_maps returns, for a file of the documented form, the maps and sector-file overrides of the file in its order, each map with its settings in order (consecutive lines joined into line strings, settings without support and overrides inside of a map left out), and under each name the last symbol, colour and line style with this name. A colour outside of 0 to 255, degrees or minutes that are too large, a position that mixes decimal degrees with degrees, minutes and seconds, and an angle outside of i64 panic. Any text whatsoever without one of these is read or gives a parse error.", "quantifier": "every file of the described form; for the last part every text", "why_tests_cant": "All files, every kind of definition and setting, conditions and positions in all their forms, comments and empty lines.", "anchors": ["src/topsky/map/mod.rs parse_topsky_maps, parse_map, MapRule::parse, parse_colour, parse_linestyle, parse_override", "src/topsky/map/active.rs Active::parse", "src/pest/topsky.pest"]}
{"id": "C65", "title": "TopSky plugin directory: required files and precedence", "statement": "Topsky::parse needs the settings and the map file; without a symbol file it works as with one without symbols. Symbols of the map file take precedence over those of the symbol file, colours of the map file over those of the settings file; everything else is passed on unchanged.", "quantifier": "every three files, present or absent", "why_tests_cant": "All combinations of names defined in one, both or none of the files.", "anchors": ["src/topsky/mod.rs Topsky::parse"]}
{"id": "C66", "title": "Writing a sector file and reading it back", "statement": "Printing a sector file with Display and reading the text with Sct::parse gives the same sector file, up to the order of the entries of each section and the alpha value of colours, and printing that again gives the same text. This holds for every sector file whose names have the form the format allows (a sector name and a default airport are given, the name of a drawing together with the first line behind it does not start like a line), whose lines have at least two points and are merged as far as possible, whose coordinates are whole thousandths of a second and whose other numbers are printed as decimals that read back. The entries are read in the order of their names.", "quantifier": "every sector file of the described kind, every number of entries, drawings, groups, lines and points", "why_tests_cant": "All files; every combination of entries, colours, fixes and coordinates in drawings.", "anchors": ["src/sct.rs Display for Sct, Display for SctInfo, impl ToEuroscope", "src/lib.rs DegMinSecExt, ToEuroscope"]}
{"id": "C67", "title": "Coordinates of written sector files", "statement": "A sector file with arbitrary coordinates that is otherwise as in C66 can be read after it is written. What is read has the same entries and lines, merged again, with coordinates that differ by half a thousandth of a second at most, apart from rounding errors below a billionth of a degree.", "quantifier": "every sector file with coordinates up to 255 degrees", "why_tests_cant": "All doubles, including those printed with 60.000 seconds or 60 minutes.", "anchors": ["src/lib.rs DegMinSecExt, decimal_to_dms, from_deg_min_sec", "src/sct.rs Display for Sct, Sct::parse"]}
{"id": "C68", "title": "The text of a sector file is deterministic", "statement": "The text written for a sector file does not depend on the order in which the hash map of colours is visited, nor on the order of the VORs, NDBs, fixes and airports.", "quantifier": "every sector file, every order of the colours and entries", "why_tests_cant": "All orders of iteration of a hash map with random seed.", "anchors": ["src/sct.rs Display for Sct, impl ToEuroscope"]}
{"id": "C69", "title": "Rewriting a sector file that was read", "statement": "Every sector file that Sct::parse reads can be written with Display and read again, giving the same entries and colours (up to the order of entries). False as stated: a file with a line from a point to the same point, without [INFO] or with a drawing whose name starts like a line of two coordinates once the coordinates are written in full is read, but what is written for it cannot be read.", "quantifier": "every text that is a sector file", "why_tests_cant": "All files, every layout of the text; the result of the first parse is the input of the writer.", "anchors": ["src/sct.rs Sct::parse, Display for Sct"]}
{"id": "C70", "title": "Drawings, regions and texts of a sector file", "statement": "In the adaptation every SID, STAR, ARTCC and GEO drawing of the sector file is found under its name, for several drawings of one name in the order of the file, group by group. A group has all its lines with all points that are known (consecutive equal points once); unknown fixes are left out, and lines and groups without points as well. It has the colour it names, if that is defined, and the SID colour otherwise, whatever kind of drawing it is. Regions and texts are found under their names unchanged. Nothing panics if the decimal digits of all fixes are ASCII digits.", "quantifier": "every sector file, every database of locations, every table of colours, every order of iteration of hash maps", "why_tests_cant": "All combinations of known and unknown fixes, equal points, repeated names and colours.", "anchors": ["src/adaptation/sct_items.rs SctItems::from_sct, ColouredLines::from_location_coloured_lines"]}
{"id": "C71", "title": "Airway lines of a sector file", "statement": "In the adaptation every high or low airway of the sector file is found under its designator, and the lines drawn for it consist of exactly its parts with known ends, each drawn once. False of the code: no line is drawn at all, each known start is a line of one point, because the start is taken for the end. (Even with the end, the first part of each line would be lost.)", "quantifier": "every sector file, every database of locations", "why_tests_cant": "All sets of airway parts, all ways of joining them.", "anchors": ["src/adaptation/sct_items.rs airway_to_multi_line_string, build_linestring"]}
{"id": "C72", "title": "Line styles and labels from the symbology file", "statement": "In the adaptation made with a symbology file, the width and style of each of the nine kinds of lines (runway centrelines, geo, SIDs, STARs, high and low airways, three ARTCC boundaries) are those of the last item of the file for this kind, and 1 and solid without one; the alignment of each of the five kinds of labels is that of the last item for the names of this kind, and the font size is 3.5 times its scale; without one the label is centred and the scale is 3.", "quantifier": "every symbology file whose numbers fit, every kind of line and label, every other file", "why_tests_cant": "All files, all orders and repetitions of items; nine plus five parallel pieces of code, each of which could look up another key or field.", "anchors": ["src/adaptation/settings/mod.rs LineSettings::from_euroscope, LabelSettings::from_euroscope", "src/symbology.rs Symbology::parse"]}
{"id": "C73", "title": "Settings from TopSky and recent files", "statement": "In the adaptation the history dots, the vectors, the font size of maps and COOPANS are what the last line of their name in the TopSky settings file says: 0 turns dots or vectors off; a missing or unreadable number gives 6 dots, a length of 1, a size of 12. Without TopSky dots and vectors are off. The ASR files are the resolved paths of Recent1 to Recent9 of the profile, in this order, without the missing ones; making the settings never panics.", "quantifier": "every TopSky settings file, every profile in a directory, every other file", "why_tests_cant": "All values, numerals with signs and leading zeros, all repetitions of names.", "anchors": ["src/adaptation/settings/mod.rs Settings::from_euroscope, MapsSettings::from_euroscope", "src/adaptation/settings/track.rs HistoryDotsSettings::from_topsky, VectorSettings::from_topsky", "src/topsky/settings.rs Settings::parse_with_default"]}
{"id": "C74", "title": "What an adaptation needs and contains", "statement": "An adaptation is only made from a profile if all eight files it needs (sector file, ESE file, airways, symbology, ICAO airports, navdata airports, aircraft, airlines) are found where the profile says and can be parsed. Its name is the name in the sector file; its airways, aircraft and airlines are those of their files; its positions are those of the ESE file, one by one with all their data, under the same ids; its constraints are those of the ESE file (C38).", "quantifier": "every profile, all contents of the file system, every order of iteration of hash maps", "why_tests_cant": "All combinations of files and their contents.", "anchors": ["src/adaptation/mod.rs Adaptation::from_prf, Position::from_ese_positions"]}
{"id": "C75", "title": "The error names the first bad file", "statement": "If loading a profile ends with an error and no panic, the error is the one for the first bad file in the order sector file, ESE file, airways, symbology, ICAO airports, navdata airports, aircraft, airlines: its path if it cannot be read, or which file it is if it cannot be parsed. Unless something panics, an adaptation is made exactly if none of the eight is bad. TopSky and the squawks never lead to an error.", "quantifier": "every profile, all contents of the file system", "why_tests_cant": "All combinations of missing and broken files.", "anchors": ["src/adaptation/mod.rs Adaptation::from_prf, AdaptationError"]}
{"id": "C76", "title": "Only files named by the profile count", "statement": "Loading a profile gives the same result, or the same error, whatever is in files that the profile does not name: other than the eight required ones, the three files of TopSky next to its DLL and squawks.json next to the DLL of the squawk plugin.", "quantifier": "every profile, every two contents of the file system that agree on the named files", "why_tests_cant": "Two arbitrary file systems are compared.", "anchors": ["src/adaptation/mod.rs Adaptation::from_prf", "src/euroscope/prf.rs Prf::topsky_path, Prf::squawks_path"]}
{"id": "C77", "title": "TopSky and squawks are optional", "statement": "A TopSky whose settings or maps are missing or cannot be parsed is the same as any other TopSky that cannot be used, or none in its place: the result of loading is the same. So it is for squawks that are missing or cannot be parsed.", "quantifier": "every profile, every two contents of the file system that agree on the other files", "why_tests_cant": "Two arbitrary file systems are compared.", "anchors": ["src/adaptation/mod.rs Adaptation::from_prf", "src/topsky/mod.rs Topsky::parse"]}
{"id": "C78", "title": "Finding sectors of the ESE file in a loaded adaptation", "statement": "Right after loading, looking for a sector at a point and level finds none exactly if no sector of the ESE file that has an owner and a closed border is around the point at that level. One that is found is that of such a sector: it has its owners, and it is named after a sector of the ESE file with the same owners and the same runway filter.", "quantifier": "every ESE file and all other files, every point and level, every order of iteration of hash maps and of the spatial index", "why_tests_cant": "All files, borders, points; grouping, polygons and index work together.", "anchors": ["src/adaptation/mod.rs Adaptation::from_prf, Adaptation::find_sector", "src/adaptation/sectors.rs Sectors::from_ese", "src/adaptation/sector_index.rs"]}
{"id": "C79", "title": "Overlays", "statement": "Loading with an empty list of overlays is loading without. Otherwise the result is what merging gives, an error of merging is the only additional error, and sectors are looked for among the merged sectors and volumes, never in an index from before.", "quantifier": "every profile, every list of overlays, every way of merging, every point and level", "why_tests_cant": "All merges, including those that change or remove sectors after an index has been built.", "anchors": ["src/adaptation/mod.rs Adaptation::apply_jsonnet_overlays, Adaptation::from_prf_with_overlays, Adaptation::rebuild_sector_index"]}
{"id": "C80", "title": "Loading cannot be stopped by what is in the files", "statement": "If the profile is a file, has the seven settings that name files and there is a current directory, and if no file contains a number that does not fit its type, then loading an adaptation comes to an end without a panic: it gives an adaptation if all eight required files are there and well formed, and else the error for the first one that is not. Names of fixes in sector and ESE files can never stop it. A missing setting or a number too large in a sector file panics.", "quantifier": "every profile, every file system with every content of every file, every order of iteration of every hash map", "why_tests_cant": "Panics depend on the interplay of the contents of up to twelve files; no finite set of them shows that none is missed.", "anchors": ["src/adaptation/mod.rs Adaptation::from_prf", "src/adaptation/locations.rs Locations::from_euroscope, convert_designator", "src/prf.rs Prf::sct_path"]}
{"id": "C81", "title": "Colours of a loaded adaptation", "statement": "After loading, a named colour is the one TopSky gives it, else the one the sector file defines, else the built-in one. The colour of a state of tracks or of a part of the interface is that of its name in TopSky, else the built-in one. The colours of the elements of the map are those of the symbology file, else a default.", "quantifier": "every profile and contents of all files that load, every colour name, every role, every element, every order of iteration of hash maps", "why_tests_cant": "Three files with arbitrary contents compete for a name; tests fix the names.", "anchors": ["src/adaptation/mod.rs Adaptation::from_prf", "src/adaptation/colours.rs Colours::from_euroscope, Colours::get"]}
{"id": "C82", "title": "Settings of a loaded adaptation", "statement": "After loading, widths and styles of lines and the sizes and alignments of labels are those of the last item of their name in the symbology file; history dots, vectors, font size and COOPANS are those of TopSky's settings file; the recent files are those of the profile in order; and a code has a special use exactly as the last range of the squawks file that covers it says. Without the files the documented defaults hold.", "quantifier": "every profile and contents of all files that load", "why_tests_cant": "All contents of four files and their absence; a swapped key or default only shows for particular contents.", "anchors": ["src/adaptation/mod.rs Adaptation::from_prf", "src/adaptation/settings/mod.rs Settings::from_euroscope"]}
{"id": "C83", "title": "Symbols and line styles of a loaded adaptation", "statement": "After loading, each kind of symbol is drawn as TopSky says, else as the symbology file says, else (except for VORs) as built in; all other symbols are those of TopSky. The six built-in line styles are always there unchanged, and a further line style is there exactly if TopSky has one whose name in upper case is this name.", "quantifier": "every profile and contents of all files that load, every kind of symbol and every name, every order of iteration", "why_tests_cant": "Ranges over all names and over what each of two files defines.", "anchors": ["src/adaptation/mod.rs Adaptation::from_prf", "src/adaptation/symbols.rs Symbols::from_euroscope", "src/adaptation/line_styles.rs line_styles_from_topsky"]}
{"id": "C84", "title": "Locations of a loaded adaptation", "statement": "After loading, the VORs, NDBs and fixes of a name are exactly those of the sector file, in its order. An airport is the last of its name in the sector file with all runways of that airport, or else that of the navdata; its name and country come from the navdata and the list of airports. The SIDs and STARs of an airport are those of the ESE file in its order, with the waypoints that are known.", "quantifier": "every profile and contents of all files that load, every designator, airport and procedure, every order of iteration", "why_tests_cant": "Four files are joined by arbitrary designators; duplicates and gaps can occur in each.", "anchors": ["src/adaptation/mod.rs Adaptation::from_prf", "src/adaptation/locations/mod.rs Locations::from_euroscope"]}
{"id": "C85", "title": "Maps of a loaded adaptation", "statement": "After loading, a folder of maps is there exactly if a map of TopSky is shown in it; its maps are those of the map file that belong to it, in the order of the file, each named by its own name or the first free one, and drawn with the colours, locations and settings of the adaptation. Without TopSky there are no maps.", "quantifier": "every profile and contents of all files that load, every folder", "why_tests_cant": "Arbitrary map files, with names clashing and folders interleaved.", "anchors": ["src/adaptation/mod.rs Adaptation::from_prf", "src/adaptation/maps/mod.rs from_topsky"]}
{"id": "C86", "title": "Sector-file items of a loaded adaptation", "statement": "After loading, the SIDs, STARs, ARTCCs of the three levels, the geography, regions and labels to be drawn are those of the sector file: under each name exactly its entries in the order of the file, with each point where its coordinate or the fix of this name is in the adaptation (unknown fixes left out as in C70), and in the colours of the adaptation.", "quantifier": "every profile and contents of all files that load", "why_tests_cant": "Arbitrary sector files with any number of items.", "anchors": ["src/adaptation/mod.rs Adaptation::from_prf", "src/adaptation/sct_items.rs"]}
{"id": "C87", "title": "Volumes in a loaded adaptation", "statement": "Right after loading, the volumes at a point are exactly the volumes of controlled ESE sectors with a closed border that contain the point, each with the id of the one sector it belongs to; the volumes near a line are exactly those whose extent overlaps that of the line. Each of these volumes belongs to exactly one sector. The sector found at a point and level is the least in the order of ids among those with a volume there.", "quantifier": "every ESE file and all other files that load, every point, line and level, every order of iteration of hash maps and of the spatial index", "why_tests_cant": "All borders and points; grouping, polygons and index work together.", "anchors": ["src/adaptation/mod.rs Adaptation::from_prf, Adaptation::volumes_at, Adaptation::volumes_near_line, Adaptation::find_sector", "src/adaptation/sector_index.rs"]}
{"id": "C88", "title": "Overlays that say nothing", "statement": "Writing an adaptation as JSON and reading it again gives the same adaptation, except for the index, which is rebuilt. So loading with overlays that are empty objects gives the same result as loading without overlays.", "quantifier": "every adaptation, every profile and files that load, any number of empty overlays", "why_tests_cant": "All values of about fifty types, with colours, optional fields, maps and variants nested in one another.", "anchors": ["src/adaptation/mod.rs Adaptation, apply_jsonnet_overlays, Adaptation::from_prf_with_overlays", "src/adaptation/colours.rs Colour Serialize/Deserialize", "src/adaptation/settings/mod.rs", "src/adaptation/symbols.rs", "src/adaptation/maps/mod.rs"]}
{"id": "C89", "title": "What overlays change", "statement": "Overlays that are objects with fields `k: v` and `k+: v` change exactly what they mention: at every place of the adaptation (a field of a nested struct, or an entry of a map) that no overlay touches the value stays as it was, and at a place that an overlay sets the value is what the last overlay that touches it says.", "quantifier": "every adaptation without non-finite numbers, every list of such overlays of any depth, every place at any depth", "why_tests_cant": "All overlays and all places; overlays are applied in order and merged recursively.", "anchors": ["src/adaptation/mod.rs apply_jsonnet_overlays, Adaptation::from_prf_with_overlays"]}
{"id": "C90", "title": "Adaptations given by adaptation.toml", "statement": "The profile and the overlays are the files that adaptation.toml names, relative to the directory of adaptation.toml or absolute; the result is that of loading the profile and applying the overlays in the order in which they are named. If the profile or an overlay is missing, there is no adaptation and the error names the first missing file; an unreadable or undecodable adaptation.toml and an unusable profile are reported as such, and nothing in this panics.", "quantifier": "every directory, every contents of adaptation.toml that decodes, every file system", "why_tests_cant": "All names, relative and absolute, and any number of overlays.", "anchors": ["src/adaptation/mod.rs AdaptationSetup::parse, normalise_path, Adaptation::from_adaptation_toml", "src/prf.rs Prf::parse"]}
{"id": "C91", "title": "Moved adaptations", "statement": "A profile that is copied together with its directory gives the same adaptation as before, except that the ASR files are those of the copy; the same holds for an adaptation.toml without overlays whose profile is in its directory. If all values of the profile are relative to the profile, the current directory does not matter.", "quantifier": "every profile whose values name files in its directory or elsewhere, every file system with two copies of the directory, every current directory, every order of iteration", "why_tests_cant": "All profiles and directory trees.", "anchors": ["src/adaptation/mod.rs Adaptation::from_prf, Adaptation::from_adaptation_toml", "src/prf.rs Prf"]}
{"id": "C92", "title": "The JSON of an adaptation", "statement": "Every adaptation is written as JSON in one documented shape: the fields of each object have the names of the specification and values of the documented kind (colours as #rrggbb, enumerations as their names), and each name stands for the part of the adaptation it names, so that an overlay or another program finds there what the adaptation has.", "quantifier": "every adaptation, every id of a position, volume, sector, constraint, folder, map, aircraft or airline", "why_tests_cant": "All adaptations; overlays silently have no effect if a name differs.", "anchors": ["src/adaptation/mod.rs Adaptation", "src/adaptation/settings/mod.rs Settings", "src/adaptation/colours.rs Colours, Colour", "src/adaptation/locations/mod.rs Locations", "src/adaptation/maps/mod.rs Folder, Map, MapGroup", "src/adaptation/symbols.rs Symbols, SymbolRule"]}
{"id": "C93", "title": "Which overlays are accepted", "statement": "Applying overlays succeeds exactly if the sum of the written adaptation and the overlays has every mandatory field, and every field that is there has its documented kind: numbers within the range of their type, colours of # and six hexadecimal digits, names of enumerations, numeric keys. Leaving an optional field out means null, leaving the overrides of the coordination times out means that there are none, unknown fields are ignored, and a record may be given as the array of its fields. Otherwise the error is that of the overlays.", "quantifier": "every JSON document, every adaptation and every list of overlays that Jsonnet can evaluate", "why_tests_cant": "All documents; tests have one overlay.", "anchors": ["src/adaptation/mod.rs apply_jsonnet_overlays", "src/adaptation/settings/mod.rs CoordinationSettings", "src/adaptation/colours.rs Colour"]}
{"id": "C94", "title": "squawks.json", "statement": "squawks.json is read exactly if it has each of NonDiscreteColor, NonDiscreteMessage, NonDiscrete and Squawks once and with values of their kind, where each entry of Squawks has a message, a colour, and optionally a code and a range with start and end; what is read is what the document says, whatever other fields and whatever order of fields it has. What the crate writes for these values has other field names, and cannot be read again.", "quantifier": "every JSON document, every value of SquawksJson", "why_tests_cant": "All documents; the crate has no tests for this file.", "anchors": ["src/squawks.rs parse_squawks_json, SquawksJson, SquawkDef, Range", "src/adaptation/mod.rs Adaptation::from_prf"]}
{"id": "C95", "title": "When two positions are the same", "statement": "Positions are compared in millionths of a degree. A coordinate written with at most six decimals is compared exactly: two such coordinates are the same exactly if the same number is written, in spite of binary rounding. Any other coordinate counts as its nearest millionth, so positions taken for the same differ by a millionth of a degree at most. Equality of fixes (same name, same position) is an equivalence relation that agrees with hashing, and two ends of airway segments are one fix of the airway graph exactly if they have the same name and the same written coordinates.", "quantifier": "every coordinate up to 1000 (10^9 with six decimals), every pair of fixes, every hasher, every sequence of segments", "why_tests_cant": "All numerals and all doubles; binary rounding makes single cases misleading.", "anchors": ["src/adaptation/mod.rs Quantize", "src/adaptation/locations/mod.rs Hash for Fix, PartialEq for Fix, PartialEq for GraphPosition", "src/adaptation/locations/airways.rs AirwayGraph::insert"]}
{"id": "C96", "title": "isec.txt keeps six decimals", "statement": "A waypoint file whose coordinates have at most six decimals is read, and what is printed for the result is read again with the same waypoints under each name, bit for bit. A coordinate with more digits below 10⁹ changes by at most five eighths of a millionth when it is printed and read again (half a millionth from the printing, the rest from the reading), and never again after that.", "quantifier": "every waypoint file with coordinates below 10^9, every hash order", "why_tests_cant": "All files and all numerals with six decimals; the claim depends on binary rounding of every coordinate.", "anchors": ["src/isec.rs parse_isec_txt, Display for IsecMap"]}
{"id": "C97", "title": "What is read does not depend on whether lines end with LF or CR LF", "statement": "If two texts differ only in that lines end with LF in one and with CR LF in the other, every parser gives the same outcome for both: the same data, the same rejection or the same panic.", "quantifier": "all pairs of texts with the same lines, line ends chosen line by line; all parsers (profile, sector, ESE, ASR, airways, fixes, ICAO files, symbology, TopSky files)", "why_tests_cant": "The line ends can be chosen independently for each line of a text of any length, at every place of every grammar: behind comments, within blocks, at the end of the file, in values that extend to the end of the line.", "anchors": ["src/pest/*.pest: NL, NEWLINE, COMMENT", "src/prf.rs: TryFrom<&[u8]>", "src/sct.rs: Sct::parse", "src/ese.rs: Ese::parse", "src/asr.rs: Asr::parse", "src/topsky"]}
{"id": "C98", "title": "Converting the line ends of all files makes no difference to what is loaded", "statement": "If all files of an installation (profile, sector file, ESE, airways, symbology, ICAO files, TopSky and squawks) are converted between LF and CR LF line ends, loading the adaptation ends in the same way: the same adaptation or the same error. It holds whether files are UTF-8 or windows-1252, provided that no drawing name extends over a line end and no profile setting is without a value.", "quantifier": "all environments and all conversions of all files, line by line; with and without overlays", "why_tests_cant": "A conversion changes the bytes of every file at once, and what is decoded depends on whether the bytes are UTF-8; the claim is about the whole of loading for every installation.", "anchors": ["src/lib.rs: read_to_string", "src/prf.rs: join_settings_path", "src/adaptation/mod.rs: Adaptation::from_prf, from_adaptation_toml"]}
{"id": "C99", "title": "Printed airways are read back", "statement": "If a row of airway.txt is put together from the texts the library prints for airway types and for the neighbouring fixes of an airway, parsing it gives these fixes again: the same names and positions, minimum levels and directions, and the same type of airway. Coordinates that were read from numerals with at most six decimals are not changed.", "quantifier": "all lists of rows with names of capital letters and digits, levels that are u32 and coordinates below 10^9 with at most six decimals, for every rounding with the error bound of doubles", "why_tests_cant": "A test prints and reads some rows; that levels of any number of digits, every coordinate and every combination of missing neighbours survive is a statement about all of them.", "anchors": ["src/adaptation/locations/airways.rs: Display for AirwayFix, AirwayType", "src/airway.rs: parse_airway_txt, AirwayFix::parse, AirwayType::parse"]}
{"id": "C100", "title": "Wake turbulence categories are printed as they are read", "statement": "The text of a wake turbulence category is the only one that is read as this category. False for the unknown category, which is read from '-' and printed as '?'.", "quantifier": "all texts and all categories", "why_tests_cant": "That no other text is read as a category is a statement about all texts.", "anchors": ["src/adaptation/icao.rs: Wtc::from_str, Display for Wtc"]}
{"id": "C101", "title": "Columns of printed constraints", "statement": "In the text of a constraint of the ESE file, the fix (or *), the sector of departure and the sector of entry stand in columns 1 to 8, 10 to 39 and 43 to 72 and can be read off if they fit, whatever the other fields are. False for levels and runways: texts of constraints that differ in these can be equal.", "quantifier": "all constraints whose fix has at most 8 and whose sectors have at most 30 characters and do not end with a blank", "why_tests_cant": "The columns must be right for every combination of lengths of the names and presence of the other fields.", "anchors": ["src/ese.rs: Display for Constraint"]}
{"id": "C102", "title": "Two-key multimaps are written with all their values", "statement": "Serialising a TwoKeyMultiMap should write every value of every key pair under 'k1:k2'. It writes one entry per pair, with the value inserted first (first keys without ':'), and never panics on a map made by insertions; every other value is lost, and an empty vector stops the program.", "quantifier": "every sequence of insertions, every pair of keys and every value", "why_tests_cant": "Ranges over all maps; the loss appears only with several values per pair.", "anchors": ["src/lib.rs TwoKeyMultiMap Serialize"]}
{"id": "C103", "title": "JSON files are read as RFC 8259 says", "statement": "Reading squawks.json gives the content exactly if the bytes are UTF-8 and the text is a JSON text in the sense of RFC 8259 (with at most 127 nested objects and arrays, and numbers in the range) that stands for this content; a text stands for one value at most, the kind of line ends makes no difference, and every other text is refused as a whole.", "quantifier": "every sequence of bytes, every text, every JSON value", "why_tests_cant": "The set of texts is infinite and nested without a fixed depth; a reader that accepts one wrong text, or misreads one escape, passes every sample that does not contain it.", "anchors": ["src/squawks.rs: parse", "src/adaptation/mod.rs: from_prf (squawks.json)"]}
{"id": "C104", "title": "The JSON text of an adaptation is read back", "statement": "Writing an adaptation as JSON text and reading the text gives the same adaptation (except for the sector index, which is built anew): whatever characters are in its names and texts, and the text is never refused for its depth. It presumes that its parts are kept by JSON (finite numbers that are read as they were written, opaque colours, proper paths).", "quantifier": "every adaptation, every string, every way of printing numbers that can be read", "why_tests_cant": "Quotation marks, backslashes, control characters and any other character may occur in names from the files; round trips must hold for all of them.", "anchors": ["src/adaptation/mod.rs: apply_jsonnet_overlays"]}
{"id": "C105", "title": "Overlays do not change numbers they do not mention", "statement": "Applying overlays should leave every coordinate that they do not mention exactly as it was loaded. Since all numbers are printed and read again, it holds for numbers that are printed with at most 15 digits; others are read with a relative error of at most 2^-51, and not always as the same number: the longitude E010.28.00.000 becomes the next double.", "quantifier": "every double and its shortest decimal text; every adaptation and all overlays that do not touch a place", "why_tests_cant": "About six percent of the coordinates in degrees, minutes and seconds are changed, in the last bit only; a comparison with a tolerance or of a few values does not show it.", "anchors": ["src/adaptation/mod.rs: apply_jsonnet_overlays", "Cargo.toml: serde_json"]}
{"id": "C106", "title": "Which positions a sector's volume contains", "statement": "A polygon contains a position exactly if the position is not on its border and the border goes round it: the triangles that the border lines span with any other point, counted by their direction, do not cancel around the position. In particular triangles and rectangles contain exactly what is strictly inside of them, and no polygon reaches beyond the extent of its points, so looking at bounding boxes first misses nothing.", "quantifier": "every polygon, closed or to be closed, self-crossing or not, and every position", "why_tests_cant": "Positions on the level of a corner, on horizontal lines, on the border and in overlaps of the border with itself are infinitely many special cases of the winding number.", "anchors": ["src/adaptation/sector_index.rs: volumes_at, find_sector", "src/adaptation/sectors.rs: Volume::new"]}
{"id": "C107", "title": "Which sector is found does not depend on the order of hash maps", "statement": "Loading the same files twice should give adaptations that answer position queries alike, although the polygon of a border starts with an arbitrary element of a hash set and sectors are read from a hash map in arbitrary order. It holds for borders in no point of which more than two lines meet, however they are ordered, directed and turned: the same ESE sectors are around every position, a sector is found at the same positions, and it has the same owners wherever the ESE sectors around the position have. It does not hold for borders in a point of which four lines meet, nor, as regards the owners, where sectors of different owners lie over each other.", "quantifier": "every border, every pair of iteration orders, every position and level", "why_tests_cant": "Hash orders differ from run to run; a test sees one of them, and which answer it gets is a matter of luck.", "anchors": ["src/adaptation/sectors.rs: polygon_from_ese, Sectors::from_ese", "src/adaptation/sector_index.rs: find_sector"]}
{"id": "C108", "title": "Exactly when and over which fixes an airway can be expanded", "statement": "Expanding an airway between a start and an end returns the fixes p exactly if: the start is the fix with this name and position if any airway mentions it, else the first mentioned one of this name on the airway; the end is the first mentioned fix of the end name on the airway; the start has at most two neighbours on the airway; and p leads from the start over the first of its neighbours from which there is a way to the end, where every fix on the way but the last has exactly two neighbours, the one before it and the one behind it. If no segment leads from a fix to itself, no fix is visited twice, and a route is returned whenever there is a way. So airways can be followed up to a fork, but neither from nor past it; and on a ring the order of insertion decides.", "quantifier": "every list of segments, every start, end name and airway", "why_tests_cant": "Which of several ways, forks, rings and fixes of the same name occur is decided by the whole of the data; tests follow a few straight airways.", "anchors": ["src/adaptation/locations/airways.rs: AirwayGraph::insert_or_update_segment, expand_airway_segment, traverse_airway, find_fix_on_airway"]}
{"id": "C109", "title": "Routes along the airways of a loaded adaptation", "statement": "In an adaptation that was loaded from a profile, the airways are those of the lines of the airway file that the profile names, in their order; a route can always be asked for without a panic; it is returned exactly if the lines say so as in C108, its legs carry the directions and least levels of the lines, and each fix is marked as known exactly if the loaded locations contain it.", "quantifier": "every profile and every set of files that can be loaded; every start, end name and airway", "why_tests_cant": "The statement is about the composition of profile, file, parser, graph and traversal for every content of the files.", "anchors": ["src/adaptation/mod.rs: Adaptation::from_prf", "src/airway.rs: parse_airway_txt", "src/adaptation/locations/airways.rs: expand_airway_segment"]}
{"id": "C110", "title": "What of a loaded adaptation does not depend on hash orders", "statement": "Loading the same files in two runs of the program ends with the same error, or with adaptations that are the same: same names, locations, airways, positions, constraints, maps, symbols, colours, settings, aircraft, airlines and drawings; the same volumes with the same levels; and sectors with the same owners, runways, volumes and airports. Only the names of sectors and the point where the border of a volume begins may differ. It presumes that the profile does not name two places for TopSky or for the squawks; and a line style is the same if no other has the same name in upper case. Without these conditions the order of a hash map decides.", "quantifier": "every profile, every content of the files, and every two orders of every hash map and hash set that is iterated over", "why_tests_cant": "The orders differ from run to run, and no test can try them all.", "anchors": ["src/adaptation/mod.rs: Adaptation::from_prf", "src/adaptation/sectors.rs: Sectors::from_ese", "src/adaptation/locations/mod.rs: Locations::from_euroscope", "src/adaptation/colours.rs: Colours::from_euroscope", "src/adaptation/line_styles.rs: line_styles_from_topsky", "src/prf.rs: topsky_path, squawks_path"]}
{"id": "C111", "title": "Which file decides what in an adaptation", "statement": "When only one of the files that a profile names is changed (or only the squawks, or only the files of TopSky), and both loads succeed, then everything in the adaptation that does not come from it stays the same. So airways, aircraft and airlines come from their own files alone and change nothing else; the ICAO airports change only names and countries of airports, never which there are nor where they lie; navdata changes procedures, maps and drawings, and of the airports of the sector file only names; the ESE file changes procedures, positions, volumes, sectors and constraints; the symbology changes symbols, map colours and drawings; the squawks change only the special codes; and so on for the sector file and TopSky.", "quantifier": "every profile, every two contents of the files that differ in one source and can be loaded", "why_tests_cant": "Says what must not change, for every change of a file; tests look at what does change in a few files.", "anchors": ["src/adaptation/mod.rs: Adaptation::from_prf"]}
{"id": "C112", "title": "Files that are put together", "statement": "When two files of the same kind are written one behind the other, the first ending with a line feed, the parser accepts the whole exactly if it accepts both, or accepts one and the other has only blank lines and comments (navigation data can be without data). Then the whole is read as the two would be: of each airline, airport and aircraft designator the entry of the first file is returned, or else that of the second; a waypoint has the positions of the first file followed by those of the second; a setting of a profile has the value of the second, or else that of the first; a leg of an airway exists if one of the files gives it, can be flown if one of them lets it be flown, and has the least minimum level the files give.", "quantifier": "every two texts, for the lists of airlines, airports, aircraft, navigation data airports, waypoints, airways and for profiles", "why_tests_cant": "Ranges over all pairs of files and all places where a file can be cut; a grammar that lets an entry reach over a line end breaks it only for some pairs.", "anchors": ["src/icao_airlines.rs", "src/icao_airports.rs", "src/icao_aircraft.rs", "src/navdata_airports.rs", "src/isec.rs parse_isec_txt", "src/airway.rs parse_airway_txt", "src/prf.rs Prf::parse", "src/pest/*.pest: NL, COMMENT"]}
{"id": "C113", "title": "Threads that share an adaptation", "statement": "While threads hold shared references to the same adaptation, every call of find_sector, volumes_at and volumes_near_line returns what it would return if no other thread were there, whether or not the index was already built, and a clone taken in between answers all queries as the adaptation does. The index is built at most once, the threads never block each other forever, and afterwards the adaptation has the index it would have if one thread had made all the calls.", "quantifier": "every number of threads, every lists of calls, every schedule, every state of the index before", "why_tests_cant": "Ranges over all interleavings of the steps of all threads; a race shows only under some schedules.", "anchors": ["src/adaptation/sector_index.rs SectorVolumeIndex, get_or_build, volumes_at, volumes_near_line, find_sector, Clone", "src/adaptation/mod.rs Adaptation::find_sector, volumes_at, volumes_near_line"]}
{"id": "C114", "title": "Every name in a parsed file stands in the file", "statement": "Whatever text a parser accepts, well-formed or not, it invents no text and mixes up no fields: the names, designators, frequencies, owners, runways and waypoints of the result are parts of the text that was read. The texts of an entry stand in it in the order of the format (for a procedure: airport, runway, name, waypoints; for a TopSky map: its name and the texts of its lines one after another), and the entries of a list in the order of the list, without overlap.", "quantifier": "every text that the parser of .ese files, of .sct files, of TopSky maps, of the ICAO tables, of the airports of the navigation data, of profiles, of waypoint files or of airway files accepts", "why_tests_cant": "Ranges over all accepted texts, also those with stray blanks, missing fields or unknown sections, for which no expected value is written down anywhere.", "anchors": ["src/ese.rs Ese::parse, parse_position, parse_sid_star, parse_airspace", "src/sct.rs Sct::parse, parse_runway, parse_airway, parse_region, parse_label", "src/topsky/map/mod.rs parse_topsky_maps, MapRule::parse", "src/topsky/map/active.rs Active::parse", "src/icao_airlines.rs", "src/icao_airports.rs", "src/icao_aircraft.rs", "src/navdata_airports.rs", "src/prf.rs", "src/isec.rs", "src/airway.rs", "src/pest/ese.pest", "src/pest/sct.pest", "src/pest/topsky.pest"]}
{"id": "C115", "title": "Lines and sections in another order", "statement": "When two neighbouring blocks of lines of an accepted file change places, the new text is accepted. Of each airline, airport and aircraft designator and each setting of a profile the same is returned, unless both blocks define it; a waypoint designator has the same positions, in the same order unless both blocks define it; the airways have the same legs, with the same directions and minimum levels, in any case. When the sections of a valid .ese or .sct file are put in another order, sections of the same kind (and definitions of the same colour) keeping theirs, both files make the parser panic, or both give the same data. The same holds for the settings of .asr files (those with the same key keep their order), the items and symbols of symbology files, the lines of TopSky settings files and the definitions of TopSky symbol and map files (those of the same name keep their order).", "quantifier": "every accepted text, all ways to cut it into four parts behind line feeds; every valid .ese, .sct, .asr, symbology and TopSky file and every order of its parts", "why_tests_cant": "Ranges over all files and all ways to reorder them; a parser that lets one line influence how the next one is read breaks it only for some files.", "anchors": ["src/icao_airlines.rs", "src/icao_airports.rs", "src/icao_aircraft.rs", "src/navdata_airports.rs", "src/isec.rs parse_isec_txt", "src/airway.rs parse_airway_txt", "src/prf.rs Prf::parse", "src/ese.rs Ese::parse", "src/sct.rs Sct::parse", "src/asr.rs Asr::parse", "src/symbology.rs Symbology::parse", "src/topsky/mod.rs"]}
{"id": "C116", "title": "The exact positions of fixes on airways", "statement": "Every fix of an expanded airway has exactly the position with which it was first mentioned in the airway data (as the start or as the neighbour of a leg), among the mentions that are the same fix at the resolution of the data base. So no position is made up or rounded, and a fix that is always given with one position is returned with it. In a loaded adaptation the position is that of a line of the airway file, of its own fix or of a neighbour.", "quantifier": "every list of inserted legs, every start, end and airway for which a route is returned; every loaded profile", "why_tests_cant": "Ranges over all airway files and all routes; positions that differ by less than the resolution are rare in test data.", "anchors": ["src/adaptation/locations/airways.rs expand_airway_segment, get_or_insert_fix_id, add_fix_raw", "src/airway.rs parse_airway_txt"]}
{"id": "C117", "title": "Every name in a loaded adaptation stands in one of its files", "statement": "The name of a loaded adaptation, and the names, designators, frequencies and owners of its navigational aids, airports, positions, procedures, coordination rules, sectors, aircraft and airlines are not invented: each is part of the text of one particular file named by the profile, the texts of one entry stand in it in the order of the format, and an entry is found under its own name. A waypoint of a procedure is what one of the names written with the procedure means. The volumes of a sector each stand before its owners in the .ese file. The fixes to which an airway leads stand in the airway file.", "quantifier": "every profile that loads, whatever its files contain, every order in which hash maps are iterated over, every name that is looked up", "why_tests_cant": "Ranges over all sets of files; an entry that gets a field of its neighbour or of another file is seen only where the files disagree.", "anchors": ["src/adaptation/mod.rs Adaptation::from_prf", "src/adaptation/locations/mod.rs Locations::from_euroscope", "src/adaptation/sectors.rs", "src/adaptation/constraints.rs", "src/adaptation/locations/airways.rs"]}
{"id": "C118", "title": "Loading an adaptation always comes to an end", "statement": "For every profile, whatever the files it refers to contain, loading the adaptation comes to an end: with an adaptation, an error or a panic, but never in an endless loop. This holds for the matching of the eleven grammars, for the joining of sector lines into borders (also when lines form branches, cycles or touch in more than two ends), for the joining of airway segments into lines (also around cycles), for the search for free map names and for the resolving of locations. The same holds for loading with overlays and from a TOML file, given that evaluating Jsonnet and decoding TOML end.", "quantifier": "all profiles, all contents of all files, all iteration orders of hash maps, all floats and all ways to take a point from a set", "why_tests_cant": "The loops run until data derived from the files are used up, and nobody can test every file. A file that makes a loop run for ever would hang the program at the start.", "anchors": ["src/adaptation/mod.rs Adaptation::from_prf, from_prf_with_overlays, from_adaptation_toml", "src/adaptation/sectors.rs polygon_from_ese, Sector::from_ese", "src/adaptation/sct_items.rs build_linestring, airway_to_multi_line_string", "src/adaptation/maps/mod.rs from_topsky"]}
{"id": "C119", "title": "A file that was cut off is refused, or damages at most one entry", "statement": "Take an accepted file of which only the first part is left, because a download or a write was interrupted. What is left of isec.txt or airway.txt is refused exactly if its complete lines alone are refused or the line that is cut off has begun with more than blanks or a comment. If it is accepted, each designator in isec.txt has a prefix of its list of fixes, and each airway leg is in the whole file, flyable there if it is flyable in the rest, with the same or a lower minimum level. What is left of an ESE file is refused if the line that is cut off has begun with more than blanks or a comment. What is left of a list of airlines, airports or aircraft or of the navdata airports, if accepted, gives at most one designator data that the whole list does not give it. What is left of a profile, if accepted, gives each setting but at most one its value in the whole profile, unless the missing part sets it again. What is left of a symbology file is refused if it does not end with END, so if END stands only once in the file it is refused unless only blanks and line ends behind END are missing. What is left of squawks.json is refused unless only white space is missing, and then the same is read; the same holds for every JSON text of an object or an array, and the written JSON text of an adaptation is refused if anything is missing at its end. The one exception is real: a country or a sector file name that is cut off is read as it stands, without an error.", "quantifier": "the decoded text of every accepted file of the kinds named and every point at which it is cut off, except within a line end of carriage return and line feed", "why_tests_cant": "a test cuts one file at a few points; the property is about every point of every file", "anchors": ["src/isec.rs parse_isec_txt", "src/airway.rs parse_airway_txt", "src/ese.rs Ese::parse", "src/icao_airlines.rs parse_airlines", "src/icao_airports.rs parse_airports", "src/icao_aircraft.rs parse_aircraft", "src/navdata_airports.rs parse_navdata_airports", "src/prf.rs Prf::parse", "src/symbology.rs Symbology::parse", "src/squawks.rs SquawksJson", "src/adaptation/mod.rs Adaptation"]}
