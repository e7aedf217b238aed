# Formal model of blip-radar/vatsim-parser: design

Lean 4.33.0 with Mathlib. All modules are under `lean/Verif`; `lake build` in `lean` builds everything.
The code is read as text from `/repo` at the pinned commit. It is neither built nor run.

## Layout

| directory | content |
|---|---|
| `Verif/Base` | strings as lists of characters, results with `panic`, `parseError` and `diverge`, maps, numbers, Unicode tables as parameters |
| `Verif/Peg` | the parsing machine of pest, and what follows for every grammar |
| `Verif/Grammar` | the grammars, generated from `/repo/src/pest` by `tools/pest2lean.py` |
| `Verif/Tokens` | which rules may occur below which, generated by `tools/tokens.py`, checked by the kernel |
| `Verif/Parse` | the functions that read the trees, statement by statement |
| `Verif/Model` | the functions that do not read texts |
| `Verif/Spec` | specifications: formats, meanings, predicates. They use the result types of the model, not its functions |
| `Verif/Proofs` | lemmas |
| `Verif/Props` | the theorems `Cnn_…` for the properties, each with examples that meet the hypotheses |

## Method

* Every definition of the model cites the file and the lines it models and says where it simplifies.
* `&mut` state is returned. A loop is a fold or a structural recursion. Panics (`unwrap`, `unreachable!`, indexing, overflow checks of `parse`) are the result `panic`, never a default value.
* A parser is `run` on its grammar followed by the functions on the tree. Theorems about parsers are about all texts, or all texts of the form that a file of `Verif/Spec` describes.
* A text-level specification describes a file by a data type (sections, lines, fields, blanks, comments), with a function `text`, a predicate `Valid`, a predicate `Fits` (all numbers are in range) and a function for the meaning. The theorem: reading `text` gives the meaning if `Fits`, and panics if not.
* If the code violates a property, the negation is proved with a witness and the part that holds is a theorem with the suffix `_partial`.
* Wrong programs: `seeded/LOG.jsonl` lists edits of the model, the claims they break and the theorems that failed.

## Properties

| id | property | what is modelled and how it is proved | status |
|---|---|---|---|
| C01 | Every text parser terminates on every input | `Peg/Core`, `Grammar/*`: pest's matching as an interpreter with an explicit result `diverge`. A static check `wf` on grammars (no left recursion, no repetition of something that may match nothing). `Peg/Sound`: induction shows that a checked grammar never diverges, on any input. The check is evaluated by the kernel for each grammar. | proved |
| C02 | parse_isec_txt never panics | `Parse/Isec` over the trees of the grammar; `Proofs/Isec` characterises the accepted texts and shows that every tree has the shape the code expects. | proved |
| C03 | isec.txt print/parse round trip | Printer transcribed; forward evaluation of the grammar on printed text; induction on the list of fixes. | proved |
| C04 | isec duplicates are all kept in file order | Fold of the lines into a map of lists against filtering the lines by name. | proved |
| C05 | ICAO airline, airport, aircraft and navdata airport parsers never panic | `Parse/Icao` for four grammars; the shape of the trees is derived from the grammar (`Peg/Kids`, `Tokens/*`), which excludes every `unwrap` on `None`. | proved |
| C06 | First definition wins in the ICAO and navdata tables | `Parse/Icao`; text-level specification of the tables and first-match specification; both directions (every text of the form is read, every text that is read has the form). | proved |
| C07 | Prf parsing never panics and the last setting wins | `Parse/Prf`, `Spec/Prf`: accepted texts are characterised exactly; the last value of a key wins. | proved |
| C08 | Airway file parsing panics exactly on an over-large level | `Parse/Airway`, `Spec/Airway`: accepted texts are characterised exactly; a panic is equivalent to a level of 2^32 or more. | proved |
| C09 | Airway graph: ids, names and positions stay consistent | `Model/AirwayGraph`: the graph as a state machine; invariant by induction over insertions. | proved |
| C10 | Airway graph: edges are exactly the inserted segments, in both directions | Refinement of the graph to the list of inserted segments. | proved |
| C11 | Airway graph: direction flag and minimum level aggregate all reports | Fold of minimum and disjunction over the matching insertions. | proved |
| C12 | Airway expansion returns a real connected path | Recursion of the traversal; invariant: the result is a path of edges of the airway. | proved |
| C13 | Airway expansion is complete on linear airways | Induction along the chain. | proved |
| C14 | Airway expansion terminates and never indexes out of bounds | The model has an explicit out-of-bounds result; theorem that it never arises, with the bound on the recursion. | proved |
| C15 | Designator lookup precedence | `Model/Locations`, `Spec/Locations`: the order of the tables as a list of sources. | proved |
| C16 | contains_designator agrees with lookup | Equivalence of the two functions for all databases. | proved |
| C17 | contains_nav_element considers every entry of the name | False of the code: negation by a witness; proved for at most one entry per name and table. | partial |
| C18 | Coordinate waypoints: accepted forms and value | The regular expression and the normalisation on strings, against the list of accepted forms. | proved |
| C19 | Coordinate waypoint normalisation is idempotent | From C18. | proved |
| C20 | Airport merge: sector file wins, then navdata, then ICAO | Folds over the three sources for every order of iteration. | proved |
| C21 | Sector border polygon: a result is an Eulerian circuit | `Model/Polygon`: the loop as a small-step machine; invariant: ring and remaining edges are the input. | proved |
| C22 | Sector border polygon: exists exactly for connected even borders | Euler's theorem for the machine, in both directions, for every order of the hash set. | proved |
| C23 | Sector border polygon computation terminates | A decreasing measure of the machine. | proved |
| C24 | Sectors partition the volumes | `Model/Sectors`: grouping fold against a partition. | proved |
| C25 | find_sector equals the exhaustive search | `Model/SectorIndex`: candidates by bounding box, with the R-tree given by its specification. | proved |
| C26 | The sector index is stale until rebuilt | Histories of operations on the cache against a snapshot specification. | proved |
| C27 | volumes_near_line never misses an intersecting volume | Overlap of boxes. | proved |
| C28 | Maps: no map is lost and names in a folder are unique | `Model/Maps`: folds; freshness of the number that is appended to a name. | proved |
| C29 | Maps: every drawn element carries the attributes in effect when it was drawn | The fold over rules against the attributes in effect. False for polygons: negation proved. | partial |
| C30 | Maps: active conditions form the OR of AND groups in rule order | The fold against a recursive grouping. | proved |
| C31 | Maps: collected coordinates become exactly one polygon or line | The fold against a recursive splitting into runs of coordinates. | proved |
| C32 | Merging consecutive map lines preserves the drawn segments | `Model/Lines`: the merged lines have the same sequence of segments. | proved |
| C33 | Merging sector-file lines preserves segments and colours | As C32, per colour. | proved |
| C34 | EuroScope colour numbers round trip | Integer arithmetic. | proved |
| C35 | Colour JSON text round trip | Hexadecimal digits, all strings. | proved |
| C36 | Coordination timing: constraint overrides FIR overrides global, per field | `Model/Settings`: decision logic. | proved |
| C37 | Special-use SSR codes | Fold and octal formatting against the last line that covers a code. | proved |
| C38 | Constraint keys | False of the code (witnesses); what a key identifies is proved for fields without separators. | partial |
| C39 | Constraint extraction | Fold into two maps against the last match. | proved |
| C40 | ESE sector borders resolve independently of statement order | `Model/EseAirspace`: two passes; independence of the order of statements. | proved |
| C41 | Degree-minute-second text round trip | `Model/DmsFmt` computes over the rationals with a rounding function of which only the error bound of doubles, exactness on integers and the sign are known. `Proofs/DmsFmt` bounds the error of each intermediate result by linear arithmetic. `Model/Binary64` defines rounding to nearest, ties to even; it is proved to be the one of `Spec/Binary64` and an instance. | proved |
| C42 | Two-key maps serialise without key collisions | Joining of strings is injective. For the three parsers: the grammar keeps colons out of the first keys (`Proofs/TwoKey`). | proved |
| C43 | ASR settings: first occurrence wins, others default | `Parse/Asr`, `Spec/Asr`: what a well-formed file means, for every such file; `Spec/AsrExact`: exactly which texts are read. | proved |
| C44 | ASR leader, filters and modes | As C43; the texts that make the parser panic and those it rejects, exactly. | proved |
| C45 | Line styles: built-in styles always win and dash lists pair up | Fold with overriding; splitting of dash lists into pairs. | proved |
| C46 | Symbol fallback chain | Decision logic. False for VORs: negation proved. | partial |
| C47 | Colour lookup precedence | Decision logic over the tables of colours. | proved |
| C48 | Text decoding is total and exact for UTF-8 | Bytes are numbers below 256. The validating decoder of std is modelled and shown to be the inverse of the encoder given in the specification; windows-1252 is its table; byte order marks are modelled as encoding_rs treats them. | partial |
| C49 | Profile paths | `Model/PrfPaths`: string functions and Unix path semantics. False for doubled separators: negation proved. | partial |
| C50 | Sector-file and ESE parsing can panic on out-of-range numbers only | `Parse/Ese`, `Parse/Sct`: every panic on any text comes from a harmful part of it (`Spec/*: Harmful`), and every valid file with such a number panics. | proved |
| C51 | Repeated sections | `Spec/Ese`, `Spec/Sct`: what a valid file means, section by section, down to the characters. | proved |
| C52 | SIDs and STARs are grouped by airport and name without loss | Grouping fold. | proved |
| C53 | Designator lookup never panics | Every indexing and unwrap of the lookup as an explicit panic. False for decimal digits beyond ASCII: negation proved. | partial |
| C54 | Map colours come from the matching symbology entry | Tables of colours. False for the names of high airways: negation proved. | partial |
| C55 | Track and interface colours | Tables of colours. | proved |
| C56 | ESE positions keep all their visibility points | From C51. False without a squawk range: negation proved. | partial |
| C57 | Files named by a profile | `Model/PrfPaths`. | proved |
| C58 | Plugin directories of a profile | `Model/PrfPaths`. | proved |
| C59 | An ESE file must end with a line end | `Peg/Ended`: every match of the grammar ends in a line end, by induction over expressions. | proved |
| C60 | Comments and empty lines do not change the meaning of a sector file | From C51 for sector files: the meaning is compared with that of the file without comments. False at three places: negations proved by evaluation. | partial |
| C61 | Meaning of TopSky settings files | `Parse/TopskySettings` against the description of files in `Spec/TopskySettings`; the grammar looks at the start of the file, so the repetitions are evaluated state by state. What each expression matched is described together with the text skipped behind it (`Peg/Txt`), so the texts accepted are exactly the described files. | proved |
| C62 | Meaning of symbology files | `Parse/Symbology`, `Parse/SymbolRule` against `Spec/Symbology`, `Spec/SymbolRule`; the texts that are accepted are exactly the described files: completeness by composing what each expression matches, soundness by splitting what it matched into tokens with blanks between them (`Peg/Toks`). | proved |
| C63 | Meaning of TopSky symbol files | `Parse/Topsky` against `Spec/Topsky`; exact evaluation of the grammar on every file of the described form. For any text: where a panic can come from, by induction over the grammar; and that everything accepted has the described form. | proved |
| C64 | Meaning of TopSky map files | `Parse/Topsky` against `Spec/Topsky`; one lemma per definition, setting and condition, then induction over the file. | proved |
| C65 | TopSky plugin directory: required files and precedence | `Parse/Topsky.parse`: lookup in the union of two tables; C61, C63 and C64 give the meaning of the texts. | proved |
| C66 | Writing a sector file and reading it back | `Model/SctWrite` (all of the writer), `Model/Double`: the written text is shown to be a text of the format of `Spec/Sct`, entry by entry, whose meaning by C51 is the file with its coordinates printed and read; these are kept by C41. | proved |
| C67 | Coordinates of written sector files | As C66; the error of printing and reading an angle is bounded with the error bound of doubles. | proved |
| C68 | The text of a sector file is deterministic | Sorting by the whole text of a line does not depend on the order (`Base/Sort`). | proved |
| C69 | Rewriting a sector file that was read | What C51 says is read from a file is shown to be writable and merged, so C66 applies (partial; the three defects are evaluated on witnesses). | partial |
| C70 | Drawings, regions and texts of a sector file | `Model/SctItems` (all of `sct_items.rs`) over `Model/Locations`; the loops against filtering and mapping the drawings of a name. | proved |
| C71 | Airway lines of a sector file | `Model/SctItems`: the recursion that joins lines, with a bound that is never reached. False of the code: the negation is proved for every airway, and what is drawn is characterised. | partial |
| C72 | Line styles and labels from the symbology file | `Model/Display` (`settings/mod.rs`) composed with C62; the tables of kinds in `Spec/Display`. | proved |
| C73 | Settings from TopSky and recent files | `Model/Display` (`settings/mod.rs`, `settings/track.rs`) composed with C61 and the paths of C57; numerals as in `Spec/Display`. | proved |
| C74 | What an adaptation needs and contains | `Model/Adaptation.fromPrf`: the whole of `from_prf` over a file system that is a function; its steps are taken apart. | proved |
| C75 | The error names the first bad file | As C74; case distinction over the steps. | proved |
| C76 | Only files named by the profile count | As C74; each step reads only the files named. | proved |
| C77 | TopSky and squawks are optional | As C76. | proved |
| C78 | Finding sectors of the ESE file in a loaded adaptation | C24 and C25 composed through `fromPrf`; the ids of ESE sectors are distinct because they are keys. | proved |
| C79 | Overlays | `Model/Adaptation.applyOverlays` with an arbitrary merge; C25. | proved |
| C80 | Loading cannot be stopped by what is in the files | Each step of `fromPrf` composed with the theorem about its part (C05, C08, C50, C53, C61 to C65, C70, C73); that names from sector and ESE files have no digits outside of ASCII is read off the grammars (`Peg/All`: every token of a rule satisfies a predicate). | proved |
| C81 | Colours of a loaded adaptation | The steps of `fromPrf` (C74) composed with C47, C54 and C55; the keys of the parsed colour tables are distinct (`Proofs/AdaptationKeys`), so the order of iteration does not matter. | proved |
| C82 | Settings of a loaded adaptation | As C81, with C37, C72 and C73. | proved |
| C83 | Symbols and line styles of a loaded adaptation | As C81, with C45 and C46. | proved |
| C84 | Locations of a loaded adaptation | As C81, with C15, C20 and C52. | proved |
| C85 | Maps of a loaded adaptation | As C81, with C28 to C30; `SameRule` relates the rules as read to the rules as drawn. | proved |
| C86 | Sector-file items of a loaded adaptation | As C81, with C70; names of fixes in sector files have no digits outside of ASCII, so looking them up cannot panic. | proved |
| C87 | Volumes in a loaded adaptation | As C78, with C25 and C27. | proved |
| C88 | Overlays that say nothing | Model: JSON values and, for every type of the adaptation, a codec after the serde attributes (`Model/Json`, `Model/AdaptationJson`). Each combinator is proved to read what it wrote (`Proofs/Json`), if numbers are finite and colours opaque; negation with an infinite font size. | partial |
| C89 | What overlays change | Spec: a fragment of Jsonnet as a tree of documents with its sum, and places in an adaptation as paths through structs and maps (`Spec/Jsonnet`). Proof by mutual induction over documents, then induction over places. | proved |
| C90 | Adaptations given by adaptation.toml | Model: `Model/Setup`, with `toml::from_slice` and `canonicalize` as parameters. Proof by evaluation of the steps. | proved |
| C91 | Moved adaptations | Every path that loading uses is related to that of the copy (`Moved`), so every file read is the same; `Proofs/Moved` follows the relation through `from_prf`. | proved |
| C92 | The JSON of an adaptation | Spec: `Spec/Schema`, the shape as a tree of names and kinds, without reference to the model. Proof by the shape of each combinator; the places of C89 tell which part of the adaptation a name stands for. | proved |
| C93 | Which overlays are accepted | Spec: `Accepts` and `Completes` in `Spec/Schema`, on the same tree of names and kinds as C92. Proof by combinator: each one reads exactly what its shape accepts, and reads the completion of a document as the document. | proved |
| C94 | squawks.json | Spec: `Spec/Squawks`, a relation between JSON values and what they say. Proof field by field; The value of a text is that of C103. C77 and C82 speak of squawks.json in the same words. | proved |
| C95 | When two positions are the same | Model: `Model/Quantize`. Proof: the errors of the two roundings (the numeral and the product with 10^6) are below one half; the graph by C09. | proved |
| C96 | isec.txt keeps six decimals | Model: `Binary64.show6`. Proof: the nearest millionths of the double read from a numeral are those of the numeral; then C03. | proved |
| C97 | What is read does not depend on whether lines end with LF or CR LF | Spec: `Spec/LineEnds`. A static check of a PEG (`Peg/LineEnds: even`) implies by induction over the evaluation that texts with the same lines give trees that are alike: equal, or different only in carriage returns within the texts of nodes that the parser does not look at. The check is decided for each grammar; the parsers are proved to respect the relation. Profiles by C01's description of a file. | partial |
| C98 | Converting the line ends of all files makes no difference to what is loaded | Spec: `Spec/Converted`, the relation on bytes. Bytes to text by C48; then C97 for each file, and each step of `from_prf` in turn. | proved |
| C99 | Printed airways are read back | Model: `Model/Texts`. The text of a row is shown to be a line of `Spec/Airway`, then C08; coordinates by C96. | proved |
| C100 | Wake turbulence categories are printed as they are read | Model: `Model/Texts`. Case distinction; negation for the unknown category. | partial |
| C101 | Columns of printed constraints | Model: `Model/Texts`; columns of a text in `Spec/Texts`. Negation by evaluated witnesses. | partial |
| C102 | Two-key multimaps are written with all their values | Model: `serializeTwoKeyMulti` in `Model/Constraints`. Induction over the insertions: keys distinct, no empty vector; then C42. The loss is a theorem about every map. | partial |
| C103 | JSON files are read as RFC 8259 says | Spec: `Spec/JsonText`, the grammar of RFC 8259 as relations between texts and values. Model: `Model/JsonText`, the reader. Soundness and completeness by induction over the steps and over the derivation; line ends by induction over the derivation. | proved |
| C104 | The JSON text of an adaptation is read back | Model: the writer in `Model/JsonText`. What is written is derivable (mutual induction), so C103 applies; the depth is derived along the codecs (`Proofs/JsonDepth`); then C88. | proved |
| C105 | Overlays do not change numbers they do not mention | Model: `Model/JsonFloat`, how `serde_json` reads digits as `f64`, over the doubles of `Model/Binary64`. Rounding of exact factors is exact; otherwise three rounding errors are composed. Negation by a witness whose roundings are evaluated; places of an adaptation as in C89. | partial |
| C106 | Which positions a sector's volume contains | Model: `Model/Contains`, the winding number test of `geo` over exact values of coordinates. Specification by signed triangles, without rays: a line's contribution is antisymmetric, three of them round a triangle are what the triangle is around the point (case analysis with the two linear identities of the determinants), and the contributions of the lines to the apex cancel along a closed ring. A clear apex exists because finitely many slopes are excluded. | proved |
| C107 | Which sector is found does not depend on the order of hash maps | Two closed walks along the same lines of which at most two meet anywhere are equal but for start and direction (induction along the walk); contributions are antisymmetric, so the winding number changes at most its sign. Combined with C21, C22 and C78 for two runs of the program. Negations by witnesses: an enclave that touches the border in a corner, and three sectors over each other. | partial |
| C108 | Exactly when and over which fixes an airway can be expanded | Spec: `Spec/AirwayWay`, from the list of segments alone. A second invariant of insertion (`Proofs/AirwayOrder`): ids are in the order of first mention, those of a name ascend, and the edges of a fix are its neighbours in the order of first mention. Traversal is sound and complete for ways (`Proofs/AirwayWay`); a repetition of least distance on a way without loops would repeat a leg, and so never end, or turn round. | proved |
| C109 | Routes along the airways of a loaded adaptation | C74 (contents of an adaptation), C08 (lines of the airway file) and C12, C14, C108. | proved |
| C110 | What of a loaded adaptation does not depend on hash orders | A relation between the outcomes of two runs goes through the steps of `fromPrf` (bind lemma): equal where no order is used, and by C20, C22, C24, C45, C47, C58 and C70 where one is. Witnesses for the conditions are evaluated. | proved |
| C111 | Which file decides what in an adaptation | Spec: `Spec/Sources` (`Keeps`: per source, the adaptation with only the named fields replaced). The steps of both loads are compared (`Steps`): values read from unchanged files are equal; names, lines and items of maps and the airports need own lemmas (`Proofs/Sources`). | proved |
| C112 | Files that are put together | The file specifications of C02, C06, C07 and C08 are split at a line feed (`Proofs/Joined`): no line of theirs contains one, so it ends a line, by induction over the file. What is read follows from C04, C06, C07 and C10, C11. | proved |
| C113 | Threads that share an adaptation | `Model/SharedIndex`: a transition system with the `OnceLock` (empty, being initialised, set), each thread within its current call, and any schedule. An invariant over all executions; a measure that each step lowers; no state without a step while there is something to do. | proved |
| C114 | Every name in a parsed file stands in the file | Spec: `Spec/InOrder` (texts that stand one behind another in a text) and `Spec/Origin` (the texts of a value in the order of the format). Every token tree of the grammar is ordered: the texts of the children of a token stand in its text in order (`Proofs/InOrder`, by induction over `Out`). Each parser takes its texts from children from left to right (`Row`). ICAO tables, profiles, waypoint and airway files: from the exact formats (C02, C06, C07, C08), each entry being on a line of the file, and for legs C10. | proved |
| C115 | Lines and sections in another order | Spec: `Spec/Reordered` (blocks of lines, lists in the same order up to keys). Files are cut behind line feeds as in C112; what is read depends on the first or last entry of each key only (C06, C07), on all entries of a key (C04), or on the set of entries (C10, C11). For sections: C51 with the last section of each kind; for .asr, symbology and TopSky files (`Spec/ReorderedMore`): C43, C61, C62, C63, C64. | proved |
| C116 | The exact positions of fixes on airways | Spec: `Spec/AirwayPositions` (mentions of fixes, first position). Invariant beside that of C09: the graph holds each mentioned fix with the position of its first mention; by induction over the insertions. | proved |
| C117 | Every name in a loaded adaptation stands in one of its files | Spec: `Written` (the texts stand in the file of the profile in order). C74, C84, C116 say from which entries of the parsed files the parts of the adaptation are made; C114 says where the texts of these entries stand. | proved |
| C118 | Loading an adaptation always comes to an end | `diverge` is an explicit outcome of every loop of the model that has fuel. `Proofs/EndsCore`, `Ends`, `EndsAsr`, `EndsLoad`: a predicate that is closed under the constructions of the model; the parsers by a tactic that follows their structure on top of C01, borders by C23, joined airways by the number of lines that have not been visited, map names by the finite number of names taken. | proved |
| C119 | A file that was cut off is refused, or damages at most one entry | Spec/Cut defines what is left of a text: complete lines and the beginning of a line. The file specifications split at a line feed (Proofs/Joined), so the lists of definitions of the whole and of what is left begin with the same definitions, and the beginning of a line adds at most one definition (none if a line of data needs a line end). The meaning theorems C02, C06, C07, C10 and C11 turn this into statements about the returned maps and graphs. For ESE files it follows from C59. For JSON the reader finds the end of an object or array whatever follows it, and UTF-8 is a prefix code. | proved |

## Trusted base

* Lean's kernel. Axioms: `propext`, `Classical.choice`, `Quot.sound` at most; `#print axioms` of a theorem shows which. No axioms of our own, no `sorry`, no `native_decide`, no `bv_decide`. Facts about whole finite tables and counterexamples are evaluated by the kernel (`decide`, `decide +kernel`).
* That the model says what the code says. Each definition can be compared with the lines it cites.
* `tools/pest2lean.py`: the translation of the grammars. The output is committed and can be compared rule by rule.

### External code, modelled by what it is documented to do

* pest 2: sequence, ordered choice, repetition, predicates, implicit `WHITESPACE` and `COMMENT` between elements and iterations in rules that are not atomic, atomic, compound-atomic and silent rules, `SOI`, `EOI`, `PUSH` and `POP`, built-in character classes, and which pairs are produced. `Expr.dup x y` is a device of the translation: `e{n}` copies `e`. pest's limit on the number of calls is off by default and not modelled.
* `from_pest` (ICAO tables): the derived conversions read the children in order.
* Unicode categories (`LETTER`, `NUMBER`, `\d` of regex): an arbitrary class `UnicodeTables` with the right values on ASCII.
* `f64` and `f32`: reading is a partial function on texts that is defined on decimal numbers (`F64`); the arithmetic on degrees, minutes and seconds and the comparison of coordinates are parameters (`DmsArith`, `FloatOps`, `Quantize`). Comparison of coordinates with `==` is decidable equality, so NaN and signed zeros are not distinguished from what they compare as. For the text of coordinates (`Model/DmsFmt`) doubles are a sign and a rational magnitude, and every operation rounds with a function of which only the IEEE error bound, exactness on integers up to 2⁵³ and the sign are assumed (IEEE 754 rounding, `Model/Binary64`, is proved to satisfy this; overflow to infinity is not modelled); `fract`, `floor`, `abs` and the product with ±1 are exact, and `{:.3}` prints a nearest thousandth. In `Model/Double` a decimal numeral is read as its exact value, rounded; how `{}` prints a double is a parameter.
* `HashMap` and `HashSet`: association lists; where the order of iteration can be observed, theorems quantify over it.
* `geo`: `contains` does not reach beyond the bounding box (a hypothesis of C25, C26, C78 and C87 that C106 proves for the algorithm of `geo` 0.33, modelled after its published source, which is not in the sandbox; `robust::orient2d` is the exact sign of the determinant); `make_ccw_winding` reverses or keeps a ring; the geodesic destination is an arbitrary function.
* `std::sync::OnceLock` (C113): one initialiser runs while other callers of `get_or_init` wait; `get` does not wait. Memory is sequentially consistent: what is read from a set cell is what was written to it.
* `rstar`: the queries return what they are documented to return, in any order.
* `regex`: the patterns are written out as functions on lists of characters.
* `String::from_utf8` accepts exactly well-formed UTF-8 and `encoding_rs` decodes windows-1252 by the WHATWG table after looking for a byte order mark: `Model/Decode`.
* `str::to_uppercase`, `std::path` on Unix: functions or specifications in the modules that use them.
* Files: a function from paths to bytes that does not change while loading.
* `serde`: the derived code for the types of an adaptation is modelled by `Model/AdaptationJson` on JSON values, and the text of JSON by `Model/JsonText` (C103, C104); which numbers are in the range of `f64` (`Env.fits`) and how numbers are printed are parameters. Different finite numbers are written differently (`LawfulJsonFloat`); whether a number is read as it was written is a condition of C88, C89 and C104 (`Kept`), see C105. That the feature `float_roundtrip` of `serde_json` is off is read off Cargo.toml; the features that other crates turn on are not in Cargo.lock.
* Jsonnet: a parameter (`Env.evaluate`); C88 and C89 assume that it adds overlays of a small fragment as documented (`Evaluates`).
* Logging and the bevy derives are not modelled.

## What is modelled

| code | model |
|---|---|
| `src/pest/*.pest` | `Grammar/*`, all grammars |
| `src/isec.rs`, `src/airway.rs` (parser and graph), `src/prf.rs`, `src/icao_*.rs`, navdata airports, `src/asr.rs`, `src/ese.rs`, `src/sct.rs` (parser and writer), `src/topsky/*.rs`, `src/symbology.rs` | `Parse/*`, `Model/AirwayGraph`, `Model/PrfPaths`, `Model/EseAirspace`, `Model/Lines`, `Model/SctWrite`, `Model/Double`, `Model/Binary64`, `Model/Quantize` |
| `src/lib.rs`: `read_to_string`, `DegMinSec`, text of coordinates, two-key maps | `Model/Decode`, `Model/Dms`, `Model/DmsFmt`, `Model/Constraints` |
| `src/adaptation/mod.rs`, `locations`, `sct_items`, `sectors`, `sector_index`, `maps`, `colours`, `line_styles`, `symbols`, `settings` | `Model/Adaptation`, `Locations`, `SctItems`, `Polygon`, `Sectors`, `SectorIndex`, `SharedIndex`, `Maps`, `Colours`, `DefaultColours`, `Settings`, `Display`, `Constraints`, `Texts`, `Json`, `JsonText`, `JsonFloat`, `AdaptationJson`, `Overlays`, `Setup` |

Not modelled: the evaluation of jsonnet overlays and the decoding of TOML (parameters).

## Defects found in the code

* `contains_nav_element` looks at the first entry of a name only (C17).
* Designator lookup panics on decimal digits that are not ASCII (C53).
* A polygon of a map takes the colour of a later rule (C29).
* High airway names have the colour of high airway lines (C54).
* The VOR symbol falls back to the default of NDBs (C46).
* Constraint keys are not unique (C38).
* An ESE position without squawk range loses its first visibility point, and with four points the file is rejected (C56).
* An ESE file that does not end with a line end is rejected (C59).
* Numbers out of range panic the parsers: airway levels (C08), ASR numbers and window coordinates (C44), angles, headings, colours, levels, squawks (C50).
* Paths with two leading separators escape the directory of the profile (C49).
* Invalid UTF-8 that starts with a byte order mark is not decoded as windows-1252 (C48).
* Coordinates can be printed with 60.000 seconds or 60 minutes (C41).
* Of repeated sections only the last one survives (C51).
* Sector files: a comment behind the first line of a group of lines or behind the name of a region is taken for a part of the name or makes the file unreadable; the first line of a group must be followed by a line end (C60). A region with a second block of colours makes the file unreadable. A fix in a drawing is given twice, and the second occurrence is only compared as a prefix.
* A TopSky settings file that starts with an empty line or a blank, or that has one colour not given by numbers, is not read at all (C61).
* Numbers out of range panic the parser of symbology files (C62).
* TopSky map files: an `OVERRIDE_SCT_MAP` behind a map belongs to the map and has no effect; a position that mixes decimal degrees with degrees, minutes and seconds, a colour outside of 0 to 255, and degrees or minutes that are too large panic (C64). A comment behind a name becomes part of the name. The lists behind `AUP` and `NOTAM` are kept as one text.
* Sector files: a line from a point to the same point is read but not written, which makes the written file unreadable if the drawing has no other line; a file without `[INFO]` is written with empty lines that cannot be read; a drawing named `B B N048` is taken for a line of the drawing in front of it when it is written in front of `N048.00.00.000` (C69).
* Airways of the sector file are never drawn: the start of each part is taken for its end as well, and the first part of each line would be skipped in any case (C71).
* Drawings of any kind without a known colour are drawn in the colour of SIDs (C70).
* With TopSky installed but without the setting, history dots and vectors are on; without TopSky they are off (C73). `LabelSettings::default()` has font sizes of 3, a symbology file without items gives 10.5 (C72).
* A profile without one of the settings that name files panics instead of giving an error (C80).
* A number that is not finite, like `Maps_FontSize=inf` in the settings of TopSky, makes loading with overlays fail, even if they say nothing; a zoom that is not finite is silently lost (C88).
* What the crate writes for a `squawks.json` cannot be read by it: the names of the fields are in another case (C94).
* With CR LF line ends every value of a profile ends with a carriage return, and a line without a value is accepted; the name of a drawing in a sector file and the group of a free text in an ASR file can extend over line ends (C97).
* An unknown wake turbulence category is printed as `?`, which is not read; it is read from `-` (C100).
* The text of a constraint does not tell a climb level from a descent level, nor a departure from an arrival runway (C101).
* A two-key multimap is written with the first value of each pair of keys only (C102).
* Overlays change the last bit of coordinates that they do not mention, because `serde_json` without `float_roundtrip` does not always read a number as it was printed: E010.28.00.000 of the fixtures is one of them (C105).
* Whether a part of a sector that touches the rest of its border in one point is inside or outside of it depends on the order of a hash set; and where sectors of different owners lie over each other the order of a hash map decides whose sector is found, because a sector is named after whichever of its volumes comes first and the least name is found (C107).
* An airway can be followed to a fork but not from it, so a route and its reverse need not both be found; a segment from a fix to itself turns a route round, and then segments of other airways decide which route is returned (C108).
* Line styles of TopSky whose names differ only in case, and profiles that name two places for TopSky, are resolved by the order of a hash map; so are the names of sectors (C110).
