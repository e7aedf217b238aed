import Verif.Grammar.Base
/-!
# Grammar of ASR files

Generated by `tools/pest2lean.py` from `/repo/src/pest/asr.pest`.
Only rules reachable from the entry rules `asr` are present.
-/

namespace Verif.Peg.Asr

/-- The generated `Rule` (rules that emit tokens). -/
inductive Rule where
  | EOI
  | INTEGER
  | above
  | below
  | BOOL
  | disable_panning
  | disable_zooming
  | DECIMAL
  | display_rotation
  | value
  | display_type
  | display_type_geo_referenced
  | display_type_need_radar_content
  | history_dots
  | leader
  | sector_file
  | sector_title
  | show_leader
  | show_c
  | show_standby
  | simulation_mode
  | tag_family
  | turn_leader
  | deg
  | min
  | sec
  | hemi
  | sct_coord_part
  | coord_part
  | window_area
  | multivalue
  | plugin
  | centerline
  | ext_centerline
  | name
  | runway_desig
  | airport
  | runways
  | symbol
  | airports
  | frequency
  | ndbs
  | vors
  | fixes
  | line
  | low_airways
  | high_airways
  | sids
  | stars
  | multivalue_backslash
  | free_text
  | geo
  | exit
  | taxiway
  | terminal_taxiway
  | ground_network
  | regions
  | artcc_boundary
  | artcc_low_boundary
  | artcc_high_boundary
  | asr
  deriving DecidableEq, Repr

/-- /repo/src/pest/asr.pest:131: `NL = _{ NEWLINE+ }` -/
def NL : Expr Rule := (.plus .newline)

/-- /repo/src/pest/asr.pest:132: `COMMENT = _{ ";" ~ (!NEWLINE ~ ANY)* ~ NL }` -/
def COMMENT : Expr Rule := .quiet ((.str c!";") ⬝ (.star ((.not .newline) ⬝ .any)) ⬝ NL)

/-- /repo/src/pest/asr.pest:127: `INTEGER = @{ "-"? ~ ASCII_DIGIT+ }` -/
def INTEGER : Expr Rule :=
  .rule .INTEGER .atomic ((.opt (.str c!"-")) ⬝ (.plus (.cls isAsciiDigit)))

/-- /repo/src/pest/asr.pest:43: `above = { "ABOVE:" ~ INTEGER }` -/
def above : Expr Rule := .rule .above .normal ((.str c!"ABOVE:") ⬝ INTEGER)

/-- /repo/src/pest/asr.pest:44: `below = { "BELOW:" ~ INTEGER }` -/
def below : Expr Rule := .rule .below .normal ((.str c!"BELOW:") ⬝ INTEGER)

/-- /repo/src/pest/asr.pest:129: `BOOL = { "0" | "1" }` -/
def BOOL : Expr Rule := .rule .BOOL .normal ((.str c!"0") ∥ (.str c!"1"))

/-- /repo/src/pest/asr.pest:45: `disable_panning = { "DISABLEPANNING:" ~ BOOL }` -/
def disable_panning : Expr Rule :=
  .rule .disable_panning .normal ((.str c!"DISABLEPANNING:") ⬝ BOOL)

/-- /repo/src/pest/asr.pest:46: `disable_zooming = { "DISABLEZOOMING:" ~ BOOL }` -/
def disable_zooming : Expr Rule :=
  .rule .disable_zooming .normal ((.str c!"DISABLEZOOMING:") ⬝ BOOL)

/-- /repo/src/pest/asr.pest:128: `DECIMAL = @{ "-"? ~ ASCII_DIGIT+ ~ ("." ~ ASCII_DIGIT+)? }` -/
def DECIMAL : Expr Rule :=
  .rule .DECIMAL .atomic ((.opt (.str c!"-")) ⬝ (.plus (.cls isAsciiDigit)) ⬝ (.opt ((.str c!".") ⬝ (.plus (.cls isAsciiDigit)))))

/-- /repo/src/pest/asr.pest:47: `display_rotation = { "DisplayRotation:" ~ DECIMAL }` -/
def display_rotation : Expr Rule :=
  .rule .display_rotation .normal ((.str c!"DisplayRotation:") ⬝ DECIMAL)

/-- /repo/src/pest/asr.pest:118: `value = @{ (!NL ~ ANY)* }` -/
def value : Expr Rule := .rule .value .atomic (.star ((.not NL) ⬝ .any))

/-- /repo/src/pest/asr.pest:48: `display_type = { "DisplayTypeName:" ~ value }` -/
def display_type : Expr Rule := .rule .display_type .normal ((.str c!"DisplayTypeName:") ⬝ value)

/-- /repo/src/pest/asr.pest:49: `display_type_geo_referenced = { "DisplayTypeGeoReferenced:" ~ BOOL }` -/
def display_type_geo_referenced : Expr Rule :=
  .rule .display_type_geo_referenced .normal ((.str c!"DisplayTypeGeoReferenced:") ⬝ BOOL)

/-- /repo/src/pest/asr.pest:50: `display_type_need_radar_content = { "DisplayTypeNeedRadarContent:" ~ BOOL }` -/
def display_type_need_radar_content : Expr Rule :=
  .rule .display_type_need_radar_content .normal ((.str c!"DisplayTypeNeedRadarContent:") ⬝ BOOL)

/-- /repo/src/pest/asr.pest:51: `history_dots = { "HISTORY_DOTS:" ~ INTEGER }` -/
def history_dots : Expr Rule := .rule .history_dots .normal ((.str c!"HISTORY_DOTS:") ⬝ INTEGER)

/-- /repo/src/pest/asr.pest:52: `leader = { "LEADER:" ~ INTEGER }` -/
def leader : Expr Rule := .rule .leader .normal ((.str c!"LEADER:") ⬝ INTEGER)

/-- /repo/src/pest/asr.pest:53: `sector_file = { "SECTORFILE:" ~ value }` -/
def sector_file : Expr Rule := .rule .sector_file .normal ((.str c!"SECTORFILE:") ⬝ value)

/-- /repo/src/pest/asr.pest:54: `sector_title = { "SECTORTITLE:" ~ value }` -/
def sector_title : Expr Rule := .rule .sector_title .normal ((.str c!"SECTORTITLE:") ⬝ value)

/-- /repo/src/pest/asr.pest:55: `show_leader = { "SHOWLEADER:" ~ BOOL }` -/
def show_leader : Expr Rule := .rule .show_leader .normal ((.str c!"SHOWLEADER:") ⬝ BOOL)

/-- /repo/src/pest/asr.pest:56: `show_c = { "SHOWC:" ~ BOOL }` -/
def show_c : Expr Rule := .rule .show_c .normal ((.str c!"SHOWC:") ⬝ BOOL)

/-- /repo/src/pest/asr.pest:57: `show_standby = { "SHOWSB:" ~ BOOL }` -/
def show_standby : Expr Rule := .rule .show_standby .normal ((.str c!"SHOWSB:") ⬝ BOOL)

/-- /repo/src/pest/asr.pest:58: `simulation_mode = { "SIMULATION_MODE:" ~ INTEGER }` -/
def simulation_mode : Expr Rule :=
  .rule .simulation_mode .normal ((.str c!"SIMULATION_MODE:") ⬝ INTEGER)

/-- /repo/src/pest/asr.pest:59: `tag_family = { "TAGFAMILY:" ~ value }` -/
def tag_family : Expr Rule := .rule .tag_family .normal ((.str c!"TAGFAMILY:") ⬝ value)

/-- /repo/src/pest/asr.pest:60: `turn_leader = { "TURNLEADER:" ~ BOOL }` -/
def turn_leader : Expr Rule := .rule .turn_leader .normal ((.str c!"TURNLEADER:") ⬝ BOOL)

/-- /repo/src/pest/asr.pest:122: `deg = @{ ASCII_DIGIT+ }` -/
def deg : Expr Rule := .rule .deg .atomic (.plus (.cls isAsciiDigit))

/-- /repo/src/pest/asr.pest:123: `min = @{ ASCII_DIGIT+ }` -/
def min : Expr Rule := .rule .min .atomic (.plus (.cls isAsciiDigit))

/-- /repo/src/pest/asr.pest:124: `sec = @{ DECIMAL }` -/
def sec : Expr Rule := .rule .sec .atomic DECIMAL

/-- /repo/src/pest/asr.pest:125: `hemi = @{ "N" | "S" | "W" | "E" }` -/
def hemi : Expr Rule :=
  .rule .hemi .atomic ((.str c!"N") ∥ (.str c!"S") ∥ (.str c!"W") ∥ (.str c!"E"))

/-- /repo/src/pest/asr.pest:87: `sct_coord_part = ${ hemi ~ deg ~ "." ~ min ~ "." ~ sec }` -/
def sct_coord_part : Expr Rule :=
  .rule .sct_coord_part .compound (hemi ⬝ deg ⬝ (.str c!".") ⬝ min ⬝ (.str c!".") ⬝ sec)

/-- /repo/src/pest/asr.pest:86: `coord_part = { DECIMAL | sct_coord_part }` -/
def coord_part : Expr Rule := .rule .coord_part .normal (DECIMAL ∥ sct_coord_part)

/-- /repo/src/pest/asr.pest:85: `coordinate = _{ coord_part ~ ":" ~ coord_part }` -/
def coordinate : Expr Rule := coord_part ⬝ (.str c!":") ⬝ coord_part

/-- /repo/src/pest/asr.pest:61: `window_area = { "WINDOWAREA:" ~ coordinate ~ ":" ~ coordinate }` -/
def window_area : Expr Rule :=
  .rule .window_area .normal ((.str c!"WINDOWAREA:") ⬝ coordinate ⬝ (.str c!":") ⬝ coordinate)

/-- /repo/src/pest/asr.pest:119: `multivalue = @{ (!(NL|":") ~ ANY)* }` -/
def multivalue : Expr Rule := .rule .multivalue .atomic (.star ((.not (NL ∥ (.str c!":"))) ⬝ .any))

/-- /repo/src/pest/asr.pest:63: `plugin = { "PLUGIN:" ~ multivalue ~ ":" ~ multivalue ~ ":" ~ value }` -/
def plugin : Expr Rule :=
  .rule .plugin .normal ((.str c!"PLUGIN:") ⬝ multivalue ⬝ (.str c!":") ⬝ multivalue ⬝ (.str c!":") ⬝ value)

/-- /repo/src/pest/asr.pest:97: `centerline = { "centerline" }` -/
def centerline : Expr Rule := .rule .centerline .normal (.str c!"centerline")

/-- /repo/src/pest/asr.pest:98-105: `ext_centerline = { "extended centerline 1 left ticks" | "extended centerline 1 left vectoring" | "extended centerline 1 left base" | "extended centerline 1 right ticks" | "extended centerline 1 right vectoring" | "extended centerline 1 right base" | "extended centerline 1" | "extended centerline 2 left ticks" | "extended centerline 2 left vectoring" | "extended centerline 2 left base" | "extended centerline 2 right ticks" | "extended centerline 2 right vectoring" | "extended centerline 2 right base" | "extended centerline 2" }` -/
def ext_centerline : Expr Rule :=
  .rule .ext_centerline .normal ((.str c!"extended centerline 1 left ticks") ∥ (.str c!"extended centerline 1 left vectoring") ∥ (.str c!"extended centerline 1 left base") ∥ (.str c!"extended centerline 1 right ticks") ∥ (.str c!"extended centerline 1 right vectoring") ∥ (.str c!"extended centerline 1 right base") ∥ (.str c!"extended centerline 1") ∥ (.str c!"extended centerline 2 left ticks") ∥ (.str c!"extended centerline 2 left vectoring") ∥ (.str c!"extended centerline 2 left base") ∥ (.str c!"extended centerline 2 right ticks") ∥ (.str c!"extended centerline 2 right vectoring") ∥ (.str c!"extended centerline 2 right base") ∥ (.str c!"extended centerline 2"))

/-- /repo/src/pest/asr.pest:106: `name = { "name" }` -/
def name : Expr Rule := .rule .name .normal (.str c!"name")

/-- /repo/src/pest/asr.pest:92-94: `runway_type = _{ centerline | name | ext_centerline }` -/
def runway_type : Expr Rule := centerline ∥ name ∥ ext_centerline

/-- /repo/src/pest/asr.pest:116: `runway_desig = @{ ASCII_DIGIT{2} ~ ("L" | "R" | "C" | "W" | "G")? }` -/
def runway_desig : Expr Rule :=
  .rule .runway_desig .atomic (((.cls isAsciiDigit) ⬝ (.cls isAsciiDigit)) ⬝ (.opt ((.str c!"L") ∥ (.str c!"R") ∥ (.str c!"C") ∥ (.str c!"W") ∥ (.str c!"G"))))

/-- /repo/src/pest/asr.pest:115: `airport = @{ (!(" " ~ runway_desig) ~ ANY)* }` -/
def airport : Expr Rule :=
  .rule .airport .atomic (.star ((.not ((.str c!" ") ⬝ runway_desig)) ⬝ .any))

/-- /repo/src/pest/asr.pest:114: `runway = _{ airport ~ " " ~ runway_desig ~ "-" ~ runway_desig }` -/
def runway : Expr Rule := airport ⬝ (.str c!" ") ⬝ runway_desig ⬝ (.str c!"-") ⬝ runway_desig

/-- /repo/src/pest/asr.pest:65: `runways = { "Runways:" ~ runway ~ ":" ~ runway_type }` -/
def runways : Expr Rule :=
  .rule .runways .normal ((.str c!"Runways:") ⬝ runway ⬝ (.str c!":") ⬝ runway_type)

/-- /repo/src/pest/asr.pest:108: `symbol = { "symbol" }` -/
def symbol : Expr Rule := .rule .symbol .normal (.str c!"symbol")

/-- /repo/src/pest/asr.pest:90: `fix_type = _{ symbol | name }` -/
def fix_type : Expr Rule := symbol ∥ name

/-- /repo/src/pest/asr.pest:66: `airports = { "Airports:" ~ multivalue ~ ":" ~ fix_type }` -/
def airports : Expr Rule :=
  .rule .airports .normal ((.str c!"Airports:") ⬝ multivalue ⬝ (.str c!":") ⬝ fix_type)

/-- /repo/src/pest/asr.pest:107: `frequency = { "frequency" }` -/
def frequency : Expr Rule := .rule .frequency .normal (.str c!"frequency")

/-- /repo/src/pest/asr.pest:89: `navaid_type = _{ symbol | name | frequency }` -/
def navaid_type : Expr Rule := symbol ∥ name ∥ frequency

/-- /repo/src/pest/asr.pest:67: `ndbs = { "NDBs:" ~ multivalue ~ ":" ~ navaid_type }` -/
def ndbs : Expr Rule :=
  .rule .ndbs .normal ((.str c!"NDBs:") ⬝ multivalue ⬝ (.str c!":") ⬝ navaid_type)

/-- /repo/src/pest/asr.pest:68: `vors = { "VORs:" ~ multivalue ~ ":" ~ navaid_type }` -/
def vors : Expr Rule :=
  .rule .vors .normal ((.str c!"VORs:") ⬝ multivalue ⬝ (.str c!":") ⬝ navaid_type)

/-- /repo/src/pest/asr.pest:69: `fixes = { "Fixes:" ~ multivalue ~ ":" ~ fix_type }` -/
def fixes : Expr Rule :=
  .rule .fixes .normal ((.str c!"Fixes:") ⬝ multivalue ⬝ (.str c!":") ⬝ fix_type)

/-- /repo/src/pest/asr.pest:109: `line = { "line" }` -/
def line : Expr Rule := .rule .line .normal (.str c!"line")

/-- /repo/src/pest/asr.pest:91: `airway_type = _{ line | name }` -/
def airway_type : Expr Rule := line ∥ name

/-- /repo/src/pest/asr.pest:70: `low_airways = { "Low airways:" ~ multivalue ~ ":" ~ airway_type }` -/
def low_airways : Expr Rule :=
  .rule .low_airways .normal ((.str c!"Low airways:") ⬝ multivalue ⬝ (.str c!":") ⬝ airway_type)

/-- /repo/src/pest/asr.pest:71: `high_airways = { "High airways:" ~ multivalue ~ ":" ~ airway_type }` -/
def high_airways : Expr Rule :=
  .rule .high_airways .normal ((.str c!"High airways:") ⬝ multivalue ⬝ (.str c!":") ⬝ airway_type)

/-- /repo/src/pest/asr.pest:72: `sids = { "Sids:" ~ multivalue ~ ":" }` -/
def sids : Expr Rule := .rule .sids .normal ((.str c!"Sids:") ⬝ multivalue ⬝ (.str c!":"))

/-- /repo/src/pest/asr.pest:73: `stars = { "Stars:" ~ multivalue ~ ":" }` -/
def stars : Expr Rule := .rule .stars .normal ((.str c!"Stars:") ⬝ multivalue ⬝ (.str c!":"))

/-- /repo/src/pest/asr.pest:120: `multivalue_backslash = @{ (!"\\" ~ ANY)* }` -/
def multivalue_backslash : Expr Rule :=
  .rule .multivalue_backslash .atomic (.star ((.not (.str ['\\'])) ⬝ .any))

/-- /repo/src/pest/asr.pest:74: `free_text = { "Free Text:" ~ multivalue_backslash ~ "\\" ~ multivalue ~ ":freetext" }` -/
def free_text : Expr Rule :=
  .rule .free_text .normal ((.str c!"Free Text:") ⬝ multivalue_backslash ⬝ (.str ['\\']) ⬝ multivalue ⬝ (.str c!":freetext"))

/-- /repo/src/pest/asr.pest:75: `geo = { "Geo:" ~ multivalue ~ ":" }` -/
def geo : Expr Rule := .rule .geo .normal ((.str c!"Geo:") ⬝ multivalue ⬝ (.str c!":"))

/-- /repo/src/pest/asr.pest:110: `exit = { "exit" }` -/
def exit : Expr Rule := .rule .exit .normal (.str c!"exit")

/-- /repo/src/pest/asr.pest:111: `taxiway = { "taxiway" }` -/
def taxiway : Expr Rule := .rule .taxiway .normal (.str c!"taxiway")

/-- /repo/src/pest/asr.pest:112: `terminal_taxiway = { "terminal taxiway" }` -/
def terminal_taxiway : Expr Rule := .rule .terminal_taxiway .normal (.str c!"terminal taxiway")

/-- /repo/src/pest/asr.pest:95: `ground_network_type = _{ exit | taxiway | terminal_taxiway }` -/
def ground_network_type : Expr Rule := exit ∥ taxiway ∥ terminal_taxiway

/-- /repo/src/pest/asr.pest:76: `ground_network = { "Ground Network:" ~ multivalue ~ ":" ~ ground_network_type }` -/
def ground_network : Expr Rule :=
  .rule .ground_network .normal ((.str c!"Ground Network:") ⬝ multivalue ⬝ (.str c!":") ⬝ ground_network_type)

/-- /repo/src/pest/asr.pest:77: `regions = { "Regions:" ~ multivalue ~ ":polygon" }` -/
def regions : Expr Rule :=
  .rule .regions .normal ((.str c!"Regions:") ⬝ multivalue ⬝ (.str c!":polygon"))

/-- /repo/src/pest/asr.pest:78: `artcc_boundary = { "ARTCC boundary:" ~ multivalue ~ ":" }` -/
def artcc_boundary : Expr Rule :=
  .rule .artcc_boundary .normal ((.str c!"ARTCC boundary:") ⬝ multivalue ⬝ (.str c!":"))

/-- /repo/src/pest/asr.pest:79: `artcc_low_boundary = { "ARTCC low boundary:" ~ multivalue ~ ":" }` -/
def artcc_low_boundary : Expr Rule :=
  .rule .artcc_low_boundary .normal ((.str c!"ARTCC low boundary:") ⬝ multivalue ⬝ (.str c!":"))

/-- /repo/src/pest/asr.pest:80: `artcc_high_boundary = { "ARTCC high boundary:" ~ multivalue ~ ":" }` -/
def artcc_high_boundary : Expr Rule :=
  .rule .artcc_high_boundary .normal ((.str c!"ARTCC high boundary:") ⬝ multivalue ⬝ (.str c!":"))

/-- /repo/src/pest/asr.pest:3-41: `setting = _{ (above | below | disable_panning | disable_zooming | display_rotation | display_type | display_type_geo_referenced | display_type_need_radar_content | history_dots | leader | plugin | sector_file | sector_title | show_leader | show_c | show_standby | simulation_mode | tag_family | turn_leader | window_area | free_text | airports | fixes | ndbs | vors | low_airways | high_airways | sids | stars | geo | ground_network | regions | artcc_boundary | artcc_low_boundary | artcc_high_boundary | runways) ~ NL? }` -/
def setting : Expr Rule :=
  (above ∥ below ∥ disable_panning ∥ disable_zooming ∥ display_rotation ∥ display_type ∥ display_type_geo_referenced ∥ display_type_need_radar_content ∥ history_dots ∥ leader ∥ plugin ∥ sector_file ∥ sector_title ∥ show_leader ∥ show_c ∥ show_standby ∥ simulation_mode ∥ tag_family ∥ turn_leader ∥ window_area ∥ free_text ∥ airports ∥ fixes ∥ ndbs ∥ vors ∥ low_airways ∥ high_airways ∥ sids ∥ stars ∥ geo ∥ ground_network ∥ regions ∥ artcc_boundary ∥ artcc_low_boundary ∥ artcc_high_boundary ∥ runways) ⬝ (.opt NL)

/-- /repo/src/pest/asr.pest:1: `asr = { SOI ~ NL? ~ setting+ ~ EOI}` -/
def asr : Expr Rule := .rule .asr .normal (.soi ⬝ (.opt NL) ⬝ (.plus setting) ⬝ (.eoi .EOI))

/-- The implicit skip of this grammar: `COMMENT*` (/repo/src/pest/asr.pest:132). -/
def skip : St → Res Rule := skipOne COMMENT

end Verif.Peg.Asr
