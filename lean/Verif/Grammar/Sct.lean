import Verif.Grammar.Base
/-!
# Grammar of SCT files

Generated by `tools/pest2lean.py` from `/repo/src/pest/base.pest`, `/repo/src/pest/sct.pest`.
Only rules reachable from the entry rules `sct` are present.
-/

namespace Verif.Peg.Sct

/-- The generated `Rule` (rules that emit tokens). -/
inductive Rule where
  | EOI
  | decimal
  | deg
  | min
  | sec
  | hemi
  | sct_coord_part
  | sector_name
  | sector_callsign
  | pos_integer
  | colour_name
  | colour_definition
  | designator
  | info_section
  | sct_coordinate
  | frequency
  | location
  | vor_section
  | broken
  | ndb_section
  | fix_designator
  | fix
  | fixes_section
  | ctr_airspace
  | aerodrome
  | airport_section
  | runway_designator
  | runway
  | runway_section
  | airway_fix
  | coloured_line
  | non_coordinate_or_double_fix_name
  | coloured_lines
  | sid_section
  | star_section
  | artcc_high_section
  | artcc_section
  | artcc_low_section
  | airway
  | high_airway_section
  | low_airway_section
  | name
  | region
  | region_section
  | quote_delimited_text
  | label
  | labels_section
  | geo_section
  | sct
  deriving DecidableEq, Repr

/-- /repo/src/pest/sct.pest:95: `WHITESPACE = _{ " " | "\t" | "\u{feff}" }` -/
def WHITESPACE : Expr Rule := .quiet ((.str c!" ") ∥ (.str ['\t']) ∥ (.str [(Char.ofNat 0xfeff)]))

/-- /repo/src/pest/sct.pest:94: `COMMENT = _{ (";" | "//") ~ (!NEWLINE ~ ANY)* }` -/
def COMMENT : Expr Rule :=
  .quiet (((.str c!";") ∥ (.str c!"//")) ⬝ (.star ((.not .newline) ⬝ .any)))

/-- /repo/src/pest/base.pest:2: `NL = _{ ((" " | "\t")* ~ NEWLINE)+ }` -/
def NL : Expr Rule := Base.NL

/-- /repo/src/pest/base.pest:3: `decimal = @{ ("-" | "+")? ~ ((ASCII_DIGIT* ~ "." ~ ASCII_DIGIT+) | ASCII_DIGIT+) }` -/
def decimal : Expr Rule := .rule .decimal .atomic Base.decimal

/-- /repo/src/pest/base.pest:10: `deg = @{ ASCII_DIGIT+ }` -/
def deg : Expr Rule := .rule .deg .atomic Base.deg

/-- /repo/src/pest/base.pest:11: `min = @{ ASCII_DIGIT+ }` -/
def min : Expr Rule := .rule .min .atomic Base.min

/-- /repo/src/pest/base.pest:12: `sec = @{ decimal }` -/
def sec : Expr Rule := .rule .sec .atomic decimal

/-- /repo/src/pest/base.pest:13: `hemi = @{ "N" | "S" | "W" | "E" | "n" | "s" | "w" | "e" }` -/
def hemi : Expr Rule := .rule .hemi .atomic Base.hemi

/-- /repo/src/pest/base.pest:9: `sct_coord_part = ${ hemi ~ deg ~ "." ~ min ~ "." ~ sec }` -/
def sct_coord_part : Expr Rule :=
  .rule .sct_coord_part .compound (hemi ⬝ deg ⬝ (.str c!".") ⬝ min ⬝ (.str c!".") ⬝ sec)

/-- /repo/src/pest/sct.pest:53: `sector_name = @{ (LETTER | ASCII_DIGIT | "\t" | ' '..'~')+ }` -/
def sector_name [UnicodeTables] : Expr Rule :=
  .rule .sector_name .atomic (.plus ((.cls UnicodeTables.letter) ∥ (.cls isAsciiDigit) ∥ (.str ['\t']) ∥ (.cls (inRange ' ' '~'))))

/-- /repo/src/pest/sct.pest:54: `sector_callsign = @{ (ASCII_ALPHANUMERIC | "_")+ }` -/
def sector_callsign : Expr Rule :=
  .rule .sector_callsign .atomic (.plus ((.cls isAsciiAlphanumeric) ∥ (.str c!"_")))

/-- /repo/src/pest/base.pest:5: `pos_integer = @{ "+"? ~ ASCII_DIGIT+ }` -/
def pos_integer : Expr Rule := .rule .pos_integer .atomic Base.pos_integer

/-- /repo/src/pest/sct.pest:57: `colour_name = @{ (ASCII_ALPHANUMERIC | "-" | "_")+ }` -/
def colour_name : Expr Rule :=
  .rule .colour_name .atomic (.plus ((.cls isAsciiAlphanumeric) ∥ (.str c!"-") ∥ (.str c!"_")))

/-- /repo/src/pest/sct.pest:56: `colour_definition = { "#define" ~ colour_name ~ pos_integer }` -/
def colour_definition : Expr Rule :=
  .rule .colour_definition .normal ((.str c!"#define") ⬝ colour_name ⬝ pos_integer)

/-- /repo/src/pest/sct.pest:92: `designator = @{ (ASCII_ALPHA_UPPER | ASCII_DIGIT)+ }` -/
def designator : Expr Rule :=
  .rule .designator .atomic (.plus ((.cls isAsciiUpper) ∥ (.cls isAsciiDigit)))

/-- /repo/src/pest/sct.pest:23-36: `info_section = { "[INFO]" ~ (NL ~ colour_definition)* ~ NL ~ sector_name ~ NL ~ sector_callsign ~ NL ~ designator ~ NL ~ sct_coord_part ~ NL ~ sct_coord_part ~ NL ~ decimal ~ NL ~ decimal ~ NL ~ decimal ~ (NL ~ decimal)? ~ (NL ~ colour_definition)* }` -/
def info_section [UnicodeTables] : Expr Rule :=
  .rule .info_section .normal ((.str c!"[INFO]") ⬝ (.star (NL ⬝ colour_definition)) ⬝ NL ⬝ sector_name ⬝ NL ⬝ sector_callsign ⬝ NL ⬝ designator ⬝ NL ⬝ sct_coord_part ⬝ NL ⬝ sct_coord_part ⬝ NL ⬝ decimal ⬝ NL ⬝ decimal ⬝ NL ⬝ decimal ⬝ (.opt (NL ⬝ decimal)) ⬝ (.star (NL ⬝ colour_definition)))

/-- /repo/src/pest/sct.pest:79: `sct_coordinate = ${ sct_coord_part ~ WHITESPACE+~ sct_coord_part }` -/
def sct_coordinate : Expr Rule :=
  .rule .sct_coordinate .compound (sct_coord_part ⬝ (.plus WHITESPACE) ⬝ sct_coord_part)

/-- /repo/src/pest/sct.pest:80: `frequency = @{ decimal }` -/
def frequency : Expr Rule := .rule .frequency .atomic decimal

/-- /repo/src/pest/sct.pest:61: `location = { designator ~ frequency ~ sct_coordinate }` -/
def location : Expr Rule := .rule .location .normal (designator ⬝ frequency ⬝ sct_coordinate)

/-- /repo/src/pest/sct.pest:37: `vor_section = { "[VOR]" ~ (NL ~ (colour_definition | location))* }` -/
def vor_section : Expr Rule :=
  .rule .vor_section .normal ((.str c!"[VOR]") ⬝ (.star (NL ⬝ (colour_definition ∥ location))))

/-- /repo/src/pest/sct.pest:66: `broken = @{ !("[" | "#") ~ (!NL ~ ANY)* }` -/
def broken : Expr Rule :=
  .rule .broken .atomic ((.not ((.str c!"[") ∥ (.str c!"#"))) ⬝ (.star ((.not NL) ⬝ .any)))

/-- /repo/src/pest/sct.pest:38: `ndb_section = { "[NDB]" ~ (NL ~ (colour_definition | (location | broken)))* }` -/
def ndb_section : Expr Rule :=
  .rule .ndb_section .normal ((.str c!"[NDB]") ⬝ (.star (NL ⬝ (colour_definition ∥ (location ∥ broken)))))

/-- /repo/src/pest/sct.pest:91: `fix_designator = @{ (LETTER | ASCII_DIGIT | "!" | "(" | ")" | "/" | "-" | "_" | "." | "[" | "]")+ }` -/
def fix_designator [UnicodeTables] : Expr Rule :=
  .rule .fix_designator .atomic (.plus ((.cls UnicodeTables.letter) ∥ (.cls isAsciiDigit) ∥ (.str c!"!") ∥ (.str c!"(") ∥ (.str c!")") ∥ (.str c!"/") ∥ (.str c!"-") ∥ (.str c!"_") ∥ (.str c!".") ∥ (.str c!"[") ∥ (.str c!"]")))

/-- /repo/src/pest/sct.pest:59: `fix = { fix_designator ~ sct_coordinate }` -/
def fix [UnicodeTables] : Expr Rule := .rule .fix .normal (fix_designator ⬝ sct_coordinate)

/-- /repo/src/pest/sct.pest:39: `fixes_section = { "[FIXES]" ~ (NL ~ (colour_definition | (fix | broken)))* }` -/
def fixes_section [UnicodeTables] : Expr Rule :=
  .rule .fixes_section .normal ((.str c!"[FIXES]") ⬝ (.star (NL ⬝ (colour_definition ∥ (fix ∥ broken)))))

/-- /repo/src/pest/sct.pest:70: `ctr_airspace = { "A" | "B" | "C" | "D" | "E" | "F" | "G" }` -/
def ctr_airspace : Expr Rule :=
  .rule .ctr_airspace .normal ((.str c!"A") ∥ (.str c!"B") ∥ (.str c!"C") ∥ (.str c!"D") ∥ (.str c!"E") ∥ (.str c!"F") ∥ (.str c!"G"))

/-- /repo/src/pest/sct.pest:60: `aerodrome = { designator ~ (frequency | ".")? ~ sct_coordinate ~ ctr_airspace }` -/
def aerodrome : Expr Rule :=
  .rule .aerodrome .normal (designator ⬝ (.opt (frequency ∥ (.str c!"."))) ⬝ sct_coordinate ⬝ ctr_airspace)

/-- /repo/src/pest/sct.pest:40: `airport_section = { "[AIRPORT]" ~ (NL ~ (colour_definition | aerodrome))* }` -/
def airport_section : Expr Rule :=
  .rule .airport_section .normal ((.str c!"[AIRPORT]") ⬝ (.star (NL ⬝ (colour_definition ∥ aerodrome))))

/-- /repo/src/pest/base.pest:16: `runway_designator = @{ ASCII_DIGIT{2} ~ ("L" | "C" | "R" | "G")? }` -/
def runway_designator : Expr Rule := .rule .runway_designator .atomic Base.runway_designator

/-- /repo/src/pest/sct.pest:62: `runway = { runway_designator ~ runway_designator ~ pos_integer ~ pos_integer ~ sct_coordinate ~ sct_coordinate ~ designator ~ (!NEWLINE ~ ANY)* }` -/
def runway : Expr Rule :=
  .rule .runway .normal (runway_designator ⬝ runway_designator ⬝ pos_integer ⬝ pos_integer ⬝ sct_coordinate ⬝ sct_coordinate ⬝ designator ⬝ (.star ((.not .newline) ⬝ .any)))

/-- /repo/src/pest/sct.pest:41: `runway_section = { "[RUNWAY]" ~ (NL ~ (colour_definition | runway))* }` -/
def runway_section : Expr Rule :=
  .rule .runway_section .normal ((.str c!"[RUNWAY]") ⬝ (.star (NL ⬝ (colour_definition ∥ runway))))

/-- /repo/src/pest/sct.pest:78: `airway_fix = ${ PUSH(designator) ~ WHITESPACE+ ~ POP }` -/
def airway_fix : Expr Rule := .rule .airway_fix .compound (.dup designator (.plus WHITESPACE))

/-- /repo/src/pest/sct.pest:73: `coloured_line = { (sct_coordinate | airway_fix) ~ (sct_coordinate | airway_fix) ~ colour_name? }` -/
def coloured_line : Expr Rule :=
  .rule .coloured_line .normal ((sct_coordinate ∥ airway_fix) ⬝ (sct_coordinate ∥ airway_fix) ⬝ (.opt colour_name))

/-- /repo/src/pest/sct.pest:84-90: `non_coordinate_or_double_fix_name = ${ (!( ((WHITESPACE+ ~ sct_coordinate){2} ~ (WHITESPACE+ ~ colour_name)? ~ NL) | ((WHITESPACE+ ~ airway_fix){2} ~ (WHITESPACE+ ~ colour_name)? ~ NL) | "[" | "]" ) ~ ANY)+ }` -/
def non_coordinate_or_double_fix_name : Expr Rule :=
  .rule .non_coordinate_or_double_fix_name .compound (.plus ((.not (((((.plus WHITESPACE) ⬝ sct_coordinate) ⬝ ((.plus WHITESPACE) ⬝ sct_coordinate)) ⬝ (.opt ((.plus WHITESPACE) ⬝ colour_name)) ⬝ NL) ∥ ((((.plus WHITESPACE) ⬝ airway_fix) ⬝ ((.plus WHITESPACE) ⬝ airway_fix)) ⬝ (.opt ((.plus WHITESPACE) ⬝ colour_name)) ⬝ NL) ∥ (.str c!"[") ∥ (.str c!"]"))) ⬝ .any))

/-- /repo/src/pest/sct.pest:72: `coloured_lines = { non_coordinate_or_double_fix_name ~ coloured_line ~ (NL ~ coloured_line)* }` -/
def coloured_lines : Expr Rule :=
  .rule .coloured_lines .normal (non_coordinate_or_double_fix_name ⬝ coloured_line ⬝ (.star (NL ⬝ coloured_line)))

/-- /repo/src/pest/sct.pest:42: `sid_section = { "[SID]" ~ (NL ~ (colour_definition | coloured_lines))* }` -/
def sid_section : Expr Rule :=
  .rule .sid_section .normal ((.str c!"[SID]") ⬝ (.star (NL ⬝ (colour_definition ∥ coloured_lines))))

/-- /repo/src/pest/sct.pest:43: `star_section = { "[STAR]" ~ (NL ~ (colour_definition | coloured_lines))* }` -/
def star_section : Expr Rule :=
  .rule .star_section .normal ((.str c!"[STAR]") ⬝ (.star (NL ⬝ (colour_definition ∥ coloured_lines))))

/-- /repo/src/pest/sct.pest:44: `artcc_high_section = { "[ARTCC HIGH]" ~ (NL ~ (colour_definition | coloured_lines))* }` -/
def artcc_high_section : Expr Rule :=
  .rule .artcc_high_section .normal ((.str c!"[ARTCC HIGH]") ⬝ (.star (NL ⬝ (colour_definition ∥ coloured_lines))))

/-- /repo/src/pest/sct.pest:45: `artcc_section = { "[ARTCC]" ~ (NL ~ (colour_definition | coloured_lines))* }` -/
def artcc_section : Expr Rule :=
  .rule .artcc_section .normal ((.str c!"[ARTCC]") ⬝ (.star (NL ⬝ (colour_definition ∥ coloured_lines))))

/-- /repo/src/pest/sct.pest:46: `artcc_low_section = { "[ARTCC LOW]" ~ (NL ~ (colour_definition | coloured_lines))* }` -/
def artcc_low_section : Expr Rule :=
  .rule .artcc_low_section .normal ((.str c!"[ARTCC LOW]") ⬝ (.star (NL ⬝ (colour_definition ∥ coloured_lines))))

/-- /repo/src/pest/sct.pest:63: `airway = { fix_designator ~ (sct_coordinate | airway_fix) ~ (sct_coordinate | airway_fix) }` -/
def airway [UnicodeTables] : Expr Rule :=
  .rule .airway .normal (fix_designator ⬝ (sct_coordinate ∥ airway_fix) ⬝ (sct_coordinate ∥ airway_fix))

/-- /repo/src/pest/sct.pest:47: `high_airway_section = { "[HIGH AIRWAY]" ~ (NL ~ (colour_definition | airway))* }` -/
def high_airway_section [UnicodeTables] : Expr Rule :=
  .rule .high_airway_section .normal ((.str c!"[HIGH AIRWAY]") ⬝ (.star (NL ⬝ (colour_definition ∥ airway))))

/-- /repo/src/pest/sct.pest:48: `low_airway_section = { "[LOW AIRWAY]" ~ (NL ~ (colour_definition | airway))* }` -/
def low_airway_section [UnicodeTables] : Expr Rule :=
  .rule .low_airway_section .normal ((.str c!"[LOW AIRWAY]") ⬝ (.star (NL ⬝ (colour_definition ∥ airway))))

/-- /repo/src/pest/sct.pest:82: `name = @{ (!(NL | "\t" | "[") ~ ANY)* }` -/
def name : Expr Rule :=
  .rule .name .atomic (.star ((.not (NL ∥ (.str ['\t']) ∥ (.str c!"["))) ⬝ .any))

/-- /repo/src/pest/sct.pest:68: `region = { "REGIONNAME"? ~ name ~ NL? ~ colour_name ~ sct_coordinate ~ (NL ~ sct_coordinate)* }` -/
def region : Expr Rule :=
  .rule .region .normal ((.opt (.str c!"REGIONNAME")) ⬝ name ⬝ (.opt NL) ⬝ colour_name ⬝ sct_coordinate ⬝ (.star (NL ⬝ sct_coordinate)))

/-- /repo/src/pest/sct.pest:49: `region_section = { ("[Regions]" | "[REGIONS]") ~ (NL ~ (colour_definition | region))* }` -/
def region_section : Expr Rule :=
  .rule .region_section .normal (((.str c!"[Regions]") ∥ (.str c!"[REGIONS]")) ⬝ (.star (NL ⬝ (colour_definition ∥ region))))

/-- /repo/src/pest/base.pest:23: `quote_delimited_text = @{ (!(NL | "\"") ~ ANY)* }` -/
def quote_delimited_text : Expr Rule :=
  .rule .quote_delimited_text .atomic Base.quote_delimited_text

/-- /repo/src/pest/base.pest:18: `quoted_string = _{ "\"" ~ quote_delimited_text ~ "\"" }` -/
def quoted_string : Expr Rule := (.str ['"']) ⬝ quote_delimited_text ⬝ (.str ['"'])

/-- /repo/src/pest/sct.pest:75: `label = { quoted_string ~ sct_coordinate ~ colour_name }` -/
def label : Expr Rule := .rule .label .normal (quoted_string ⬝ sct_coordinate ⬝ colour_name)

/-- /repo/src/pest/sct.pest:50: `labels_section = { "[LABELS]" ~ (NL ~ (colour_definition | label))* }` -/
def labels_section : Expr Rule :=
  .rule .labels_section .normal ((.str c!"[LABELS]") ⬝ (.star (NL ⬝ (colour_definition ∥ label))))

/-- /repo/src/pest/sct.pest:51: `geo_section = { "[GEO]" ~ (NL ~ (colour_definition | coloured_lines))* }` -/
def geo_section : Expr Rule :=
  .rule .geo_section .normal ((.str c!"[GEO]") ⬝ (.star (NL ⬝ (colour_definition ∥ coloured_lines))))

/-- /repo/src/pest/sct.pest:3-21: `section = _{ info_section | vor_section | ndb_section | fixes_section | airport_section | runway_section | sid_section | star_section | artcc_high_section | artcc_section | artcc_low_section | high_airway_section | low_airway_section | region_section | labels_section | geo_section | colour_definition }` -/
def section_ [UnicodeTables] : Expr Rule :=
  info_section ∥ vor_section ∥ ndb_section ∥ fixes_section ∥ airport_section ∥ runway_section ∥ sid_section ∥ star_section ∥ artcc_high_section ∥ artcc_section ∥ artcc_low_section ∥ high_airway_section ∥ low_airway_section ∥ region_section ∥ labels_section ∥ geo_section ∥ colour_definition

/-- /repo/src/pest/sct.pest:1: `sct = { SOI ~ section? ~ (NL ~ section)* ~ NL? ~ EOI }` -/
def sct [UnicodeTables] : Expr Rule :=
  .rule .sct .normal (.soi ⬝ (.opt section_) ⬝ (.star (NL ⬝ section_)) ⬝ (.opt NL) ⬝ (.eoi .EOI))

/-- The implicit skip of this grammar: `WHITESPACE* ~ (COMMENT ~ WHITESPACE*)*` (/repo/src/pest/sct.pest:95; /repo/src/pest/sct.pest:94). -/
def skip : St → Res Rule := skipBoth WHITESPACE COMMENT

end Verif.Peg.Sct
