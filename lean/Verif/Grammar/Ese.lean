import Verif.Grammar.Base
/-!
# Grammar of ESE files

Generated by `tools/pest2lean.py` from `/repo/src/pest/base.pest`, `/repo/src/pest/ese.pest`.
Only rules reachable from the entry rules `ese` are present.
-/

namespace Verif.Peg.Ese

/-- The generated `Rule` (rules that emit tokens). -/
inductive Rule where
  | EOI
  | decimal
  | deg
  | min
  | sec
  | hemi
  | sct_coord_part
  | coord_part
  | coordinate
  | colon_delimited_text
  | integer
  | squawk_range
  | frequency
  | position
  | position_section
  | wildcard
  | designator
  | cop
  | fir_cop
  | display
  | sectorline
  | fix_designator
  | circle_sectorline
  | display_sectorline
  | owner
  | altowner
  | border
  | guest
  | active
  | depapt
  | arrapt
  | sector
  | msaw
  | airspace_section
  | runway_designator
  | route
  | none
  | sid
  | star
  | sidsstars_section
  | broken
  | header_name
  | unparsed_section
  | ese
  deriving DecidableEq, Repr

/-- /repo/src/pest/ese.pest:91: `WHITESPACE = _{ " " | "\t" }` -/
def WHITESPACE : Expr Rule := .quiet ((.str c!" ") ∥ (.str ['\t']))

/-- /repo/src/pest/ese.pest:90: `COMMENT = _{ ";" ~ (!NEWLINE ~ ANY)* }` -/
def COMMENT : Expr Rule := .quiet ((.str c!";") ⬝ (.star ((.not .newline) ⬝ .any)))

/-- /repo/src/pest/base.pest:2: `NL = _{ ((" " | "\t")* ~ NEWLINE)+ }` -/
def NL : Expr Rule := Base.NL

/-- /repo/src/pest/base.pest:3: `decimal = @{ ("-" | "+")? ~ ((ASCII_DIGIT* ~ "." ~ ASCII_DIGIT+) | ASCII_DIGIT+) }` -/
def decimal : Expr Rule := .rule .decimal .atomic Base.decimal

/-- /repo/src/pest/base.pest:10: `deg = @{ ASCII_DIGIT+ }` -/
def deg : Expr Rule := .rule .deg .atomic Base.deg

/-- /repo/src/pest/base.pest:11: `min = @{ ASCII_DIGIT+ }` -/
def min : Expr Rule := .rule .min .atomic Base.min

/-- /repo/src/pest/base.pest:12: `sec = @{ decimal }` -/
def sec : Expr Rule := .rule .sec .atomic decimal

/-- /repo/src/pest/base.pest:13: `hemi = @{ "N" | "S" | "W" | "E" | "n" | "s" | "w" | "e" }` -/
def hemi : Expr Rule := .rule .hemi .atomic Base.hemi

/-- /repo/src/pest/base.pest:9: `sct_coord_part = ${ hemi ~ deg ~ "." ~ min ~ "." ~ sec }` -/
def sct_coord_part : Expr Rule :=
  .rule .sct_coord_part .compound (hemi ⬝ deg ⬝ (.str c!".") ⬝ min ⬝ (.str c!".") ⬝ sec)

/-- /repo/src/pest/base.pest:8: `coord_part = { sct_coord_part | decimal }` -/
def coord_part : Expr Rule := .rule .coord_part .normal (sct_coord_part ∥ decimal)

/-- /repo/src/pest/base.pest:7: `coordinate = { coord_part ~ ":" ~ coord_part }` -/
def coordinate : Expr Rule := .rule .coordinate .normal (coord_part ⬝ (.str c!":") ⬝ coord_part)

/-- /repo/src/pest/base.pest:20: `colon_delimited_text = @{ (!(NL | ":") ~ ANY)* }` -/
def colon_delimited_text : Expr Rule :=
  .rule .colon_delimited_text .atomic Base.colon_delimited_text

/-- /repo/src/pest/base.pest:4: `integer = @{ ("-" | "+")? ~ ASCII_DIGIT+ }` -/
def integer : Expr Rule := .rule .integer .atomic Base.integer

/-- /repo/src/pest/ese.pest:24: `squawk_range = { integer ~ ":" ~ integer }` -/
def squawk_range : Expr Rule := .rule .squawk_range .normal (integer ⬝ (.str c!":") ⬝ integer)

/-- /repo/src/pest/ese.pest:79: `frequency = @{ decimal }` -/
def frequency : Expr Rule := .rule .frequency .atomic decimal

/-- /repo/src/pest/ese.pest:19-23: `position = { colon_delimited_text ~ ":" ~ colon_delimited_text ~ ":" ~ frequency ~ ":" ~ colon_delimited_text ~ ":" ~ colon_delimited_text ~ ":" ~ colon_delimited_text ~ ":" ~ colon_delimited_text ~ ":" ~ colon_delimited_text ~ ":" ~ colon_delimited_text ~ ":" ~ squawk_range? ~ ":"? ~ coordinate? ~ (":" ~ coordinate)? ~ (":" ~ coordinate)? ~ (":" ~ coordinate)? }` -/
def position : Expr Rule :=
  .rule .position .normal (colon_delimited_text ⬝ (.str c!":") ⬝ colon_delimited_text ⬝ (.str c!":") ⬝ frequency ⬝ (.str c!":") ⬝ colon_delimited_text ⬝ (.str c!":") ⬝ colon_delimited_text ⬝ (.str c!":") ⬝ colon_delimited_text ⬝ (.str c!":") ⬝ colon_delimited_text ⬝ (.str c!":") ⬝ colon_delimited_text ⬝ (.str c!":") ⬝ colon_delimited_text ⬝ (.str c!":") ⬝ (.opt squawk_range) ⬝ (.opt (.str c!":")) ⬝ (.opt coordinate) ⬝ (.opt ((.str c!":") ⬝ coordinate)) ⬝ (.opt ((.str c!":") ⬝ coordinate)) ⬝ (.opt ((.str c!":") ⬝ coordinate)))

/-- /repo/src/pest/ese.pest:14: `position_section = { "[POSITIONS]" ~ NL ~ (position ~ NL)* }` -/
def position_section : Expr Rule :=
  .rule .position_section .normal ((.str c!"[POSITIONS]") ⬝ NL ⬝ (.star (position ⬝ NL)))

/-- /repo/src/pest/ese.pest:73: `wildcard = { "*" }` -/
def wildcard : Expr Rule := .rule .wildcard .normal (.str c!"*")

/-- /repo/src/pest/ese.pest:34: `prev = _{ wildcard | colon_delimited_text }` -/
def prev : Expr Rule := wildcard ∥ colon_delimited_text

/-- /repo/src/pest/ese.pest:84: `designator = @{ (ASCII_ALPHA_UPPER | ASCII_DIGIT | "-")+ }` -/
def designator : Expr Rule :=
  .rule .designator .atomic (.plus ((.cls isAsciiUpper) ∥ (.cls isAsciiDigit) ∥ (.str c!"-")))

/-- /repo/src/pest/ese.pest:35: `dep_rwy = _{ wildcard | designator }` -/
def dep_rwy : Expr Rule := wildcard ∥ designator

/-- /repo/src/pest/ese.pest:36: `after = _{ wildcard | colon_delimited_text }` -/
def after : Expr Rule := wildcard ∥ colon_delimited_text

/-- /repo/src/pest/ese.pest:37: `arr_rwy = _{ wildcard | designator }` -/
def arr_rwy : Expr Rule := wildcard ∥ designator

/-- /repo/src/pest/ese.pest:38: `cop_def = _{ wildcard | colon_delimited_text }` -/
def cop_def : Expr Rule := wildcard ∥ colon_delimited_text

/-- /repo/src/pest/ese.pest:39: `sctx = _{ colon_delimited_text }` -/
def sctx : Expr Rule := colon_delimited_text

/-- /repo/src/pest/ese.pest:40: `sctn = _{ colon_delimited_text }` -/
def sctn : Expr Rule := colon_delimited_text

/-- /repo/src/pest/ese.pest:41: `alt_clb = _{ wildcard | integer }` -/
def alt_clb : Expr Rule := wildcard ∥ integer

/-- /repo/src/pest/ese.pest:42: `alt_des = _{ wildcard | integer }` -/
def alt_des : Expr Rule := wildcard ∥ integer

/-- /repo/src/pest/ese.pest:43: `cop_description = _{ colon_delimited_text }` -/
def cop_description : Expr Rule := colon_delimited_text

/-- /repo/src/pest/ese.pest:26-29: `cop = { "COPX:" ~ prev ~ ":" ~ dep_rwy ~ ":" ~ cop_def ~ ":" ~ after ~ ":" ~ arr_rwy ~ ":" ~ sctx ~ ":" ~ sctn ~ ":" ~ alt_clb ~ ":" ~ alt_des ~ ":" ~ cop_description ~ NL }` -/
def cop : Expr Rule :=
  .rule .cop .normal ((.str c!"COPX:") ⬝ prev ⬝ (.str c!":") ⬝ dep_rwy ⬝ (.str c!":") ⬝ cop_def ⬝ (.str c!":") ⬝ after ⬝ (.str c!":") ⬝ arr_rwy ⬝ (.str c!":") ⬝ sctx ⬝ (.str c!":") ⬝ sctn ⬝ (.str c!":") ⬝ alt_clb ⬝ (.str c!":") ⬝ alt_des ⬝ (.str c!":") ⬝ cop_description ⬝ NL)

/-- /repo/src/pest/ese.pest:30-33: `fir_cop = { "FIR_COPX:" ~ prev ~ ":" ~ dep_rwy ~ ":" ~ cop_def ~ ":" ~ after ~ ":" ~ arr_rwy ~ ":" ~ sctx ~ ":" ~ sctn ~ ":" ~ alt_clb ~ ":" ~ alt_des ~ ":" ~ cop_description ~ NL }` -/
def fir_cop : Expr Rule :=
  .rule .fir_cop .normal ((.str c!"FIR_COPX:") ⬝ prev ⬝ (.str c!":") ⬝ dep_rwy ⬝ (.str c!":") ⬝ cop_def ⬝ (.str c!":") ⬝ after ⬝ (.str c!":") ⬝ arr_rwy ⬝ (.str c!":") ⬝ sctx ⬝ (.str c!":") ⬝ sctn ⬝ (.str c!":") ⬝ alt_clb ⬝ (.str c!":") ⬝ alt_des ⬝ (.str c!":") ⬝ cop_description ⬝ NL)

/-- /repo/src/pest/ese.pest:46: `display = { "DISPLAY:" ~ colon_delimited_text ~ ":" ~ colon_delimited_text ~ ":" ~ colon_delimited_text }` -/
def display : Expr Rule :=
  .rule .display .normal ((.str c!"DISPLAY:") ⬝ colon_delimited_text ⬝ (.str c!":") ⬝ colon_delimited_text ⬝ (.str c!":") ⬝ colon_delimited_text)

/-- /repo/src/pest/ese.pest:77: `coord = _{ "COORD:" ~ coordinate }` -/
def coord : Expr Rule := (.str c!"COORD:") ⬝ coordinate

/-- /repo/src/pest/ese.pest:45: `sectorline = { "SECTORLINE:" ~ colon_delimited_text ~ NL ~ ((display | coord) ~ NL)* }` -/
def sectorline : Expr Rule :=
  .rule .sectorline .normal ((.str c!"SECTORLINE:") ⬝ colon_delimited_text ⬝ NL ⬝ (.star ((display ∥ coord) ⬝ NL)))

/-- /repo/src/pest/ese.pest:83: `fix_designator = @{ (LETTER | ASCII_DIGIT | "(" | ")" | "/" | "-" | "_" | ".")+ }` -/
def fix_designator [UnicodeTables] : Expr Rule :=
  .rule .fix_designator .atomic (.plus ((.cls UnicodeTables.letter) ∥ (.cls isAsciiDigit) ∥ (.str c!"(") ∥ (.str c!")") ∥ (.str c!"/") ∥ (.str c!"-") ∥ (.str c!"_") ∥ (.str c!".")))

/-- /repo/src/pest/ese.pest:48-51: `circle_sectorline = { "CIRCLE_SECTORLINE:" ~ colon_delimited_text ~ ":" ~ fix_designator ~ ":" ~ decimal ~ NL ~ (display ~ NL)* }` -/
def circle_sectorline [UnicodeTables] : Expr Rule :=
  .rule .circle_sectorline .normal ((.str c!"CIRCLE_SECTORLINE:") ⬝ colon_delimited_text ⬝ (.str c!":") ⬝ fix_designator ⬝ (.str c!":") ⬝ decimal ⬝ NL ⬝ (.star (display ⬝ NL)))

/-- /repo/src/pest/ese.pest:53: `display_sectorline = { "DISPLAY_SECTORLINE:" ~ colon_delimited_text ~ ":" ~ colon_delimited_text ~ ":" ~ colon_delimited_text ~ ":" ~ colon_delimited_text ~ NL }` -/
def display_sectorline : Expr Rule :=
  .rule .display_sectorline .normal ((.str c!"DISPLAY_SECTORLINE:") ⬝ colon_delimited_text ⬝ (.str c!":") ⬝ colon_delimited_text ⬝ (.str c!":") ⬝ colon_delimited_text ⬝ (.str c!":") ⬝ colon_delimited_text ⬝ NL)

/-- /repo/src/pest/ese.pest:57: `owner = { "OWNER" ~ (":" ~ colon_delimited_text)+ }` -/
def owner : Expr Rule :=
  .rule .owner .normal ((.str c!"OWNER") ⬝ (.plus ((.str c!":") ⬝ colon_delimited_text)))

/-- /repo/src/pest/ese.pest:58: `altowner = { "ALTOWNER:" ~ colon_delimited_text ~ (":" ~ colon_delimited_text)+ }` -/
def altowner : Expr Rule :=
  .rule .altowner .normal ((.str c!"ALTOWNER:") ⬝ colon_delimited_text ⬝ (.plus ((.str c!":") ⬝ colon_delimited_text)))

/-- /repo/src/pest/ese.pest:59: `border = { "BORDER" ~ (":" ~ colon_delimited_text)+ }` -/
def border : Expr Rule :=
  .rule .border .normal ((.str c!"BORDER") ⬝ (.plus ((.str c!":") ⬝ colon_delimited_text)))

/-- /repo/src/pest/ese.pest:64: `sct = _{ colon_delimited_text }` -/
def sct : Expr Rule := colon_delimited_text

/-- /repo/src/pest/ese.pest:65: `adep = _{ wildcard | designator }` -/
def adep : Expr Rule := wildcard ∥ designator

/-- /repo/src/pest/ese.pest:66: `ades = _{ wildcard | designator }` -/
def ades : Expr Rule := wildcard ∥ designator

/-- /repo/src/pest/ese.pest:60: `guest = { "GUEST" ~ ":" ~ sct ~ ":" ~ adep ~ ":" ~ ades }` -/
def guest : Expr Rule :=
  .rule .guest .normal ((.str c!"GUEST") ⬝ (.str c!":") ⬝ sct ⬝ (.str c!":") ⬝ adep ⬝ (.str c!":") ⬝ ades)

/-- /repo/src/pest/ese.pest:61: `active = { "ACTIVE:" ~ designator ~ ":" ~ designator }` -/
def active : Expr Rule :=
  .rule .active .normal ((.str c!"ACTIVE:") ⬝ designator ⬝ (.str c!":") ⬝ designator)

/-- /repo/src/pest/ese.pest:62: `depapt = { "DEPAPT" ~ (":" ~ designator)+ }` -/
def depapt : Expr Rule :=
  .rule .depapt .normal ((.str c!"DEPAPT") ⬝ (.plus ((.str c!":") ⬝ designator)))

/-- /repo/src/pest/ese.pest:63: `arrapt = { "ARRAPT" ~ (":" ~ designator)+ }` -/
def arrapt : Expr Rule :=
  .rule .arrapt .normal ((.str c!"ARRAPT") ⬝ (.plus ((.str c!":") ⬝ designator)))

/-- /repo/src/pest/ese.pest:56: `sector_subsettings = _{ owner | altowner | border | guest | active | depapt | arrapt }` -/
def sector_subsettings : Expr Rule := owner ∥ altowner ∥ border ∥ guest ∥ active ∥ depapt ∥ arrapt

/-- /repo/src/pest/ese.pest:55: `sector = { "SECTOR:" ~ colon_delimited_text ~ ":" ~ integer ~ ":" ~ integer ~ NL ~ (sector_subsettings ~ NL)* }` -/
def sector : Expr Rule :=
  .rule .sector .normal ((.str c!"SECTOR:") ⬝ colon_delimited_text ⬝ (.str c!":") ⬝ integer ⬝ (.str c!":") ⬝ integer ⬝ NL ⬝ (.star (sector_subsettings ⬝ NL)))

/-- /repo/src/pest/ese.pest:68: `msaw = { "MSAW:" ~ colon_delimited_text ~ ":" ~ integer ~ NL ~ (coord ~ NL)+ }` -/
def msaw : Expr Rule :=
  .rule .msaw .normal ((.str c!"MSAW:") ⬝ colon_delimited_text ⬝ (.str c!":") ⬝ integer ⬝ NL ⬝ (.plus (coord ⬝ NL)))

/-- /repo/src/pest/ese.pest:15: `airspace_section = { "[AIRSPACE]" ~ NL ~ (sectorline | circle_sectorline | display_sectorline | sector | cop | fir_cop | msaw)* }` -/
def airspace_section [UnicodeTables] : Expr Rule :=
  .rule .airspace_section .normal ((.str c!"[AIRSPACE]") ⬝ NL ⬝ (.star (sectorline ∥ circle_sectorline ∥ display_sectorline ∥ sector ∥ cop ∥ fir_cop ∥ msaw)))

/-- /repo/src/pest/base.pest:16: `runway_designator = @{ ASCII_DIGIT{2} ~ ("L" | "C" | "R" | "G")? }` -/
def runway_designator : Expr Rule := .rule .runway_designator .atomic Base.runway_designator

/-- /repo/src/pest/ese.pest:82: `route = { designator* }` -/
def route : Expr Rule := .rule .route .normal (.star designator)

/-- /repo/src/pest/ese.pest:86: `none = { "" }` -/
def none : Expr Rule := .rule .none .normal (.str [])

/-- /repo/src/pest/ese.pest:70: `sid = { "SID:" ~ designator ~ ":" ~ (runway_designator | none) ~ ":" ~ colon_delimited_text ~ ":" ~ route }` -/
def sid : Expr Rule :=
  .rule .sid .normal ((.str c!"SID:") ⬝ designator ⬝ (.str c!":") ⬝ (runway_designator ∥ none) ⬝ (.str c!":") ⬝ colon_delimited_text ⬝ (.str c!":") ⬝ route)

/-- /repo/src/pest/ese.pest:71: `star = { "STAR:" ~ designator ~ ":" ~ (runway_designator | none) ~ ":" ~ colon_delimited_text ~ ":" ~ route }` -/
def star : Expr Rule :=
  .rule .star .normal ((.str c!"STAR:") ⬝ designator ⬝ (.str c!":") ⬝ (runway_designator ∥ none) ⬝ (.str c!":") ⬝ colon_delimited_text ⬝ (.str c!":") ⬝ route)

/-- /repo/src/pest/ese.pest:16: `sidsstars_section = { "[SIDSSTARS]" ~ NL ~ ((sid | star) ~ NL)* }` -/
def sidsstars_section : Expr Rule :=
  .rule .sidsstars_section .normal ((.str c!"[SIDSSTARS]") ⬝ NL ⬝ (.star ((sid ∥ star) ⬝ NL)))

/-- /repo/src/pest/ese.pest:75: `broken = @{ !("[") ~ (!NL ~ ANY)* }` -/
def broken : Expr Rule := .rule .broken .atomic ((.not (.str c!"[")) ⬝ (.star ((.not NL) ⬝ .any)))

/-- /repo/src/pest/ese.pest:10: `line = _{ broken ~ NL }` -/
def line : Expr Rule := broken ⬝ NL

/-- /repo/src/pest/ese.pest:88: `header_name = @{ (ASCII_ALPHA_UPPER | WHITESPACE)+ }` -/
def header_name : Expr Rule :=
  .rule .header_name .atomic (.plus ((.cls isAsciiUpper) ∥ WHITESPACE))

/-- /repo/src/pest/ese.pest:12: `section_header = _{ "[" ~ header_name ~ "]" }` -/
def section_header : Expr Rule := (.str c!"[") ⬝ header_name ⬝ (.str c!"]")

/-- /repo/src/pest/ese.pest:17: `unparsed_section = { (section_header ~ NL ~ line*) }` -/
def unparsed_section : Expr Rule :=
  .rule .unparsed_section .normal (section_header ⬝ NL ⬝ (.star line))

/-- /repo/src/pest/ese.pest:3-8: `section = _{ position_section | airspace_section | sidsstars_section | unparsed_section }` -/
def section_ [UnicodeTables] : Expr Rule :=
  position_section ∥ airspace_section ∥ sidsstars_section ∥ unparsed_section

/-- /repo/src/pest/ese.pest:1: `ese = { SOI ~ NL? ~ section+ ~ EOI}` -/
def ese [UnicodeTables] : Expr Rule :=
  .rule .ese .normal (.soi ⬝ (.opt NL) ⬝ (.plus section_) ⬝ (.eoi .EOI))

/-- The implicit skip of this grammar: `WHITESPACE* ~ (COMMENT ~ WHITESPACE*)*` (/repo/src/pest/ese.pest:91; /repo/src/pest/ese.pest:90). -/
def skip : St → Res Rule := skipBoth WHITESPACE COMMENT

end Verif.Peg.Ese
