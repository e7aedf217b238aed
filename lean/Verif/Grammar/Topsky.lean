import Verif.Grammar.Base
/-!
# Grammar of TopSky symbols and maps

Generated by `tools/pest2lean.py` from `/repo/src/pest/base.pest`, `/repo/src/pest/symbol_rule.pest`, `/repo/src/pest/topsky.pest`.
Only rules reachable from the entry rules `symbols`, `maps` are present.
-/

namespace Verif.Peg.Topsky

/-- The generated `Rule` (rules that emit tokens). -/
inductive Rule where
  | EOI
  | colon_delimited_text
  | decimal
  | symbol_rule_point
  | moveto
  | line
  | integer
  | fillarc
  | fillarc_ellipse
  | arc
  | arc_ellipse
  | ellipse
  | ellipse_circle
  | polygon
  | pixel
  | fillrect
  | symbol
  | symbols
  | symboldef
  | colourdef
  | linestyledef
  | backslash_delimited_text
  | override_sct
  | sctfilepath
  | folder
  | colour
  | comma_delimited_text
  | names
  | wildcard
  | asrdata
  | active_always
  | active_id
  | active_callsign
  | active_area
  | active_area_with_excludes
  | active_aup
  | active_map_operator
  | active_map
  | icao
  | active_notam
  | runway_designator
  | runway
  | runways
  | active_rwy
  | active_rwy_with_excludes
  | md
  | ymd
  | hm
  | active_sched
  | active
  | andactive
  | layer
  | deg
  | min
  | sec
  | hemi
  | sct_coord_part
  | coord_part
  | coordinate
  | point
  | mapsymbollabel
  | horizontalalign
  | verticalalign
  | textalign_config
  | mapsymbol
  | fontstyle_default
  | boolean
  | fontstyle_set
  | fontstyle
  | fontsize_default
  | font_symbol
  | fontsize
  | zoom
  | style
  | maplinecoordinates
  | maplinewpts
  | mapline
  | text_content
  | text
  | textalign
  | screen_specific
  | global_
  | hidden
  | circle
  | coord
  | direction
  | coord_af
  | is_magnetic
  | inbound_course
  | turn_direction
  | is_minutes
  | length
  | is_knots
  | radius
  | coord_hm
  | coord_pbd
  | coordline
  | coordpoly
  | sctfiledata_ignore_style
  | sctfiledata
  | sctdata
  | map
  | maps
  deriving DecidableEq, Repr

/-- /repo/src/pest/base.pest:2: `NL = _{ ((" " | "\t")* ~ NEWLINE)+ }` -/
def NL : Expr Rule := Base.NL

/-- /repo/src/pest/topsky.pest:154: `COMMENT = _{ (" " | "\t")* ~ ("//" | ";") ~ (!NL ~ ANY)* }` -/
def COMMENT : Expr Rule :=
  .quiet ((.star ((.str c!" ") ∥ (.str ['\t']))) ⬝ ((.str c!"//") ∥ (.str c!";")) ⬝ (.star ((.not NL) ⬝ .any)))

/-- /repo/src/pest/base.pest:20: `colon_delimited_text = @{ (!(NL | ":") ~ ANY)* }` -/
def colon_delimited_text : Expr Rule :=
  .rule .colon_delimited_text .atomic Base.colon_delimited_text

/-- /repo/src/pest/symbol_rule.pest:30: `symbol_rule_delimiter = _{ ":" | " " }` -/
def symbol_rule_delimiter : Expr Rule := (.str c!":") ∥ (.str c!" ")

/-- /repo/src/pest/base.pest:3: `decimal = @{ ("-" | "+")? ~ ((ASCII_DIGIT* ~ "." ~ ASCII_DIGIT+) | ASCII_DIGIT+) }` -/
def decimal : Expr Rule := .rule .decimal .atomic Base.decimal

/-- /repo/src/pest/symbol_rule.pest:31: `symbol_rule_point = ${ decimal ~ symbol_rule_delimiter ~ decimal }` -/
def symbol_rule_point : Expr Rule :=
  .rule .symbol_rule_point .compound (decimal ⬝ symbol_rule_delimiter ⬝ decimal)

/-- /repo/src/pest/symbol_rule.pest:4: `moveto = ${ "MOVETO" ~ symbol_rule_delimiter ~ symbol_rule_point }` -/
def moveto : Expr Rule :=
  .rule .moveto .compound ((.str c!"MOVETO") ⬝ symbol_rule_delimiter ⬝ symbol_rule_point)

/-- /repo/src/pest/symbol_rule.pest:5: `line = ${ "LINETO" ~ symbol_rule_delimiter ~ symbol_rule_point }` -/
def line : Expr Rule :=
  .rule .line .compound ((.str c!"LINETO") ⬝ symbol_rule_delimiter ⬝ symbol_rule_point)

/-- /repo/src/pest/base.pest:4: `integer = @{ ("-" | "+")? ~ ASCII_DIGIT+ }` -/
def integer : Expr Rule := .rule .integer .atomic Base.integer

/-- /repo/src/pest/symbol_rule.pest:6-8: `fillarc = ${ "FILLARC" ~ symbol_rule_delimiter ~ symbol_rule_point ~ symbol_rule_delimiter ~ decimal ~ symbol_rule_delimiter ~ integer ~ symbol_rule_delimiter ~ integer }` -/
def fillarc : Expr Rule :=
  .rule .fillarc .compound ((.str c!"FILLARC") ⬝ symbol_rule_delimiter ⬝ symbol_rule_point ⬝ symbol_rule_delimiter ⬝ decimal ⬝ symbol_rule_delimiter ⬝ integer ⬝ symbol_rule_delimiter ⬝ integer)

/-- /repo/src/pest/symbol_rule.pest:9-11: `fillarc_ellipse = ${ "FILLARC" ~ symbol_rule_delimiter ~ symbol_rule_point ~ symbol_rule_delimiter ~ decimal ~ symbol_rule_delimiter ~ decimal ~ symbol_rule_delimiter ~ integer ~ symbol_rule_delimiter ~ integer }` -/
def fillarc_ellipse : Expr Rule :=
  .rule .fillarc_ellipse .compound ((.str c!"FILLARC") ⬝ symbol_rule_delimiter ⬝ symbol_rule_point ⬝ symbol_rule_delimiter ⬝ decimal ⬝ symbol_rule_delimiter ⬝ decimal ⬝ symbol_rule_delimiter ⬝ integer ⬝ symbol_rule_delimiter ⬝ integer)

/-- /repo/src/pest/symbol_rule.pest:12-14: `arc = ${ "ARC" ~ symbol_rule_delimiter ~ symbol_rule_point ~ symbol_rule_delimiter ~ decimal ~ symbol_rule_delimiter ~ integer ~ symbol_rule_delimiter ~ integer }` -/
def arc : Expr Rule :=
  .rule .arc .compound ((.str c!"ARC") ⬝ symbol_rule_delimiter ⬝ symbol_rule_point ⬝ symbol_rule_delimiter ⬝ decimal ⬝ symbol_rule_delimiter ⬝ integer ⬝ symbol_rule_delimiter ⬝ integer)

/-- /repo/src/pest/symbol_rule.pest:15-17: `arc_ellipse = ${ "ARC" ~ symbol_rule_delimiter ~ symbol_rule_point ~ symbol_rule_delimiter ~ decimal ~ symbol_rule_delimiter ~ decimal ~ symbol_rule_delimiter ~ integer ~ symbol_rule_delimiter ~ integer }` -/
def arc_ellipse : Expr Rule :=
  .rule .arc_ellipse .compound ((.str c!"ARC") ⬝ symbol_rule_delimiter ⬝ symbol_rule_point ⬝ symbol_rule_delimiter ⬝ decimal ⬝ symbol_rule_delimiter ⬝ decimal ⬝ symbol_rule_delimiter ⬝ integer ⬝ symbol_rule_delimiter ⬝ integer)

/-- /repo/src/pest/symbol_rule.pest:18-20: `ellipse = ${ "ELLIPSE" ~ symbol_rule_delimiter ~ symbol_rule_point ~ symbol_rule_delimiter ~ decimal ~ symbol_rule_delimiter ~ decimal }` -/
def ellipse : Expr Rule :=
  .rule .ellipse .compound ((.str c!"ELLIPSE") ⬝ symbol_rule_delimiter ⬝ symbol_rule_point ⬝ symbol_rule_delimiter ⬝ decimal ⬝ symbol_rule_delimiter ⬝ decimal)

/-- /repo/src/pest/symbol_rule.pest:21-23: `ellipse_circle = ${ "ELLIPSE" ~ symbol_rule_delimiter ~ symbol_rule_point ~ symbol_rule_delimiter ~ decimal }` -/
def ellipse_circle : Expr Rule :=
  .rule .ellipse_circle .compound ((.str c!"ELLIPSE") ⬝ symbol_rule_delimiter ⬝ symbol_rule_point ⬝ symbol_rule_delimiter ⬝ decimal)

/-- /repo/src/pest/symbol_rule.pest:24: `polygon = ${ "POLYGON" ~ (symbol_rule_delimiter ~ symbol_rule_point)+ }` -/
def polygon : Expr Rule :=
  .rule .polygon .compound ((.str c!"POLYGON") ⬝ (.plus (symbol_rule_delimiter ⬝ symbol_rule_point)))

/-- /repo/src/pest/symbol_rule.pest:25: `pixel = ${ "SETPIXEL" ~ symbol_rule_delimiter ~ symbol_rule_point }` -/
def pixel : Expr Rule :=
  .rule .pixel .compound ((.str c!"SETPIXEL") ⬝ symbol_rule_delimiter ⬝ symbol_rule_point)

/-- /repo/src/pest/symbol_rule.pest:26-28: `fillrect = ${ "FILLRECT" ~ symbol_rule_delimiter ~ symbol_rule_point ~ symbol_rule_delimiter ~ symbol_rule_point }` -/
def fillrect : Expr Rule :=
  .rule .fillrect .compound ((.str c!"FILLRECT") ⬝ symbol_rule_delimiter ⬝ symbol_rule_point ⬝ symbol_rule_delimiter ⬝ symbol_rule_point)

/-- /repo/src/pest/symbol_rule.pest:1-3: `symbolrule = _{ ( moveto | line | fillarc_ellipse | fillarc | arc_ellipse | arc | polygon | pixel | ellipse | ellipse_circle | fillrect ) ~ NL? }` -/
def symbolrule : Expr Rule :=
  (moveto ∥ line ∥ fillarc_ellipse ∥ fillarc ∥ arc_ellipse ∥ arc ∥ polygon ∥ pixel ∥ ellipse ∥ ellipse_circle ∥ fillrect) ⬝ (.opt NL)

/-- /repo/src/pest/topsky.pest:4: `symbol = { "SYMBOL:" ~ colon_delimited_text ~ NL ~ symbolrule+ }` -/
def symbol : Expr Rule :=
  .rule .symbol .normal ((.str c!"SYMBOL:") ⬝ colon_delimited_text ⬝ NL ⬝ (.plus symbolrule))

/-- /repo/src/pest/topsky.pest:1: `symbols = { SOI ~ NL? ~ symbol+ ~ EOI }` -/
def symbols : Expr Rule := .rule .symbols .normal (.soi ⬝ (.opt NL) ⬝ (.plus symbol) ⬝ (.eoi .EOI))

/-- /repo/src/pest/topsky.pest:5: `symboldef = { "SYMBOLDEF:" ~ colon_delimited_text ~ NL ~ symbolrule+ }` -/
def symboldef : Expr Rule :=
  .rule .symboldef .normal ((.str c!"SYMBOLDEF:") ⬝ colon_delimited_text ⬝ NL ⬝ (.plus symbolrule))

/-- /repo/src/pest/topsky.pest:7: `colourdef = { "COLORDEF:" ~ colon_delimited_text ~ ":" ~ integer ~ ":" ~ integer ~ ":" ~ integer ~ NL? }` -/
def colourdef : Expr Rule :=
  .rule .colourdef .normal ((.str c!"COLORDEF:") ⬝ colon_delimited_text ⬝ (.str c!":") ⬝ integer ⬝ (.str c!":") ⬝ integer ⬝ (.str c!":") ⬝ integer ⬝ (.opt NL))

/-- /repo/src/pest/topsky.pest:9: `linestyledef = { "LINESTYLEDEF:" ~ colon_delimited_text ~ ":" ~ colon_delimited_text ~ ":" ~ colon_delimited_text ~ (":" ~ (integer ~ ("," ~ integer)*))? ~ NL? }` -/
def linestyledef : Expr Rule :=
  .rule .linestyledef .normal ((.str c!"LINESTYLEDEF:") ⬝ colon_delimited_text ⬝ (.str c!":") ⬝ colon_delimited_text ⬝ (.str c!":") ⬝ colon_delimited_text ⬝ (.opt ((.str c!":") ⬝ (integer ⬝ (.star ((.str c!",") ⬝ integer))))) ⬝ (.opt NL))

/-- /repo/src/pest/base.pest:22: `backslash_delimited_text = @{ (!(NL | "\\") ~ ANY)* }` -/
def backslash_delimited_text : Expr Rule :=
  .rule .backslash_delimited_text .atomic Base.backslash_delimited_text

/-- /repo/src/pest/topsky.pest:11: `override_sct = { "OVERRIDE_SCT_MAP:" ~ backslash_delimited_text ~ ("\\" ~ colon_delimited_text)? ~ NL? }` -/
def override_sct : Expr Rule :=
  .rule .override_sct .normal ((.str c!"OVERRIDE_SCT_MAP:") ⬝ backslash_delimited_text ⬝ (.opt ((.str ['\\']) ⬝ colon_delimited_text)) ⬝ (.opt NL))

/-- /repo/src/pest/topsky.pest:13: `sctfilepath = { "SCTFILEPATH:" ~ colon_delimited_text ~ NL? }` -/
def sctfilepath : Expr Rule :=
  .rule .sctfilepath .normal ((.str c!"SCTFILEPATH:") ⬝ colon_delimited_text ⬝ (.opt NL))

/-- /repo/src/pest/topsky.pest:30: `folder = { "FOLDER:" ~ colon_delimited_text }` -/
def folder : Expr Rule := .rule .folder .normal ((.str c!"FOLDER:") ⬝ colon_delimited_text)

/-- /repo/src/pest/topsky.pest:32: `colour = { "COLOR:" ~ colon_delimited_text ~ (":" ~ colon_delimited_text)? ~ (":" ~ colon_delimited_text)? }` -/
def colour : Expr Rule :=
  .rule .colour .normal ((.str c!"COLOR:") ⬝ colon_delimited_text ⬝ (.opt ((.str c!":") ⬝ colon_delimited_text)) ⬝ (.opt ((.str c!":") ⬝ colon_delimited_text)))

/-- /repo/src/pest/base.pest:21: `comma_delimited_text = @{ (!(NL | ":" | ",") ~ ANY)* }` -/
def comma_delimited_text : Expr Rule :=
  .rule .comma_delimited_text .atomic Base.comma_delimited_text

/-- /repo/src/pest/topsky.pest:141: `names = { comma_delimited_text ~ ("," ~ comma_delimited_text)* }` -/
def names : Expr Rule :=
  .rule .names .normal (comma_delimited_text ⬝ (.star ((.str c!",") ⬝ comma_delimited_text)))

/-- /repo/src/pest/topsky.pest:142: `wildcard = { "*" }` -/
def wildcard : Expr Rule := .rule .wildcard .normal (.str c!"*")

/-- /repo/src/pest/topsky.pest:34: `asrdata = { "ASRDATA:" ~ (wildcard | names) }` -/
def asrdata : Expr Rule := .rule .asrdata .normal ((.str c!"ASRDATA:") ⬝ (wildcard ∥ names))

/-- /repo/src/pest/topsky.pest:51: `active_always = { "1" }` -/
def active_always : Expr Rule := .rule .active_always .normal (.str c!"1")

/-- /repo/src/pest/topsky.pest:52-54: `active_id = { "ID:" ~ (wildcard | names) ~ ":" ~ (wildcard | names) ~ ":" ~ (wildcard | names) ~ ":" ~ (wildcard | names) }` -/
def active_id : Expr Rule :=
  .rule .active_id .normal ((.str c!"ID:") ⬝ (wildcard ∥ names) ⬝ (.str c!":") ⬝ (wildcard ∥ names) ⬝ (.str c!":") ⬝ (wildcard ∥ names) ⬝ (.str c!":") ⬝ (wildcard ∥ names))

/-- /repo/src/pest/topsky.pest:55-57: `active_callsign = { "CALLSIGN:" ~ (wildcard | names) ~ ":" ~ (wildcard | names) ~ ":" ~ (wildcard | names) ~ ":" ~ (wildcard | names) }` -/
def active_callsign : Expr Rule :=
  .rule .active_callsign .normal ((.str c!"CALLSIGN:") ⬝ (wildcard ∥ names) ⬝ (.str c!":") ⬝ (wildcard ∥ names) ⬝ (.str c!":") ⬝ (wildcard ∥ names) ⬝ (.str c!":") ⬝ (wildcard ∥ names))

/-- /repo/src/pest/topsky.pest:58-60: `active_area = { "AREA:" ~ names }` -/
def active_area : Expr Rule := .rule .active_area .normal ((.str c!"AREA:") ⬝ names)

/-- /repo/src/pest/topsky.pest:61-63: `active_area_with_excludes = { "AREA:" ~ names ~ ":" ~ names }` -/
def active_area_with_excludes : Expr Rule :=
  .rule .active_area_with_excludes .normal ((.str c!"AREA:") ⬝ names ⬝ (.str c!":") ⬝ names)

/-- /repo/src/pest/topsky.pest:64-66: `active_aup = { "AUP:" ~ names }` -/
def active_aup : Expr Rule := .rule .active_aup .normal ((.str c!"AUP:") ⬝ names)

/-- /repo/src/pest/topsky.pest:81: `active_map_operator = { "!" | "=" }` -/
def active_map_operator : Expr Rule :=
  .rule .active_map_operator .normal ((.str c!"!") ∥ (.str c!"="))

/-- /repo/src/pest/topsky.pest:67-69: `active_map = { "MAP:" ~ active_map_operator ~ ":" ~ backslash_delimited_text ~ "\\" ~ colon_delimited_text }` -/
def active_map : Expr Rule :=
  .rule .active_map .normal ((.str c!"MAP:") ⬝ active_map_operator ⬝ (.str c!":") ⬝ backslash_delimited_text ⬝ (.str ['\\']) ⬝ colon_delimited_text)

/-- /repo/src/pest/topsky.pest:149: `icao = { ASCII_ALPHA_UPPER{4} }` -/
def icao : Expr Rule :=
  .rule .icao .normal ((.cls isAsciiUpper) ⬝ (.cls isAsciiUpper) ⬝ (.cls isAsciiUpper) ⬝ (.cls isAsciiUpper))

/-- /repo/src/pest/topsky.pest:70-72: `active_notam = { "NOTAM:" ~ icao ~ ":" ~ names }` -/
def active_notam : Expr Rule :=
  .rule .active_notam .normal ((.str c!"NOTAM:") ⬝ icao ⬝ (.str c!":") ⬝ names)

/-- /repo/src/pest/base.pest:16: `runway_designator = @{ ASCII_DIGIT{2} ~ ("L" | "C" | "R" | "G")? }` -/
def runway_designator : Expr Rule := .rule .runway_designator .atomic Base.runway_designator

/-- /repo/src/pest/topsky.pest:148: `runway = { icao ~ runway_designator }` -/
def runway : Expr Rule := .rule .runway .normal (icao ⬝ runway_designator)

/-- /repo/src/pest/topsky.pest:79: `runways = { runway ~ ("," ~ runway)* }` -/
def runways : Expr Rule := .rule .runways .normal (runway ⬝ (.star ((.str c!",") ⬝ runway)))

/-- /repo/src/pest/topsky.pest:73-75: `active_rwy = { "RWY:ARR:" ~ (wildcard | runways) ~ ":DEP:" ~ (wildcard | runways) }` -/
def active_rwy : Expr Rule :=
  .rule .active_rwy .normal ((.str c!"RWY:ARR:") ⬝ (wildcard ∥ runways) ⬝ (.str c!":DEP:") ⬝ (wildcard ∥ runways))

/-- /repo/src/pest/topsky.pest:76-78: `active_rwy_with_excludes = { "RWY:ARR:" ~ (wildcard | runways) ~ ":" ~ (wildcard | runways) ~ ":DEP:" ~ (wildcard | runways) ~ ":" ~ (wildcard | runways) }` -/
def active_rwy_with_excludes : Expr Rule :=
  .rule .active_rwy_with_excludes .normal ((.str c!"RWY:ARR:") ⬝ (wildcard ∥ runways) ⬝ (.str c!":") ⬝ (wildcard ∥ runways) ⬝ (.str c!":DEP:") ⬝ (wildcard ∥ runways) ⬝ (.str c!":") ⬝ (wildcard ∥ runways))

/-- /repo/src/pest/topsky.pest:144: `md = { ASCII_DIGIT{2} ~ ASCII_DIGIT{2} }` -/
def md : Expr Rule :=
  .rule .md .normal (((.cls isAsciiDigit) ⬝ (.cls isAsciiDigit)) ⬝ ((.cls isAsciiDigit) ⬝ (.cls isAsciiDigit)))

/-- /repo/src/pest/topsky.pest:145: `ymd = { ASCII_DIGIT{2} ~ ASCII_DIGIT{2} ~ ASCII_DIGIT{2} }` -/
def ymd : Expr Rule :=
  .rule .ymd .normal (((.cls isAsciiDigit) ⬝ (.cls isAsciiDigit)) ⬝ ((.cls isAsciiDigit) ⬝ (.cls isAsciiDigit)) ⬝ ((.cls isAsciiDigit) ⬝ (.cls isAsciiDigit)))

/-- /repo/src/pest/topsky.pest:146: `hm = { ASCII_DIGIT{2} ~ ASCII_DIGIT{2} }` -/
def hm : Expr Rule :=
  .rule .hm .normal (((.cls isAsciiDigit) ⬝ (.cls isAsciiDigit)) ⬝ ((.cls isAsciiDigit) ⬝ (.cls isAsciiDigit)))

/-- /repo/src/pest/topsky.pest:80: `active_sched = { (ymd | md) ~ ":" ~ (ymd | md) ~ ":" ~ ASCII_DIGIT+ ~ ":" ~ hm ~ ":" ~ hm }` -/
def active_sched : Expr Rule :=
  .rule .active_sched .normal ((ymd ∥ md) ⬝ (.str c!":") ⬝ (ymd ∥ md) ⬝ (.str c!":") ⬝ (.plus (.cls isAsciiDigit)) ⬝ (.str c!":") ⬝ hm ⬝ (.str c!":") ⬝ hm)

/-- /repo/src/pest/topsky.pest:38-50: `active_options = _{ active_sched | active_id | active_notam | active_aup | active_area_with_excludes | active_area | active_callsign | active_rwy_with_excludes | active_rwy | active_always | active_map }` -/
def active_options : Expr Rule :=
  active_sched ∥ active_id ∥ active_notam ∥ active_aup ∥ active_area_with_excludes ∥ active_area ∥ active_callsign ∥ active_rwy_with_excludes ∥ active_rwy ∥ active_always ∥ active_map

/-- /repo/src/pest/topsky.pest:36: `active = { "ACTIVE:" ~ active_options }` -/
def active : Expr Rule := .rule .active .normal ((.str c!"ACTIVE:") ⬝ active_options)

/-- /repo/src/pest/topsky.pest:37: `andactive = { "AND_ACTIVE:" ~ active_options }` -/
def andactive : Expr Rule := .rule .andactive .normal ((.str c!"AND_ACTIVE:") ⬝ active_options)

/-- /repo/src/pest/topsky.pest:83: `layer = { "LAYER:" ~ integer }` -/
def layer : Expr Rule := .rule .layer .normal ((.str c!"LAYER:") ⬝ integer)

/-- /repo/src/pest/base.pest:10: `deg = @{ ASCII_DIGIT+ }` -/
def deg : Expr Rule := .rule .deg .atomic Base.deg

/-- /repo/src/pest/base.pest:11: `min = @{ ASCII_DIGIT+ }` -/
def min : Expr Rule := .rule .min .atomic Base.min

/-- /repo/src/pest/base.pest:12: `sec = @{ decimal }` -/
def sec : Expr Rule := .rule .sec .atomic decimal

/-- /repo/src/pest/base.pest:13: `hemi = @{ "N" | "S" | "W" | "E" | "n" | "s" | "w" | "e" }` -/
def hemi : Expr Rule := .rule .hemi .atomic Base.hemi

/-- /repo/src/pest/base.pest:9: `sct_coord_part = ${ hemi ~ deg ~ "." ~ min ~ "." ~ sec }` -/
def sct_coord_part : Expr Rule :=
  .rule .sct_coord_part .compound (hemi ⬝ deg ⬝ (.str c!".") ⬝ min ⬝ (.str c!".") ⬝ sec)

/-- /repo/src/pest/base.pest:8: `coord_part = { sct_coord_part | decimal }` -/
def coord_part : Expr Rule := .rule .coord_part .normal (sct_coord_part ∥ decimal)

/-- /repo/src/pest/base.pest:7: `coordinate = { coord_part ~ ":" ~ coord_part }` -/
def coordinate : Expr Rule := .rule .coordinate .normal (coord_part ⬝ (.str c!":") ⬝ coord_part)

/-- /repo/src/pest/base.pest:1: `point = { decimal ~ ":" ~ decimal }` -/
def point : Expr Rule := .rule .point .normal (decimal ⬝ (.str c!":") ⬝ decimal)

/-- /repo/src/pest/topsky.pest:86: `mapsymbollabel = { colon_delimited_text ~ ":" ~ point }` -/
def mapsymbollabel : Expr Rule :=
  .rule .mapsymbollabel .normal (colon_delimited_text ⬝ (.str c!":") ⬝ point)

/-- /repo/src/pest/topsky.pest:108: `horizontalalign = { "L" | "C" | "R" }` -/
def horizontalalign : Expr Rule :=
  .rule .horizontalalign .normal ((.str c!"L") ∥ (.str c!"C") ∥ (.str c!"R"))

/-- /repo/src/pest/topsky.pest:109: `verticalalign = { "T" | "C" | "B" }` -/
def verticalalign : Expr Rule :=
  .rule .verticalalign .normal ((.str c!"T") ∥ (.str c!"C") ∥ (.str c!"B"))

/-- /repo/src/pest/topsky.pest:107: `textalign_config = { horizontalalign? ~ verticalalign? }` -/
def textalign_config : Expr Rule :=
  .rule .textalign_config .normal ((.opt horizontalalign) ⬝ (.opt verticalalign))

/-- /repo/src/pest/topsky.pest:85: `mapsymbol = { "SYMBOL" ~ ("/" ~ textalign_config)? ~ ":" ~ colon_delimited_text ~ ":" ~ (coordinate | colon_delimited_text) ~ (":" ~ mapsymbollabel)? }` -/
def mapsymbol : Expr Rule :=
  .rule .mapsymbol .normal ((.str c!"SYMBOL") ⬝ (.opt ((.str c!"/") ⬝ textalign_config)) ⬝ (.str c!":") ⬝ colon_delimited_text ⬝ (.str c!":") ⬝ (coordinate ∥ colon_delimited_text) ⬝ (.opt ((.str c!":") ⬝ mapsymbollabel)))

/-- /repo/src/pest/topsky.pest:89: `fontstyle_default = { "0" }` -/
def fontstyle_default : Expr Rule := .rule .fontstyle_default .normal (.str c!"0")

/-- /repo/src/pest/topsky.pest:150: `boolean = { "0" | "1" }` -/
def boolean : Expr Rule := .rule .boolean .normal ((.str c!"0") ∥ (.str c!"1"))

/-- /repo/src/pest/topsky.pest:90: `fontstyle_set = { integer ~ ":" ~ boolean ~ ":" ~ boolean ~ ":" ~ boolean }` -/
def fontstyle_set : Expr Rule :=
  .rule .fontstyle_set .normal (integer ⬝ (.str c!":") ⬝ boolean ⬝ (.str c!":") ⬝ boolean ⬝ (.str c!":") ⬝ boolean)

/-- /repo/src/pest/topsky.pest:88: `fontstyle = { "FONTSTYLE:" ~ (fontstyle_set | fontstyle_default) }` -/
def fontstyle : Expr Rule :=
  .rule .fontstyle .normal ((.str c!"FONTSTYLE:") ⬝ (fontstyle_set ∥ fontstyle_default))

/-- /repo/src/pest/topsky.pest:92: `fontsize_default = { "0" }` -/
def fontsize_default : Expr Rule := .rule .fontsize_default .normal (.str c!"0")

/-- /repo/src/pest/topsky.pest:93: `font_symbol = { "=" | "+" | "-" | "*" }` -/
def font_symbol : Expr Rule :=
  .rule .font_symbol .normal ((.str c!"=") ∥ (.str c!"+") ∥ (.str c!"-") ∥ (.str c!"*"))

/-- /repo/src/pest/topsky.pest:91: `fontsize = { "FONTSIZE:" ~ ((font_symbol ~ ":" ~ decimal) | fontsize_default) }` -/
def fontsize : Expr Rule :=
  .rule .fontsize .normal ((.str c!"FONTSIZE:") ⬝ ((font_symbol ⬝ (.str c!":") ⬝ decimal) ∥ fontsize_default))

/-- /repo/src/pest/topsky.pest:95: `zoom = { "ZOOM:" ~ decimal }` -/
def zoom : Expr Rule := .rule .zoom .normal ((.str c!"ZOOM:") ⬝ decimal)

/-- /repo/src/pest/topsky.pest:97: `style = { "STYLE:" ~ colon_delimited_text ~ (":" ~ integer)? }` -/
def style : Expr Rule :=
  .rule .style .normal ((.str c!"STYLE:") ⬝ colon_delimited_text ⬝ (.opt ((.str c!":") ⬝ integer)))

/-- /repo/src/pest/topsky.pest:100: `maplinecoordinates = { coordinate ~ ":" ~ coordinate }` -/
def maplinecoordinates : Expr Rule :=
  .rule .maplinecoordinates .normal (coordinate ⬝ (.str c!":") ⬝ coordinate)

/-- /repo/src/pest/topsky.pest:101: `maplinewpts = { colon_delimited_text ~ ":" ~ colon_delimited_text }` -/
def maplinewpts : Expr Rule :=
  .rule .maplinewpts .normal (colon_delimited_text ⬝ (.str c!":") ⬝ colon_delimited_text)

/-- /repo/src/pest/topsky.pest:99: `mapline = { ("LINE:" ~ (maplinecoordinates | maplinewpts) ~ NL?)+ }` -/
def mapline : Expr Rule :=
  .rule .mapline .normal (.plus ((.str c!"LINE:") ⬝ (maplinecoordinates ∥ maplinewpts) ⬝ (.opt NL)))

/-- /repo/src/pest/topsky.pest:104: `text_content = { (!NL ~ ANY)+ }` -/
def text_content : Expr Rule := .rule .text_content .normal (.plus ((.not NL) ⬝ .any))

/-- /repo/src/pest/topsky.pest:103: `text = { "TEXT" ~ ("/" ~ textalign_config)? ~ ":" ~ (coordinate | colon_delimited_text) ~ ":" ~ text_content }` -/
def text : Expr Rule :=
  .rule .text .normal ((.str c!"TEXT") ⬝ (.opt ((.str c!"/") ⬝ textalign_config)) ⬝ (.str c!":") ⬝ (coordinate ∥ colon_delimited_text) ⬝ (.str c!":") ⬝ text_content)

/-- /repo/src/pest/topsky.pest:106: `textalign = { "TEXTALIGN:" ~ textalign_config }` -/
def textalign : Expr Rule := .rule .textalign .normal ((.str c!"TEXTALIGN:") ⬝ textalign_config)

/-- /repo/src/pest/topsky.pest:111: `screen_specific = { "SCREEN-SPECIFIC" }` -/
def screen_specific : Expr Rule := .rule .screen_specific .normal (.str c!"SCREEN-SPECIFIC")

/-- /repo/src/pest/topsky.pest:112: `global = { "GLOBAL" }` -/
def global_ : Expr Rule := .rule .global_ .normal (.str c!"GLOBAL")

/-- /repo/src/pest/topsky.pest:122: `hidden = { "HIDDEN" }` -/
def hidden : Expr Rule := .rule .hidden .normal (.str c!"HIDDEN")

/-- /repo/src/pest/topsky.pest:124: `circle = { ("COORD_CIRCLE:" | "CIRCLE:") ~ coordinate ~ ":" ~ decimal ~ ":" ~ decimal }` -/
def circle : Expr Rule :=
  .rule .circle .normal (((.str c!"COORD_CIRCLE:") ∥ (.str c!"CIRCLE:")) ⬝ coordinate ⬝ (.str c!":") ⬝ decimal ⬝ (.str c!":") ⬝ decimal)

/-- /repo/src/pest/topsky.pest:126: `coord = { "COORD:" ~ (coordinate | colon_delimited_text) }` -/
def coord : Expr Rule :=
  .rule .coord .normal ((.str c!"COORD:") ⬝ (coordinate ∥ colon_delimited_text))

/-- /repo/src/pest/base.pest:14: `direction = @{ "<" | ">" }` -/
def direction : Expr Rule := .rule .direction .atomic Base.direction

/-- /repo/src/pest/topsky.pest:127: `coord_af = { "COORD_AF:" ~ (coordinate | colon_delimited_text) ~ ":" ~ (decimal ~ ":"){3} ~ direction ~ ":" ~ decimal }` -/
def coord_af : Expr Rule :=
  .rule .coord_af .normal ((.str c!"COORD_AF:") ⬝ (coordinate ∥ colon_delimited_text) ⬝ (.str c!":") ⬝ ((decimal ⬝ (.str c!":")) ⬝ (decimal ⬝ (.str c!":")) ⬝ (decimal ⬝ (.str c!":"))) ⬝ direction ⬝ (.str c!":") ⬝ decimal)

/-- /repo/src/pest/topsky.pest:115: `is_magnetic = { "M" }` -/
def is_magnetic : Expr Rule := .rule .is_magnetic .normal (.str c!"M")

/-- /repo/src/pest/topsky.pest:114: `inbound_course = { decimal ~ is_magnetic? }` -/
def inbound_course : Expr Rule := .rule .inbound_course .normal (decimal ⬝ (.opt is_magnetic))

/-- /repo/src/pest/topsky.pest:116: `turn_direction = { "L" | "R" }` -/
def turn_direction : Expr Rule := .rule .turn_direction .normal ((.str c!"L") ∥ (.str c!"R"))

/-- /repo/src/pest/topsky.pest:118: `is_minutes = { "MIN" }` -/
def is_minutes : Expr Rule := .rule .is_minutes .normal (.str c!"MIN")

/-- /repo/src/pest/topsky.pest:117: `length = { decimal ~ is_minutes? }` -/
def length : Expr Rule := .rule .length .normal (decimal ⬝ (.opt is_minutes))

/-- /repo/src/pest/topsky.pest:120: `is_knots = { "KTS" }` -/
def is_knots : Expr Rule := .rule .is_knots .normal (.str c!"KTS")

/-- /repo/src/pest/topsky.pest:119: `radius = { decimal ~ is_knots? }` -/
def radius : Expr Rule := .rule .radius .normal (decimal ⬝ (.opt is_knots))

/-- /repo/src/pest/topsky.pest:128-131: `coord_hm = { "COORD_HM:" ~ (coordinate | colon_delimited_text) ~ ":" ~ inbound_course ~ ":" ~ turn_direction ~ ":" ~ length ~ ":" ~ radius ~ ":" ~ decimal }` -/
def coord_hm : Expr Rule :=
  .rule .coord_hm .normal ((.str c!"COORD_HM:") ⬝ (coordinate ∥ colon_delimited_text) ⬝ (.str c!":") ⬝ inbound_course ⬝ (.str c!":") ⬝ turn_direction ⬝ (.str c!":") ⬝ length ⬝ (.str c!":") ⬝ radius ⬝ (.str c!":") ⬝ decimal)

/-- /repo/src/pest/topsky.pest:132: `coord_pbd = { "COORD_PBD:" ~ icao ~ "/" ~ runway_designator ~ ":" ~ decimal ~ ":" ~ ASCII_DIGIT+ }` -/
def coord_pbd : Expr Rule :=
  .rule .coord_pbd .normal ((.str c!"COORD_PBD:") ⬝ icao ⬝ (.str c!"/") ⬝ runway_designator ⬝ (.str c!":") ⬝ decimal ⬝ (.str c!":") ⬝ (.plus (.cls isAsciiDigit)))

/-- /repo/src/pest/topsky.pest:134: `coordline = { "COORDLINE" }` -/
def coordline : Expr Rule := .rule .coordline .normal (.str c!"COORDLINE")

/-- /repo/src/pest/topsky.pest:135: `coordpoly = { "COORDPOLY:" ~ integer }` -/
def coordpoly : Expr Rule := .rule .coordpoly .normal ((.str c!"COORDPOLY:") ⬝ integer)

/-- /repo/src/pest/topsky.pest:138: `sctfiledata_ignore_style = { "/MONO" }` -/
def sctfiledata_ignore_style : Expr Rule :=
  .rule .sctfiledata_ignore_style .normal (.str c!"/MONO")

/-- /repo/src/pest/topsky.pest:137: `sctfiledata = { "SCTFILEDATA" ~ sctfiledata_ignore_style? ~ ":" ~ backslash_delimited_text ~ "\\" ~ backslash_delimited_text }` -/
def sctfiledata : Expr Rule :=
  .rule .sctfiledata .normal ((.str c!"SCTFILEDATA") ⬝ (.opt sctfiledata_ignore_style) ⬝ (.str c!":") ⬝ backslash_delimited_text ⬝ (.str ['\\']) ⬝ backslash_delimited_text)

/-- /repo/src/pest/topsky.pest:139: `sctdata = { "SCTDATA" ~ ":" ~ backslash_delimited_text ~ "\\" ~ backslash_delimited_text }` -/
def sctdata : Expr Rule :=
  .rule .sctdata .normal ((.str c!"SCTDATA") ⬝ (.str c!":") ⬝ backslash_delimited_text ⬝ (.str ['\\']) ⬝ backslash_delimited_text)

/-- /repo/src/pest/topsky.pest:20-28: `map_setting = _{ (" " | "\t")* ~ ( folder | colour | asrdata | active | andactive | layer | mapsymbol | fontstyle | fontsize | zoom | style | mapline | text | global | screen_specific | circle | coordline | coordpoly | coord | textalign | override_sct | hidden | sctfiledata | sctdata | coord_af | coord_hm | coord_pbd ) ~ NL? }` -/
def map_setting : Expr Rule :=
  (.star ((.str c!" ") ∥ (.str ['\t']))) ⬝ (folder ∥ colour ∥ asrdata ∥ active ∥ andactive ∥ layer ∥ mapsymbol ∥ fontstyle ∥ fontsize ∥ zoom ∥ style ∥ mapline ∥ text ∥ global_ ∥ screen_specific ∥ circle ∥ coordline ∥ coordpoly ∥ coord ∥ textalign ∥ override_sct ∥ hidden ∥ sctfiledata ∥ sctdata ∥ coord_af ∥ coord_hm ∥ coord_pbd) ⬝ (.opt NL)

/-- /repo/src/pest/topsky.pest:17: `map = { "MAP:" ~ colon_delimited_text ~ NL ~ map_setting+ }` -/
def map : Expr Rule :=
  .rule .map .normal ((.str c!"MAP:") ⬝ colon_delimited_text ⬝ NL ⬝ (.plus map_setting))

/-- /repo/src/pest/topsky.pest:2: `maps = { SOI ~ NL? ~ (map | symboldef | colourdef | linestyledef | override_sct | sctfilepath)+ ~ EOI }` -/
def maps : Expr Rule :=
  .rule .maps .normal (.soi ⬝ (.opt NL) ⬝ (.plus (map ∥ symboldef ∥ colourdef ∥ linestyledef ∥ override_sct ∥ sctfilepath)) ⬝ (.eoi .EOI))

/-- The implicit skip of this grammar: `COMMENT*` (/repo/src/pest/topsky.pest:154). -/
def skip : St → Res Rule := skipOne COMMENT

end Verif.Peg.Topsky
