import Verif.Grammar.Base
/-!
# Grammar of symbology files

Generated by `tools/pest2lean.py` from `/repo/src/pest/base.pest`, `/repo/src/pest/symbol_rule.pest`, `/repo/src/pest/symbology.pest`.
Only rules reachable from the entry rules `symbology` are present.
-/

namespace Verif.Peg.Symbology

/-- The generated `Rule` (rules that emit tokens). -/
inductive Rule where
  | EOI
  | header
  | decimal
  | integer
  | colon_delimited_text
  | line_style
  | alignment
  | item
  | symbol_rule_point
  | moveto
  | line
  | fillarc
  | fillarc_ellipse
  | arc
  | arc_ellipse
  | ellipse
  | ellipse_circle
  | polygon
  | pixel
  | fillrect
  | symbol
  | clip_area
  | footer
  | symbology
  deriving DecidableEq, Repr

/-- /repo/src/pest/symbology.pest:17: `WHITESPACE = _{ " " | "\t" }` -/
def WHITESPACE : Expr Rule := .quiet ((.str c!" ") ∥ (.str ['\t']))

/-- /repo/src/pest/base.pest:2: `NL = _{ ((" " | "\t")* ~ NEWLINE)+ }` -/
def NL : Expr Rule := Base.NL

/-- /repo/src/pest/symbology.pest:3: `header = { "SYMBOLOGY" ~ NL ~ "SYMBOLSIZE" ~ NL }` -/
def header : Expr Rule :=
  .rule .header .normal ((.str c!"SYMBOLOGY") ⬝ NL ⬝ (.str c!"SYMBOLSIZE") ⬝ NL)

/-- /repo/src/pest/base.pest:3: `decimal = @{ ("-" | "+")? ~ ((ASCII_DIGIT* ~ "." ~ ASCII_DIGIT+) | ASCII_DIGIT+) }` -/
def decimal : Expr Rule := .rule .decimal .atomic Base.decimal

/-- /repo/src/pest/base.pest:4: `integer = @{ ("-" | "+")? ~ ASCII_DIGIT+ }` -/
def integer : Expr Rule := .rule .integer .atomic Base.integer

/-- /repo/src/pest/base.pest:20: `colon_delimited_text = @{ (!(NL | ":") ~ ANY)* }` -/
def colon_delimited_text : Expr Rule :=
  .rule .colon_delimited_text .atomic Base.colon_delimited_text

/-- /repo/src/pest/symbology.pest:8: `line_style = { '0'..'4' }` -/
def line_style : Expr Rule := .rule .line_style .normal (.cls (inRange '0' '4'))

/-- /repo/src/pest/symbology.pest:9: `alignment = { "12" | "13" | "14" | '0'..'2' | '6'..'8' }` -/
def alignment : Expr Rule :=
  .rule .alignment .normal ((.str c!"12") ∥ (.str c!"13") ∥ (.str c!"14") ∥ (.cls (inRange '0' '2')) ∥ (.cls (inRange '6' '8')))

/-- /repo/src/pest/symbology.pest:6: `item = { colon_delimited_text ~ ":" ~ colon_delimited_text ~ ":" ~ integer ~ ":" ~ decimal ~ ":" ~ line_style ~ ":" ~ integer ~ ":" ~ alignment ~ NL }` -/
def item : Expr Rule :=
  .rule .item .normal (colon_delimited_text ⬝ (.str c!":") ⬝ colon_delimited_text ⬝ (.str c!":") ⬝ integer ⬝ (.str c!":") ⬝ decimal ⬝ (.str c!":") ⬝ line_style ⬝ (.str c!":") ⬝ integer ⬝ (.str c!":") ⬝ alignment ⬝ NL)

/-- /repo/src/pest/symbology.pest:5: `items = _{ item+ }` -/
def items : Expr Rule := (.plus item)

/-- /repo/src/pest/symbol_rule.pest:30: `symbol_rule_delimiter = _{ ":" | " " }` -/
def symbol_rule_delimiter : Expr Rule := (.str c!":") ∥ (.str c!" ")

/-- /repo/src/pest/symbol_rule.pest:31: `symbol_rule_point = ${ decimal ~ symbol_rule_delimiter ~ decimal }` -/
def symbol_rule_point : Expr Rule :=
  .rule .symbol_rule_point .compound (decimal ⬝ symbol_rule_delimiter ⬝ decimal)

/-- /repo/src/pest/symbol_rule.pest:4: `moveto = ${ "MOVETO" ~ symbol_rule_delimiter ~ symbol_rule_point }` -/
def moveto : Expr Rule :=
  .rule .moveto .compound ((.str c!"MOVETO") ⬝ symbol_rule_delimiter ⬝ symbol_rule_point)

/-- /repo/src/pest/symbol_rule.pest:5: `line = ${ "LINETO" ~ symbol_rule_delimiter ~ symbol_rule_point }` -/
def line : Expr Rule :=
  .rule .line .compound ((.str c!"LINETO") ⬝ symbol_rule_delimiter ⬝ symbol_rule_point)

/-- /repo/src/pest/symbol_rule.pest:6-8: `fillarc = ${ "FILLARC" ~ symbol_rule_delimiter ~ symbol_rule_point ~ symbol_rule_delimiter ~ decimal ~ symbol_rule_delimiter ~ integer ~ symbol_rule_delimiter ~ integer }` -/
def fillarc : Expr Rule :=
  .rule .fillarc .compound ((.str c!"FILLARC") ⬝ symbol_rule_delimiter ⬝ symbol_rule_point ⬝ symbol_rule_delimiter ⬝ decimal ⬝ symbol_rule_delimiter ⬝ integer ⬝ symbol_rule_delimiter ⬝ integer)

/-- /repo/src/pest/symbol_rule.pest:9-11: `fillarc_ellipse = ${ "FILLARC" ~ symbol_rule_delimiter ~ symbol_rule_point ~ symbol_rule_delimiter ~ decimal ~ symbol_rule_delimiter ~ decimal ~ symbol_rule_delimiter ~ integer ~ symbol_rule_delimiter ~ integer }` -/
def fillarc_ellipse : Expr Rule :=
  .rule .fillarc_ellipse .compound ((.str c!"FILLARC") ⬝ symbol_rule_delimiter ⬝ symbol_rule_point ⬝ symbol_rule_delimiter ⬝ decimal ⬝ symbol_rule_delimiter ⬝ decimal ⬝ symbol_rule_delimiter ⬝ integer ⬝ symbol_rule_delimiter ⬝ integer)

/-- /repo/src/pest/symbol_rule.pest:12-14: `arc = ${ "ARC" ~ symbol_rule_delimiter ~ symbol_rule_point ~ symbol_rule_delimiter ~ decimal ~ symbol_rule_delimiter ~ integer ~ symbol_rule_delimiter ~ integer }` -/
def arc : Expr Rule :=
  .rule .arc .compound ((.str c!"ARC") ⬝ symbol_rule_delimiter ⬝ symbol_rule_point ⬝ symbol_rule_delimiter ⬝ decimal ⬝ symbol_rule_delimiter ⬝ integer ⬝ symbol_rule_delimiter ⬝ integer)

/-- /repo/src/pest/symbol_rule.pest:15-17: `arc_ellipse = ${ "ARC" ~ symbol_rule_delimiter ~ symbol_rule_point ~ symbol_rule_delimiter ~ decimal ~ symbol_rule_delimiter ~ decimal ~ symbol_rule_delimiter ~ integer ~ symbol_rule_delimiter ~ integer }` -/
def arc_ellipse : Expr Rule :=
  .rule .arc_ellipse .compound ((.str c!"ARC") ⬝ symbol_rule_delimiter ⬝ symbol_rule_point ⬝ symbol_rule_delimiter ⬝ decimal ⬝ symbol_rule_delimiter ⬝ decimal ⬝ symbol_rule_delimiter ⬝ integer ⬝ symbol_rule_delimiter ⬝ integer)

/-- /repo/src/pest/symbol_rule.pest:18-20: `ellipse = ${ "ELLIPSE" ~ symbol_rule_delimiter ~ symbol_rule_point ~ symbol_rule_delimiter ~ decimal ~ symbol_rule_delimiter ~ decimal }` -/
def ellipse : Expr Rule :=
  .rule .ellipse .compound ((.str c!"ELLIPSE") ⬝ symbol_rule_delimiter ⬝ symbol_rule_point ⬝ symbol_rule_delimiter ⬝ decimal ⬝ symbol_rule_delimiter ⬝ decimal)

/-- /repo/src/pest/symbol_rule.pest:21-23: `ellipse_circle = ${ "ELLIPSE" ~ symbol_rule_delimiter ~ symbol_rule_point ~ symbol_rule_delimiter ~ decimal }` -/
def ellipse_circle : Expr Rule :=
  .rule .ellipse_circle .compound ((.str c!"ELLIPSE") ⬝ symbol_rule_delimiter ⬝ symbol_rule_point ⬝ symbol_rule_delimiter ⬝ decimal)

/-- /repo/src/pest/symbol_rule.pest:24: `polygon = ${ "POLYGON" ~ (symbol_rule_delimiter ~ symbol_rule_point)+ }` -/
def polygon : Expr Rule :=
  .rule .polygon .compound ((.str c!"POLYGON") ⬝ (.plus (symbol_rule_delimiter ⬝ symbol_rule_point)))

/-- /repo/src/pest/symbol_rule.pest:25: `pixel = ${ "SETPIXEL" ~ symbol_rule_delimiter ~ symbol_rule_point }` -/
def pixel : Expr Rule :=
  .rule .pixel .compound ((.str c!"SETPIXEL") ⬝ symbol_rule_delimiter ⬝ symbol_rule_point)

/-- /repo/src/pest/symbol_rule.pest:26-28: `fillrect = ${ "FILLRECT" ~ symbol_rule_delimiter ~ symbol_rule_point ~ symbol_rule_delimiter ~ symbol_rule_point }` -/
def fillrect : Expr Rule :=
  .rule .fillrect .compound ((.str c!"FILLRECT") ⬝ symbol_rule_delimiter ⬝ symbol_rule_point ⬝ symbol_rule_delimiter ⬝ symbol_rule_point)

/-- /repo/src/pest/symbol_rule.pest:1-3: `symbolrule = _{ ( moveto | line | fillarc_ellipse | fillarc | arc_ellipse | arc | polygon | pixel | ellipse | ellipse_circle | fillrect ) ~ NL? }` -/
def symbolrule : Expr Rule :=
  (moveto ∥ line ∥ fillarc_ellipse ∥ fillarc ∥ arc_ellipse ∥ arc ∥ polygon ∥ pixel ∥ ellipse ∥ ellipse_circle ∥ fillrect) ⬝ (.opt NL)

/-- /repo/src/pest/symbology.pest:12: `symbolitem = _{ "SYMBOLITEM:" ~ symbolrule }` -/
def symbolitem : Expr Rule := (.str c!"SYMBOLITEM:") ⬝ symbolrule

/-- /repo/src/pest/symbology.pest:11: `symbol = { "SYMBOL:" ~ integer ~ NL ~ symbolitem+ }` -/
def symbol : Expr Rule :=
  .rule .symbol .normal ((.str c!"SYMBOL:") ⬝ integer ⬝ NL ⬝ (.plus symbolitem))

/-- /repo/src/pest/symbology.pest:15: `clip_area = { "m_ClipArea:" ~ integer }` -/
def clip_area : Expr Rule := .rule .clip_area .normal ((.str c!"m_ClipArea:") ⬝ integer)

/-- /repo/src/pest/symbology.pest:14: `footer = { clip_area ~ NL ~ "END" ~ NL? }` -/
def footer : Expr Rule := .rule .footer .normal (clip_area ⬝ NL ⬝ (.str c!"END") ⬝ (.opt NL))

/-- /repo/src/pest/symbology.pest:1: `symbology = { SOI ~ NL? ~ header ~ items ~ symbol+ ~ footer ~ EOI}` -/
def symbology : Expr Rule :=
  .rule .symbology .normal (.soi ⬝ (.opt NL) ⬝ header ⬝ items ⬝ (.plus symbol) ⬝ footer ⬝ (.eoi .EOI))

/-- The implicit skip of this grammar: `WHITESPACE*` (/repo/src/pest/symbology.pest:17). -/
def skip : St → Res Rule := skipOne WHITESPACE

end Verif.Peg.Symbology
