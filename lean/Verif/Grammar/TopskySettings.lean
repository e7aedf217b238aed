import Verif.Grammar.Base
/-!
# Grammar of TopSky settings

Generated by `tools/pest2lean.py` from `/repo/src/pest/topsky_settings.pest`.
Only rules reachable from the entry rules `settings` are present.
-/

namespace Verif.Peg.TopskySettings

/-- The generated `Rule` (rules that emit tokens). -/
inductive Rule where
  | EOI
  | number
  | colour_setting_rgb
  | name
  | colour_setting
  | setting_value
  | other_setting
  | section_
  | settings
  deriving DecidableEq, Repr

/-- /repo/src/pest/topsky_settings.pest:18: `WHITESPACE = _{ (" " | "\t") }` -/
def WHITESPACE : Expr Rule := .quiet ((.str c!" ") ∥ (.str ['\t']))

/-- /repo/src/pest/topsky_settings.pest:19: `NL = _{ NEWLINE+ }` -/
def NL : Expr Rule := (.plus .newline)

/-- /repo/src/pest/topsky_settings.pest:20: `COMMENT = _{ (";" | "//") ~ (!NL ~ ANY)* }` -/
def COMMENT : Expr Rule := .quiet (((.str c!";") ∥ (.str c!"//")) ⬝ (.star ((.not NL) ⬝ .any)))

/-- /repo/src/pest/topsky_settings.pest:15: `number = @{ ASCII_DIGIT+ }` -/
def number : Expr Rule := .rule .number .atomic (.plus (.cls isAsciiDigit))

/-- /repo/src/pest/topsky_settings.pest:9: `colour_setting_rgb = { number ~ "," ~ number ~ "," ~ number }` -/
def colour_setting_rgb : Expr Rule :=
  .rule .colour_setting_rgb .normal (number ⬝ (.str c!",") ⬝ number ⬝ (.str c!",") ⬝ number)

/-- /repo/src/pest/topsky_settings.pest:14: `name = @{ ("/" | "_" | ASCII_ALPHA | ASCII_DIGIT)+ }` -/
def name : Expr Rule :=
  .rule .name .atomic (.plus ((.str c!"/") ∥ (.str c!"_") ∥ (.cls isAsciiAlpha) ∥ (.cls isAsciiDigit)))

/-- /repo/src/pest/topsky_settings.pest:6-8: `colour_setting = { "Color_" ~ name ~ ("=" ~ colour_setting_rgb)? }` -/
def colour_setting : Expr Rule :=
  .rule .colour_setting .normal ((.str c!"Color_") ⬝ name ⬝ (.opt ((.str c!"=") ⬝ colour_setting_rgb)))

/-- /repo/src/pest/topsky_settings.pest:16: `setting_value = { (!(NL | EOI) ~ ANY)* }` -/
def setting_value : Expr Rule :=
  .rule .setting_value .normal (.star ((.not (NL ∥ (.eoi .EOI))) ⬝ .any))

/-- /repo/src/pest/topsky_settings.pest:10: `other_setting = { name ~ "=" ~ setting_value }` -/
def other_setting : Expr Rule := .rule .other_setting .normal (name ⬝ (.str c!"=") ⬝ setting_value)

/-- /repo/src/pest/topsky_settings.pest:3-5: `setting = _{ (colour_setting | other_setting) }` -/
def setting : Expr Rule := colour_setting ∥ other_setting

/-- /repo/src/pest/topsky_settings.pest:12: `section = { ("[" ~ name ~ "]" | "{" ~ name ~ "}") ~ (NL ~ setting)* }` -/
def section_ : Expr Rule :=
  .rule .section_ .normal ((((.str c!"[") ⬝ name ⬝ (.str c!"]")) ∥ ((.str c!"{") ⬝ name ⬝ (.str c!"}"))) ⬝ (.star (NL ⬝ setting)))

/-- /repo/src/pest/topsky_settings.pest:1: `settings = { SOI? ~ ((SOI | NL) ~ setting)* ~ ((SOI | NL) ~ section)* ~ NL? ~ EOI}` -/
def settings : Expr Rule :=
  .rule .settings .normal ((.opt .soi) ⬝ (.star ((.soi ∥ NL) ⬝ setting)) ⬝ (.star ((.soi ∥ NL) ⬝ section_)) ⬝ (.opt NL) ⬝ (.eoi .EOI))

/-- The implicit skip of this grammar: `WHITESPACE* ~ (COMMENT ~ WHITESPACE*)*` (/repo/src/pest/topsky_settings.pest:18; /repo/src/pest/topsky_settings.pest:20). -/
def skip : St → Res Rule := skipBoth WHITESPACE COMMENT

end Verif.Peg.TopskySettings
