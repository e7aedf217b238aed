import Verif.Grammar.Base
/-!
# Grammar of ICAO_Airlines.txt

Generated by `tools/pest2lean.py` from `/repo/src/pest/base.pest`, `/repo/src/pest/icao_airlines.pest`.
Only rules reachable from the entry rules `airlines` are present.
-/

namespace Verif.Peg.IcaoAirlines

/-- The generated `Rule` (rules that emit tokens). -/
inductive Rule where
  | EOI
  | designator
  | tab_delimited_text
  | name
  | callsign
  | country
  | definition
  | airlines
  deriving DecidableEq, Repr

/-- /repo/src/pest/icao_airlines.pest:13: `WHITESPACE = _{ " " }` -/
def WHITESPACE : Expr Rule := .quiet (.str c!" ")

/-- /repo/src/pest/icao_airlines.pest:12: `COMMENT = _{ (";" | "//") ~ (!NEWLINE ~ ANY)* }` -/
def COMMENT : Expr Rule :=
  .quiet (((.str c!";") ∥ (.str c!"//")) ⬝ (.star ((.not .newline) ⬝ .any)))

/-- /repo/src/pest/base.pest:2: `NL = _{ ((" " | "\t")* ~ NEWLINE)+ }` -/
def NL : Expr Rule := Base.NL

/-- /repo/src/pest/icao_airlines.pest:7: `designator = @{ ASCII_ALPHA_UPPER{3} }` -/
def designator : Expr Rule :=
  .rule .designator .atomic ((.cls isAsciiUpper) ⬝ (.cls isAsciiUpper) ⬝ (.cls isAsciiUpper))

/-- /repo/src/pest/base.pest:24: `tab_delimited_text = @{ (!(NL | (" "* ~ "\t")) ~ ANY)* }` -/
def tab_delimited_text : Expr Rule := .rule .tab_delimited_text .atomic Base.tab_delimited_text

/-- /repo/src/pest/icao_airlines.pest:8: `name = @{ tab_delimited_text }` -/
def name : Expr Rule := .rule .name .atomic tab_delimited_text

/-- /repo/src/pest/icao_airlines.pest:9: `callsign = @{ tab_delimited_text }` -/
def callsign : Expr Rule := .rule .callsign .atomic tab_delimited_text

/-- /repo/src/pest/icao_airlines.pest:10: `country = @{ tab_delimited_text }` -/
def country : Expr Rule := .rule .country .atomic tab_delimited_text

/-- /repo/src/pest/icao_airlines.pest:3-5: `definition = { designator ~ "\t" ~ name ~ "\t" ~ callsign ~ "\t" ~ country ~ NL? }` -/
def definition : Expr Rule :=
  .rule .definition .normal (designator ⬝ (.str ['\t']) ⬝ name ⬝ (.str ['\t']) ⬝ callsign ⬝ (.str ['\t']) ⬝ country ⬝ (.opt NL))

/-- /repo/src/pest/icao_airlines.pest:1: `airlines = { SOI ~ NL? ~ (COMMENT | definition)+ ~ EOI }` -/
def airlines : Expr Rule :=
  .rule .airlines .normal (.soi ⬝ (.opt NL) ⬝ (.plus (COMMENT ∥ definition)) ⬝ (.eoi .EOI))

/-- The implicit skip of this grammar: `WHITESPACE* ~ (COMMENT ~ WHITESPACE*)*` (/repo/src/pest/icao_airlines.pest:13; /repo/src/pest/icao_airlines.pest:12). -/
def skip : St → Res Rule := skipBoth WHITESPACE COMMENT

end Verif.Peg.IcaoAirlines
