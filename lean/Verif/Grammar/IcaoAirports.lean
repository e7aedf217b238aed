import Verif.Grammar.Base
/-!
# Grammar of ICAO_Airports.txt

Generated by `tools/pest2lean.py` from `/repo/src/pest/base.pest`, `/repo/src/pest/icao_airports.pest`.
Only rules reachable from the entry rules `aircraft` are present.
-/

namespace Verif.Peg.IcaoAirports

/-- The generated `Rule` (rules that emit tokens). -/
inductive Rule where
  | EOI
  | designator
  | tab_delimited_text
  | name
  | country
  | definition
  | aircraft
  deriving DecidableEq, Repr

/-- /repo/src/pest/icao_airports.pest:12: `WHITESPACE = _{ " " }` -/
def WHITESPACE : Expr Rule := .quiet (.str c!" ")

/-- /repo/src/pest/icao_airports.pest:11: `COMMENT = _{ (";" | "//") ~ (!NEWLINE ~ ANY)* }` -/
def COMMENT : Expr Rule :=
  .quiet (((.str c!";") ∥ (.str c!"//")) ⬝ (.star ((.not .newline) ⬝ .any)))

/-- /repo/src/pest/base.pest:2: `NL = _{ ((" " | "\t")* ~ NEWLINE)+ }` -/
def NL : Expr Rule := Base.NL

/-- /repo/src/pest/icao_airports.pest:7: `designator = @{ (LETTER | ASCII_DIGIT)+ }` -/
def designator [UnicodeTables] : Expr Rule :=
  .rule .designator .atomic (.plus ((.cls UnicodeTables.letter) ∥ (.cls isAsciiDigit)))

/-- /repo/src/pest/base.pest:24: `tab_delimited_text = @{ (!(NL | (" "* ~ "\t")) ~ ANY)* }` -/
def tab_delimited_text : Expr Rule := .rule .tab_delimited_text .atomic Base.tab_delimited_text

/-- /repo/src/pest/icao_airports.pest:8: `name = @{ tab_delimited_text }` -/
def name : Expr Rule := .rule .name .atomic tab_delimited_text

/-- /repo/src/pest/icao_airports.pest:9: `country = @{ tab_delimited_text }` -/
def country : Expr Rule := .rule .country .atomic tab_delimited_text

/-- /repo/src/pest/icao_airports.pest:3-5: `definition = { designator ~ "\t" ~ name ~ "\t" ~ country ~ NL? }` -/
def definition [UnicodeTables] : Expr Rule :=
  .rule .definition .normal (designator ⬝ (.str ['\t']) ⬝ name ⬝ (.str ['\t']) ⬝ country ⬝ (.opt NL))

/-- /repo/src/pest/icao_airports.pest:1: `aircraft = { SOI ~ NL? ~ (COMMENT | definition)+ ~ EOI }` -/
def aircraft [UnicodeTables] : Expr Rule :=
  .rule .aircraft .normal (.soi ⬝ (.opt NL) ⬝ (.plus (COMMENT ∥ definition)) ⬝ (.eoi .EOI))

/-- The implicit skip of this grammar: `WHITESPACE* ~ (COMMENT ~ WHITESPACE*)*` (/repo/src/pest/icao_airports.pest:12; /repo/src/pest/icao_airports.pest:11). -/
def skip : St → Res Rule := skipBoth WHITESPACE COMMENT

end Verif.Peg.IcaoAirports
