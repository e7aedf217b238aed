import Verif.Grammar.Base
/-!
# Grammar of navdata airports

Generated by `tools/pest2lean.py` from `/repo/src/pest/base.pest`, `/repo/src/pest/navdata_airports.pest`.
Only rules reachable from the entry rules `airports` are present.
-/

namespace Verif.Peg.NavdataAirports

/-- The generated `Rule` (rules that emit tokens). -/
inductive Rule where
  | EOI
  | decimal
  | designator
  | name
  | definition
  | airports
  deriving DecidableEq, Repr

/-- /repo/src/pest/navdata_airports.pest:11: `WHITESPACE = _{ " " | "\t" }` -/
def WHITESPACE : Expr Rule := .quiet ((.str c!" ") ∥ (.str ['\t']))

/-- /repo/src/pest/navdata_airports.pest:10: `COMMENT = _{ (";" | "//") ~ (!NEWLINE ~ ANY)* }` -/
def COMMENT : Expr Rule :=
  .quiet (((.str c!";") ∥ (.str c!"//")) ⬝ (.star ((.not .newline) ⬝ .any)))

/-- /repo/src/pest/base.pest:2: `NL = _{ ((" " | "\t")* ~ NEWLINE)+ }` -/
def NL : Expr Rule := Base.NL

/-- /repo/src/pest/base.pest:3: `decimal = @{ ("-" | "+")? ~ ((ASCII_DIGIT* ~ "." ~ ASCII_DIGIT+) | ASCII_DIGIT+) }` -/
def decimal : Expr Rule := .rule .decimal .atomic Base.decimal

/-- /repo/src/pest/navdata_airports.pest:7: `designator = @{ (LETTER | ASCII_DIGIT)+ }` -/
def designator [UnicodeTables] : Expr Rule :=
  .rule .designator .atomic (.plus ((.cls UnicodeTables.letter) ∥ (.cls isAsciiDigit)))

/-- /repo/src/pest/navdata_airports.pest:8: `name = @{ (!NEWLINE ~ ANY)+ }` -/
def name : Expr Rule := .rule .name .atomic (.plus ((.not .newline) ⬝ .any))

/-- /repo/src/pest/navdata_airports.pest:3-5: `definition = { designator ~ decimal ~ decimal ~ name ~ NL? }` -/
def definition [UnicodeTables] : Expr Rule :=
  .rule .definition .normal (designator ⬝ decimal ⬝ decimal ⬝ name ⬝ (.opt NL))

/-- /repo/src/pest/navdata_airports.pest:1: `airports = { SOI ~ NL? ~ (COMMENT | definition)* ~ EOI }` -/
def airports [UnicodeTables] : Expr Rule :=
  .rule .airports .normal (.soi ⬝ (.opt NL) ⬝ (.star (COMMENT ∥ definition)) ⬝ (.eoi .EOI))

/-- The implicit skip of this grammar: `WHITESPACE* ~ (COMMENT ~ WHITESPACE*)*` (/repo/src/pest/navdata_airports.pest:11; /repo/src/pest/navdata_airports.pest:10). -/
def skip : St → Res Rule := skipBoth WHITESPACE COMMENT

end Verif.Peg.NavdataAirports
