import Verif.Grammar.Base
/-!
# Grammar of ICAO_Aircraft.txt

Generated by `tools/pest2lean.py` from `/repo/src/pest/base.pest`, `/repo/src/pest/icao_aircraft.pest`.
Only rules reachable from the entry rules `aircraft` are present.
-/

namespace Verif.Peg.IcaoAircraft

/-- The generated `Rule` (rules that emit tokens). -/
inductive Rule where
  | EOI
  | designator
  | wtc
  | aircrafttype
  | num_engines
  | enginetype
  | tab_delimited_text
  | manufacturer
  | name
  | definition
  | continued_name
  | aircraft
  deriving DecidableEq, Repr

/-- /repo/src/pest/icao_aircraft.pest:17: `WHITESPACE = _{ " " }` -/
def WHITESPACE : Expr Rule := .quiet (.str c!" ")

/-- /repo/src/pest/icao_aircraft.pest:16: `COMMENT = _{ (";" | "//") ~ (!NEWLINE ~ ANY)* }` -/
def COMMENT : Expr Rule :=
  .quiet (((.str c!";") ∥ (.str c!"//")) ⬝ (.star ((.not .newline) ⬝ .any)))

/-- /repo/src/pest/base.pest:2: `NL = _{ ((" " | "\t")* ~ NEWLINE)+ }` -/
def NL : Expr Rule := Base.NL

/-- /repo/src/pest/icao_aircraft.pest:8: `designator = @{ (LETTER | ASCII_DIGIT){1, 4} }` -/
def designator [UnicodeTables] : Expr Rule :=
  .rule .designator .atomic (((.cls UnicodeTables.letter) ∥ (.cls isAsciiDigit)) ⬝ (.opt ((.cls UnicodeTables.letter) ∥ (.cls isAsciiDigit))) ⬝ (.opt ((.cls UnicodeTables.letter) ∥ (.cls isAsciiDigit))) ⬝ (.opt ((.cls UnicodeTables.letter) ∥ (.cls isAsciiDigit))))

/-- /repo/src/pest/icao_aircraft.pest:9: `wtc = @{ ("L" | "M" | "H" | "J" | "-") }` -/
def wtc : Expr Rule :=
  .rule .wtc .atomic ((.str c!"L") ∥ (.str c!"M") ∥ (.str c!"H") ∥ (.str c!"J") ∥ (.str c!"-"))

/-- /repo/src/pest/icao_aircraft.pest:10: `aircrafttype = @{ ("L" | "S" | "A" | "G" | "H" | "T" | "-") }` -/
def aircrafttype : Expr Rule :=
  .rule .aircrafttype .atomic ((.str c!"L") ∥ (.str c!"S") ∥ (.str c!"A") ∥ (.str c!"G") ∥ (.str c!"H") ∥ (.str c!"T") ∥ (.str c!"-"))

/-- /repo/src/pest/icao_aircraft.pest:11: `num_engines = @{ (NUMBER | "C" | "-") }` -/
def num_engines [UnicodeTables] : Expr Rule :=
  .rule .num_engines .atomic ((.cls UnicodeTables.number) ∥ (.str c!"C") ∥ (.str c!"-"))

/-- /repo/src/pest/icao_aircraft.pest:12: `enginetype = @{ ("P" | "T" | "J" | "E" | "R" | "-") }` -/
def enginetype : Expr Rule :=
  .rule .enginetype .atomic ((.str c!"P") ∥ (.str c!"T") ∥ (.str c!"J") ∥ (.str c!"E") ∥ (.str c!"R") ∥ (.str c!"-"))

/-- /repo/src/pest/base.pest:24: `tab_delimited_text = @{ (!(NL | (" "* ~ "\t")) ~ ANY)* }` -/
def tab_delimited_text : Expr Rule := .rule .tab_delimited_text .atomic Base.tab_delimited_text

/-- /repo/src/pest/icao_aircraft.pest:13: `manufacturer = @{ tab_delimited_text }` -/
def manufacturer : Expr Rule := .rule .manufacturer .atomic tab_delimited_text

/-- /repo/src/pest/icao_aircraft.pest:14: `name = @{ tab_delimited_text }` -/
def name : Expr Rule := .rule .name .atomic tab_delimited_text

/-- /repo/src/pest/icao_aircraft.pest:3-5: `definition = { designator ~ "\t" ~ wtc ~ aircrafttype ~ num_engines ~ enginetype ~ "\t" ~ manufacturer ~ "\t" ~ name ~ NL? }` -/
def definition [UnicodeTables] : Expr Rule :=
  .rule .definition .normal (designator ⬝ (.str ['\t']) ⬝ wtc ⬝ aircrafttype ⬝ num_engines ⬝ enginetype ⬝ (.str ['\t']) ⬝ manufacturer ⬝ (.str ['\t']) ⬝ name ⬝ (.opt NL))

/-- /repo/src/pest/icao_aircraft.pest:6: `continued_name = { (!("\t" | NEWLINE) ~ ANY)+ ~ NL? }` -/
def continued_name : Expr Rule :=
  .rule .continued_name .normal ((.plus ((.not ((.str ['\t']) ∥ .newline)) ⬝ .any)) ⬝ (.opt NL))

/-- /repo/src/pest/icao_aircraft.pest:1: `aircraft = { SOI ~ NL? ~ (COMMENT | definition | continued_name)+ ~ EOI }` -/
def aircraft [UnicodeTables] : Expr Rule :=
  .rule .aircraft .normal (.soi ⬝ (.opt NL) ⬝ (.plus (COMMENT ∥ definition ∥ continued_name)) ⬝ (.eoi .EOI))

/-- The implicit skip of this grammar: `WHITESPACE* ~ (COMMENT ~ WHITESPACE*)*` (/repo/src/pest/icao_aircraft.pest:17; /repo/src/pest/icao_aircraft.pest:16). -/
def skip : St → Res Rule := skipBoth WHITESPACE COMMENT

end Verif.Peg.IcaoAircraft
