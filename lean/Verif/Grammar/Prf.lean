import Verif.Grammar.Base
/-!
# Grammar of profiles

Generated by `tools/pest2lean.py` from `/repo/src/pest/prf.pest`.
Only rules reachable from the entry rules `prf` are present.
-/

namespace Verif.Peg.Prf

/-- The generated `Rule` (rules that emit tokens). -/
inductive Rule where
  | EOI
  | category
  | key
  | value
  | setting
  | prf
  deriving DecidableEq, Repr

/-- /repo/src/pest/prf.pest:12: `WHITESPACE = _{ " "| "\t" }` -/
def WHITESPACE : Expr Rule := .quiet ((.str c!" ") ∥ (.str ['\t']))

/-- /repo/src/pest/prf.pest:7: `category = @{ LETTER+ }` -/
def category [UnicodeTables] : Expr Rule :=
  .rule .category .atomic (.plus (.cls UnicodeTables.letter))

/-- /repo/src/pest/prf.pest:8: `key = @{ (LETTER | ASCII_DIGIT | "_")+ }` -/
def key [UnicodeTables] : Expr Rule :=
  .rule .key .atomic (.plus ((.cls UnicodeTables.letter) ∥ (.cls isAsciiDigit) ∥ (.str c!"_")))

/-- /repo/src/pest/prf.pest:9: `value = @{ (!"\n" ~ ANY)+ }` -/
def value : Expr Rule := .rule .value .atomic (.plus ((.not (.str ['\n'])) ⬝ .any))

/-- /repo/src/pest/prf.pest:11: `NL = _{ NEWLINE+ }` -/
def NL : Expr Rule := (.plus .newline)

/-- /repo/src/pest/prf.pest:3-5: `setting = { category ~ key ~ value ~ NL? }` -/
def setting [UnicodeTables] : Expr Rule :=
  .rule .setting .normal (category ⬝ key ⬝ value ⬝ (.opt NL))

/-- /repo/src/pest/prf.pest:1: `prf = { SOI ~ NL? ~ setting+ ~ EOI}` -/
def prf [UnicodeTables] : Expr Rule :=
  .rule .prf .normal (.soi ⬝ (.opt NL) ⬝ (.plus setting) ⬝ (.eoi .EOI))

/-- The implicit skip of this grammar: `WHITESPACE*` (/repo/src/pest/prf.pest:12). -/
def skip : St → Res Rule := skipOne WHITESPACE

end Verif.Peg.Prf
