import Verif.Grammar.Base
/-!
# Grammar of isec.txt

Generated by `tools/pest2lean.py` from `/repo/src/pest/isec.pest`.
Only rules reachable from the entry rules `wpts` are present.
-/

namespace Verif.Peg.Isec

/-- The generated `Rule` (rules that emit tokens). -/
inductive Rule where
  | EOI
  | designator
  | DECIMAL
  | coord_part
  | coord
  | wpt
  | wpts
  deriving DecidableEq, Repr

/-- /repo/src/pest/isec.pest:16: `WHITESPACE = _{ " "| "\t" }` -/
def WHITESPACE : Expr Rule := .quiet ((.str c!" ") ∥ (.str ['\t']))

/-- /repo/src/pest/isec.pest:15: `COMMENT = _{ (";" | "//") ~ (!NEWLINE ~ ANY)* }` -/
def COMMENT : Expr Rule :=
  .quiet (((.str c!";") ∥ (.str c!"//")) ⬝ (.star ((.not .newline) ⬝ .any)))

/-- /repo/src/pest/isec.pest:7: `designator = ${ (ASCII_ALPHA_UPPER | ASCII_DIGIT)+ }` -/
def designator : Expr Rule :=
  .rule .designator .compound (.plus ((.cls isAsciiUpper) ∥ (.cls isAsciiDigit)))

/-- /repo/src/pest/isec.pest:12: `DECIMAL = @{ "-"? ~ ASCII_DIGIT+ ~ "." ~ ASCII_DIGIT+ }` -/
def DECIMAL : Expr Rule :=
  .rule .DECIMAL .atomic ((.opt (.str c!"-")) ⬝ (.plus (.cls isAsciiDigit)) ⬝ (.str c!".") ⬝ (.plus (.cls isAsciiDigit)))

/-- /repo/src/pest/isec.pest:10: `coord_part = ${ DECIMAL }` -/
def coord_part : Expr Rule := .rule .coord_part .compound DECIMAL

/-- /repo/src/pest/isec.pest:9: `coord = { coord_part ~ coord_part }` -/
def coord : Expr Rule := .rule .coord .normal (coord_part ⬝ coord_part)

/-- /repo/src/pest/isec.pest:14: `NL = _{ NEWLINE+ }` -/
def NL : Expr Rule := (.plus .newline)

/-- /repo/src/pest/isec.pest:3-5: `wpt = { designator ~ coord ~ "15" ~ NL }` -/
def wpt : Expr Rule := .rule .wpt .normal (designator ⬝ coord ⬝ (.str c!"15") ⬝ NL)

/-- /repo/src/pest/isec.pest:1: `wpts = { SOI ~ NL? ~ wpt+ ~ EOI}` -/
def wpts : Expr Rule := .rule .wpts .normal (.soi ⬝ (.opt NL) ⬝ (.plus wpt) ⬝ (.eoi .EOI))

/-- The implicit skip of this grammar: `WHITESPACE* ~ (COMMENT ~ WHITESPACE*)*` (/repo/src/pest/isec.pest:16; /repo/src/pest/isec.pest:15). -/
def skip : St → Res Rule := skipBoth WHITESPACE COMMENT

end Verif.Peg.Isec
