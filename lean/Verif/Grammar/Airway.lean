import Verif.Grammar.Base
/-!
# Grammar of airway.txt

Generated by `tools/pest2lean.py` from `/repo/src/pest/airway.pest`.
Only rules reachable from the entry rules `airways` are present.
-/

namespace Verif.Peg.Airway

/-- The generated `Rule` (rules that emit tokens). -/
inductive Rule where
  | EOI
  | airway_type
  | TRUE
  | FALSE
  | level
  | not_established
  | designator
  | DECIMAL
  | coord_part
  | coord
  | neighbour
  | no_neighbour
  | airway
  | airways
  deriving DecidableEq, Repr

/-- /repo/src/pest/airway.pest:33: `COMMENT = _{ (";" | "//") ~ (!NEWLINE ~ ANY)* }` -/
def COMMENT : Expr Rule :=
  .quiet (((.str c!";") ∥ (.str c!"//")) ⬝ (.star ((.not .newline) ⬝ .any)))

/-- /repo/src/pest/airway.pest:9: `airway_type = { "B" | "H" | "L" | "" }` -/
def airway_type : Expr Rule :=
  .rule .airway_type .normal ((.str c!"B") ∥ (.str c!"H") ∥ (.str c!"L") ∥ (.str []))

/-- /repo/src/pest/airway.pest:24: `TRUE = { "Y" }` -/
def TRUE : Expr Rule := .rule .TRUE .normal (.str c!"Y")

/-- /repo/src/pest/airway.pest:25: `FALSE = { "N" }` -/
def FALSE : Expr Rule := .rule .FALSE .normal (.str c!"N")

/-- /repo/src/pest/airway.pest:18: `bool = _{ TRUE | FALSE }` -/
def bool : Expr Rule := TRUE ∥ FALSE

/-- /repo/src/pest/airway.pest:19: `level = { ASCII_DIGIT+ }` -/
def level : Expr Rule := .rule .level .normal (.plus (.cls isAsciiDigit))

/-- /repo/src/pest/airway.pest:20: `not_established = { "NESTB" | "" }` -/
def not_established : Expr Rule := .rule .not_established .normal ((.str c!"NESTB") ∥ (.str []))

/-- /repo/src/pest/airway.pest:22: `designator = { (ASCII_ALPHA_UPPER | ASCII_DIGIT)+ }` -/
def designator : Expr Rule :=
  .rule .designator .normal (.plus ((.cls isAsciiUpper) ∥ (.cls isAsciiDigit)))

/-- /repo/src/pest/airway.pest:30: `DECIMAL = @{ "-"? ~ ASCII_DIGIT+ ~ "." ~ ASCII_DIGIT+ }` -/
def DECIMAL : Expr Rule :=
  .rule .DECIMAL .atomic ((.opt (.str c!"-")) ⬝ (.plus (.cls isAsciiDigit)) ⬝ (.str c!".") ⬝ (.plus (.cls isAsciiDigit)))

/-- /repo/src/pest/airway.pest:28: `coord_part = ${ DECIMAL }` -/
def coord_part : Expr Rule := .rule .coord_part .compound DECIMAL

/-- /repo/src/pest/airway.pest:27: `coord = { coord_part ~ "\t" ~ coord_part }` -/
def coord : Expr Rule := .rule .coord .normal (coord_part ⬝ (.str ['\t']) ⬝ coord_part)

/-- /repo/src/pest/airway.pest:11-13: `neighbour = { "\t" ~ designator ~ "\t" ~ coord ~ "\t" ~ (level | not_established) ~ "\t" ~ bool }` -/
def neighbour : Expr Rule :=
  .rule .neighbour .normal ((.str ['\t']) ⬝ designator ⬝ (.str ['\t']) ⬝ coord ⬝ (.str ['\t']) ⬝ (level ∥ not_established) ⬝ (.str ['\t']) ⬝ bool)

/-- /repo/src/pest/airway.pest:14-16: `no_neighbour = { ("\t" ~ "0"?){5} ~ "N" }` -/
def no_neighbour : Expr Rule :=
  .rule .no_neighbour .normal ((((.str ['\t']) ⬝ (.opt (.str c!"0"))) ⬝ ((.str ['\t']) ⬝ (.opt (.str c!"0"))) ⬝ ((.str ['\t']) ⬝ (.opt (.str c!"0"))) ⬝ ((.str ['\t']) ⬝ (.opt (.str c!"0"))) ⬝ ((.str ['\t']) ⬝ (.opt (.str c!"0")))) ⬝ (.str c!"N"))

/-- /repo/src/pest/airway.pest:32: `NL = _{ NEWLINE+ }` -/
def NL : Expr Rule := (.plus .newline)

/-- /repo/src/pest/airway.pest:3-7: `airway = { designator ~ "\t" ~ coord ~ "\t" ~ "14" ~ "\t" ~ designator ~ "\t" ~ airway_type ~ (no_neighbour | neighbour) ~ (no_neighbour | neighbour) ~ NL }` -/
def airway : Expr Rule :=
  .rule .airway .normal (designator ⬝ (.str ['\t']) ⬝ coord ⬝ (.str ['\t']) ⬝ (.str c!"14") ⬝ (.str ['\t']) ⬝ designator ⬝ (.str ['\t']) ⬝ airway_type ⬝ (no_neighbour ∥ neighbour) ⬝ (no_neighbour ∥ neighbour) ⬝ NL)

/-- /repo/src/pest/airway.pest:1: `airways = { SOI ~ NL? ~ airway+ ~ EOI}` -/
def airways : Expr Rule := .rule .airways .normal (.soi ⬝ (.opt NL) ⬝ (.plus airway) ⬝ (.eoi .EOI))

/-- The implicit skip of this grammar: `COMMENT*` (/repo/src/pest/airway.pest:33). -/
def skip : St → Res Rule := skipOne COMMENT

end Verif.Peg.Airway
