import Verif.Peg.Core
/-!
# Token-free rule bodies of `/repo/src/pest/base.pest`

Generated by `tools/pest2lean.py`: the bodies of the rules of the shared grammar file that
contain no other token rule.
-/

namespace Verif

/-- `'a'..'b'` in a grammar -/
def inRange (a b : Char) (c : Char) : Bool := decide (a.toNat ≤ c.toNat) && decide (c.toNat ≤ b.toNat)

/-- `ASCII_ALPHA` -/
def isAsciiAlpha (c : Char) : Bool := isAsciiUpper c || isAsciiLower c

/-- `ASCII_ALPHANUMERIC` -/
def isAsciiAlphanumeric (c : Char) : Bool := isAsciiAlpha c || isAsciiDigit c

namespace Peg.Base
variable {R : Type}

/-- /repo/src/pest/base.pest:2: `NL = _{ ((" " | "\t")* ~ NEWLINE)+ }` -/
def NL : Expr R := (.plus ((.star ((.str c!" ") ∥ (.str ['\t']))) ⬝ .newline))

/-- /repo/src/pest/base.pest:3: `decimal = @{ ("-" | "+")? ~ ((ASCII_DIGIT* ~ "." ~ ASCII_DIGIT+) | ASCII_DIGIT+) }` -/
def decimal : Expr R := ((.opt ((.str c!"-") ∥ (.str c!"+"))) ⬝ (((.star (.cls isAsciiDigit)) ⬝ (.str c!".") ⬝ (.plus (.cls isAsciiDigit))) ∥ (.plus (.cls isAsciiDigit))))

/-- /repo/src/pest/base.pest:4: `integer = @{ ("-" | "+")? ~ ASCII_DIGIT+ }` -/
def integer : Expr R := ((.opt ((.str c!"-") ∥ (.str c!"+"))) ⬝ (.plus (.cls isAsciiDigit)))

/-- /repo/src/pest/base.pest:5: `pos_integer = @{ "+"? ~ ASCII_DIGIT+ }` -/
def pos_integer : Expr R := ((.opt (.str c!"+")) ⬝ (.plus (.cls isAsciiDigit)))

/-- /repo/src/pest/base.pest:10: `deg = @{ ASCII_DIGIT+ }` -/
def deg : Expr R := (.plus (.cls isAsciiDigit))

/-- /repo/src/pest/base.pest:11: `min = @{ ASCII_DIGIT+ }` -/
def min : Expr R := (.plus (.cls isAsciiDigit))

/-- /repo/src/pest/base.pest:13: `hemi = @{ "N" | "S" | "W" | "E" | "n" | "s" | "w" | "e" }` -/
def hemi : Expr R := ((.str c!"N") ∥ (.str c!"S") ∥ (.str c!"W") ∥ (.str c!"E") ∥ (.str c!"n") ∥ (.str c!"s") ∥ (.str c!"w") ∥ (.str c!"e"))

/-- /repo/src/pest/base.pest:14: `direction = @{ "<" | ">" }` -/
def direction : Expr R := ((.str c!"<") ∥ (.str c!">"))

/-- /repo/src/pest/base.pest:16: `runway_designator = @{ ASCII_DIGIT{2} ~ ("L" | "C" | "R" | "G")? }` -/
def runway_designator : Expr R := (((.cls isAsciiDigit) ⬝ (.cls isAsciiDigit)) ⬝ (.opt ((.str c!"L") ∥ (.str c!"C") ∥ (.str c!"R") ∥ (.str c!"G"))))

/-- /repo/src/pest/base.pest:20: `colon_delimited_text = @{ (!(NL | ":") ~ ANY)* }` -/
def colon_delimited_text : Expr R := (.star ((.not (NL ∥ (.str c!":"))) ⬝ .any))

/-- /repo/src/pest/base.pest:21: `comma_delimited_text = @{ (!(NL | ":" | ",") ~ ANY)* }` -/
def comma_delimited_text : Expr R := (.star ((.not (NL ∥ (.str c!":") ∥ (.str c!","))) ⬝ .any))

/-- /repo/src/pest/base.pest:22: `backslash_delimited_text = @{ (!(NL | "\\") ~ ANY)* }` -/
def backslash_delimited_text : Expr R := (.star ((.not (NL ∥ (.str ['\\']))) ⬝ .any))

/-- /repo/src/pest/base.pest:23: `quote_delimited_text = @{ (!(NL | "\"") ~ ANY)* }` -/
def quote_delimited_text : Expr R := (.star ((.not (NL ∥ (.str ['"']))) ⬝ .any))

/-- /repo/src/pest/base.pest:24: `tab_delimited_text = @{ (!(NL | (" "* ~ "\t")) ~ ANY)* }` -/
def tab_delimited_text : Expr R := (.star ((.not (NL ∥ ((.star (.str c!" ")) ⬝ (.str ['\t'])))) ⬝ .any))

end Peg.Base
end Verif
