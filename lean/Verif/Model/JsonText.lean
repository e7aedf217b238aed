import Verif.Model.Json
import Verif.Model.Decode
import Verif.Base.Num
/-!
# The text of JSON

Models how `serde_json` reads and writes JSON texts: `from_slice`, `from_str` and `to_string`, which are called in
/repo/src/squawks.rs 40 and /repo/src/adaptation/mod.rs 228, 283 and 308.  `serde_json` reads the text and makes the value at once;
here a value of `J` is in between.

* `fits` tells whether a number is in the range of `f64`: a number that is not is an error.
* The text of a number is read as far as there are characters of numbers, and then looked at.  `serde_json` stops earlier in front of
  a second sign, dot or exponent, where it finds an error as well.
* `serde_json` is more tolerant in the values of fields that are ignored: half surrogates, bytes that are not UTF-8, numbers that are
  too large and deeper nesting are not noticed there.
-/

namespace Verif.JsonText
open Verif.Json (J)

/-! ## Reading -/

/-- White space between tokens -/
def isWs (c : Char) : Bool := c == ' ' || c == '\n' || c == '\t' || c == '\r'

/-- `parse_whitespace` -/
def skipWs (s : Str) : Str := s.dropWhile isWs

/-- `decode_hex_escape`: four digits -/
def hex4 : Str → Option (Nat × Str)
  | a :: b :: c :: d :: s => (digitsIn 16 [a, b, c, d]).map fun n => (n, s)
  | _ => none

/-- `parse_escape`, the escapes of one letter -/
def simpleEscape (c : Char) : Option Char :=
  if c = '"' then some '"'
  else if c = '\\' then some '\\'
  else if c = '/' then some '/'
  else if c = 'b' then some (Char.ofNat 8)
  else if c = 'f' then some (Char.ofNat 12)
  else if c = 'n' then some '\n'
  else if c = 'r' then some '\r'
  else if c = 't' then some '\t'
  else none

/-- `parse_unicode_escape`: a character beyond U+FFFF is given by two escapes. -/
def unicodeEscape (s : Str) : Option (Char × Str) :=
  match hex4 s with
  | none => none
  | some (n, s) =>
    if 0xDC00 ≤ n ∧ n ≤ 0xDFFF then none
    else if 0xD800 ≤ n ∧ n ≤ 0xDBFF then
      match s with
      | a :: b :: s =>
        if a = '\\' ∧ b = 'u' then
          match hex4 s with
          | none => none
          | some (m, s) =>
            if 0xDC00 ≤ m ∧ m ≤ 0xDFFF then some (Char.ofNat (0x10000 + (n - 0xD800) * 0x400 + (m - 0xDC00)), s) else none
        else none
      | _ => none
    else some (Char.ofNat n, s)

/-- `parse_escape`, behind the backslash -/
def escape : Str → Option (Char × Str)
  | [] => none
  | c :: s => if c = 'u' then unicodeEscape s else (simpleEscape c).map fun d => (d, s)

/-- `parse_str`, behind the quotation mark: the characters, and what comes behind the closing quotation mark. -/
def chars : Nat → Str → Option (Str × Str)
  | 0, _ => none
  | _ + 1, [] => none
  | n + 1, c :: s =>
    if c = '"' then some ([], s)
    else if c = '\\' then
      match escape s with
      | none => none
      | some (d, s) => (chars n s).map fun q => (d :: q.1, q.2)
    else if c.toNat < 32 then none
    else (chars n s).map fun q => (c :: q.1, q.2)

/-- A quotation mark, and a string -/
def string : Str → Option (Str × Str)
  | [] => none
  | c :: s => if c = '"' then chars (s.length + 1) s else none

/-- The characters of numbers -/
def isNumChar (c : Char) : Bool := isAsciiDigit c || c == '-' || c == '+' || c == '.' || c == 'e' || c == 'E'

/-- The digits behind the dot, which there may be none of if there is no dot -/
def fraction : Str → Option (Str × Str)
  | [] => some ([], [])
  | c :: s =>
    if c = '.' then
      if (s.takeWhile isAsciiDigit).isEmpty then none else some (s.takeWhile isAsciiDigit, s.dropWhile isAsciiDigit)
    else some ([], c :: s)

/-- A whole number with a sign or without one -/
def exponentValue : Str → Option Int
  | [] => none
  | c :: s =>
    if c = '-' then if isNumeral s then some (-(digitsValue s : Int)) else none
    else if c = '+' then if isNumeral s then some (digitsValue s : Int) else none
    else if isNumeral (c :: s) then some (digitsValue (c :: s) : Int) else none

/-- The exponent, up to the end of the number -/
def exponent : Str → Option Int
  | [] => some 0
  | c :: s => if c = 'e' ∨ c = 'E' then exponentValue s else none

/-- The value of a number without a sign -/
def unsigned (s : Str) : Option Rat :=
  let whole := s.takeWhile isAsciiDigit
  if whole.isEmpty ∨ (whole.head? = some '0' ∧ 1 < whole.length) then none
  else
    match fraction (s.dropWhile isAsciiDigit) with
    | none => none
    | some (frac, s) =>
      (exponent s).map fun e => (digitsValue (whole ++ frac) : Rat) * (10 : Rat) ^ (e - (frac.length : Int))

/-- The value of a number -/
def number : Str → Option Rat
  | [] => none
  | c :: s => if c = '-' then (unsigned s).map fun q => -q else unsigned (c :: s)

/-- A number, and what comes behind it -/
def numberThen (fits : Rat → Bool) (s : Str) : Option (J × Str) :=
  match number (s.takeWhile isNumChar) with
  | none => none
  | some q => if fits q then some (.num q, s.dropWhile isNumChar) else none

/-- A word, and what comes behind it -/
def word (w : Str) (j : J) (s : Str) : Option (J × Str) := if w <+: s then some (j, s.drop w.length) else none

mutual
/-- `parse_value`, on a text that does not start with white space.  The first number bounds the steps, the second one is the number of
objects and arrays that may still be nested. -/
def value (fits : Rat → Bool) : Nat → Nat → Str → Option (J × Str)
  | 0, _, _ => none
  | _ + 1, _, [] => none
  | n + 1, depth, c :: s =>
    if c = '"' then (string (c :: s)).map fun p => (.str p.1, p.2)
    else if c = '[' then
      match depth with
      | 0 => none
      | depth + 1 =>
        if (skipWs s).head? = some ']' then some (.arr [], (skipWs s).drop 1)
        else (items fits n depth (skipWs s)).map fun p => (.arr p.1, p.2)
    else if c = '{' then
      match depth with
      | 0 => none
      | depth + 1 =>
        if (skipWs s).head? = some '}' then some (.obj [], (skipWs s).drop 1)
        else (fields fits n depth (skipWs s)).map fun p => (.obj p.1, p.2)
    else if c = '-' ∨ isAsciiDigit c then numberThen fits (c :: s)
    else if c = 'n' then word c!"null" .null (c :: s)
    else if c = 't' then word c!"true" (.bool true) (c :: s)
    else if c = 'f' then word c!"false" (.bool false) (c :: s)
    else none

/-- The items of an array up to its end -/
def items (fits : Rat → Bool) : Nat → Nat → Str → Option (List J × Str)
  | 0, _, _ => none
  | n + 1, depth, s =>
    match value fits n depth s with
    | none => none
    | some (j, s) =>
      match skipWs s with
      | [] => none
      | c :: s =>
        if c = ',' then (items fits n depth (skipWs s)).map fun p => (j :: p.1, p.2)
        else if c = ']' then some ([j], s)
        else none

/-- The fields of an object up to its end -/
def fields (fits : Rat → Bool) : Nat → Nat → Str → Option (List (Str × J) × Str)
  | 0, _, _ => none
  | n + 1, depth, s =>
    match string s with
    | none => none
    | some (k, s) =>
      match skipWs s with
      | [] => none
      | c :: s =>
        if c = ':' then
          match value fits n depth (skipWs s) with
          | none => none
          | some (j, s) =>
            match skipWs s with
            | [] => none
            | c :: s =>
              if c = ',' then (fields fits n depth (skipWs s)).map fun p => ((k, j) :: p.1, p.2)
              else if c = '}' then some ([(k, j)], s)
              else none
        else none
end

/-- How deep objects and arrays may be nested: `remaining_depth` starts with 128 and must not become 0. -/
def maxDepth : Nat := 127

/-- `serde_json::from_str` -/
def read (fits : Rat → Bool) (s : Str) : Option J :=
  match value fits (2 * s.length + 2) maxDepth (skipWs s) with
  | none => none
  | some (j, s) => if (skipWs s).isEmpty then some j else none

/-- `serde_json::from_slice` -/
def readBytes (fits : Rat → Bool) (bytes : List Spec.Decode.Byte) : Option J := (Decode.fromUtf8 bytes).bind (read fits)

/-! ## Writing -/

/-- `format_escaped_str_contents`: the escape of a character -/
def writeChar (c : Char) : Str :=
  if c = '"' then c!"\\\""
  else if c = '\\' then c!"\\\\"
  else if c.toNat = 8 then c!"\\b"
  else if c.toNat = 9 then c!"\\t"
  else if c.toNat = 10 then c!"\\n"
  else if c.toNat = 12 then c!"\\f"
  else if c.toNat = 13 then c!"\\r"
  else if c.toNat < 32 then c!"\\u" ++ padZero 4 (showRadix 16 c.toNat)
  else [c]

/-- `format_escaped_str` -/
def writeStr (s : Str) : Str := '"' :: (s.flatMap writeChar ++ ['"'])

mutual
/-- `to_string`; `num` is how numbers are printed. -/
def write (num : Rat → Str) : J → Str
  | .null => c!"null"
  | .bool true => c!"true"
  | .bool false => c!"false"
  | .num q => num q
  | .str s => writeStr s
  | .arr [] => c!"[]"
  | .arr (j :: l) => '[' :: (write num j ++ writeItems num l)
  | .obj [] => c!"{}"
  | .obj ((k, j) :: l) => '{' :: (writeStr k ++ ':' :: (write num j ++ writeFields num l))

/-- The other items of an array and its end -/
def writeItems (num : Rat → Str) : List J → Str
  | [] => c!"]"
  | j :: l => ',' :: (write num j ++ writeItems num l)

/-- The other fields of an object and its end -/
def writeFields (num : Rat → Str) : List (Str × J) → Str
  | [] => c!"}"
  | (k, j) :: l => ',' :: (writeStr k ++ ':' :: (write num j ++ writeFields num l))
end

end Verif.JsonText
