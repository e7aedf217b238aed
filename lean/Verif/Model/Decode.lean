import Verif.Spec.Decode
/-!
# Reading bytes as text

Models `read_to_string`, `/repo/src/lib.rs` 25-33, with the functions of std and encoding_rs it calls.
The result is never an error, so the model returns the text.  Logging is left out.
-/

namespace Verif.Decode
open Verif.Spec.Decode (Byte windows)

/-- A continuation byte. -/
def cont (b : Byte) : Bool := 0x80 ≤ b.val && b.val ≤ 0xBF

/-- The character of a code point. -/
def chr (n : Nat) : Char := Char.ofNat n

/-- The first character and the bytes behind it, as in `run_utf8_validation` of std: overlong encodings, surrogates
and numbers above 0x10FFFF are excluded by the range of the second byte. -/
def next : List Byte → Option (Char × List Byte)
  | [] => none
  | a :: l =>
    if a.val < 0x80 then some (chr a.val, l)
    else if 0xC2 ≤ a.val ∧ a.val ≤ 0xDF then
      match l with
      | b :: l => if cont b then some (chr ((a.val - 0xC0) * 64 + (b.val - 0x80)), l) else none
      | [] => none
    else if 0xE0 ≤ a.val ∧ a.val ≤ 0xEF then
      match l with
      | b :: c :: l =>
        if cont b && cont c && (a.val ≠ 0xE0 || 0xA0 ≤ b.val) && (a.val ≠ 0xED || b.val ≤ 0x9F) then
          some (chr ((a.val - 0xE0) * 4096 + (b.val - 0x80) * 64 + (c.val - 0x80)), l)
        else none
      | _ => none
    else if 0xF0 ≤ a.val ∧ a.val ≤ 0xF4 then
      match l with
      | b :: c :: d :: l =>
        if cont b && cont c && cont d && (a.val ≠ 0xF0 || 0x90 ≤ b.val) && (a.val ≠ 0xF4 || b.val ≤ 0x8F) then
          some (chr ((a.val - 0xF0) * 262144 + (b.val - 0x80) * 4096 + (c.val - 0x80) * 64 + (d.val - 0x80)), l)
        else none
      | _ => none
    else none

/-- At most `n` characters. -/
def decodeUpTo : Nat → List Byte → Option Str
  | _, [] => some []
  | 0, _ :: _ => none
  | n + 1, l@(_ :: _) =>
    match next l with
    | some (c, l) => (decodeUpTo n l).map (c :: ·)
    | none => none

/-- `String::from_utf8`, without the error; every character has at least one byte. -/
def fromUtf8 (bytes : List Byte) : Option Str := decodeUpTo bytes.length bytes

/-- Code units to characters as encoding_rs does: unpaired surrogates become U+FFFD. -/
def fromUtf16 : List Nat → Str
  | [] => []
  | u :: us =>
    if 0xD800 ≤ u ∧ u ≤ 0xDBFF then
      match us with
      | v :: us' =>
        if 0xDC00 ≤ v ∧ v ≤ 0xDFFF then chr (0x10000 + (u - 0xD800) * 0x400 + (v - 0xDC00)) :: fromUtf16 us'
        else '�' :: fromUtf16 (v :: us')
      | [] => ['�']
    else if 0xDC00 ≤ u ∧ u ≤ 0xDFFF then '�' :: fromUtf16 us
    else chr u :: fromUtf16 us

/-- Bytes to code units; an odd byte at the end becomes U+FFFD. -/
def units (unit : Byte → Byte → Nat) : List Byte → List Nat
  | a :: b :: l => unit a b :: units unit l
  | [_] => [0xFFFD]
  | [] => []

/-- `Encoding::decode` of encoding_rs for `WINDOWS_1252`: a byte order mark takes precedence over the encoding and is
removed.  `lossy` is its decoder for UTF-8, which replaces what is invalid. -/
def decodeWindows (lossy : List Byte → Str) (bytes : List Byte) : Str :=
  match bytes with
  | 0xEF :: 0xBB :: 0xBF :: l => lossy l
  | 0xFE :: 0xFF :: l => fromUtf16 (units (fun a b => a.val * 256 + b.val) l)
  | 0xFF :: 0xFE :: l => fromUtf16 (units (fun a b => b.val * 256 + a.val) l)
  | _ => bytes.map windows

/-- `read_to_string`, lib.rs 25-33 -/
def readToString (lossy : List Byte → Str) (bytes : List Byte) : Str :=
  match fromUtf8 bytes with
  | some s => s
  | none => decodeWindows lossy bytes

end Verif.Decode
