import Verif.Base.Core
/-!
# Specification for reading bytes as text
-/

namespace Verif.Spec.Decode

abbrev Byte := Fin 256

/-- The UTF-8 encoding of a character (Unicode standard, table 3-6). -/
def encode (c : Char) : List Byte :=
  let n := c.toNat
  if n < 0x80 then [Fin.ofNat 256 n]
  else if n < 0x800 then [Fin.ofNat 256 (0xC0 + n / 64), Fin.ofNat 256 (0x80 + n % 64)]
  else if n < 0x10000 then [Fin.ofNat 256 (0xE0 + n / 4096), Fin.ofNat 256 (0x80 + n / 64 % 64), Fin.ofNat 256 (0x80 + n % 64)]
  else [Fin.ofNat 256 (0xF0 + n / 262144), Fin.ofNat 256 (0x80 + n / 4096 % 64), Fin.ofNat 256 (0x80 + n / 64 % 64),
    Fin.ofNat 256 (0x80 + n % 64)]

/-- The bytes are the UTF-8 encoding of some text. -/
def IsUtf8 (bytes : List Byte) : Prop := ∃ s : Str, bytes = s.flatMap encode

/-- The characters of the bytes 0x80 to 0x9F in windows-1252 (WHATWG Encoding Standard). -/
def windowsTable : List Nat :=
  [0x20AC, 0x81, 0x201A, 0x0192, 0x201E, 0x2026, 0x2020, 0x2021, 0x02C6, 0x2030, 0x0160, 0x2039, 0x0152, 0x8D, 0x017D, 0x8F,
   0x90, 0x2018, 0x2019, 0x201C, 0x201D, 0x2022, 0x2013, 0x2014, 0x02DC, 0x2122, 0x0161, 0x203A, 0x0153, 0x9D, 0x017E, 0x0178]

/-- The character of a byte in windows-1252: the other bytes stand for the characters with the same number. -/
def windows (b : Byte) : Char :=
  Char.ofNat (if b.val < 0x80 ∨ 0xA0 ≤ b.val then b.val else windowsTable.getD (b.val - 0x80) 0)

/-- Byte order marks of UTF-8, UTF-16 big endian and UTF-16 little endian. -/
def boms : List (List Byte) := [[0xEF, 0xBB, 0xBF], [0xFE, 0xFF], [0xFF, 0xFE]]

end Verif.Spec.Decode
