import Verif.Model.Json
import Verif.Base.Num
import Verif.Spec.Decode
/-!
# JSON texts (RFC 8259)

`Text fits d s j`: the text `s` stands for the value `j`, its numbers satisfy `fits`, and at most `d` objects and arrays are nested.
-/

namespace Verif.Spec.JsonText
open Verif.Json (J)

/-- White space -/
def Ws (w : Str) : Prop := ∀ c ∈ w, c = ' ' ∨ c = '\n' ∨ c = '\t' ∨ c = '\r'

/-- The escapes of one letter -/
inductive Simple : Char → Char → Prop
  | quote : Simple '"' '"'
  | backslash : Simple '\\' '\\'
  | slash : Simple '/' '/'
  | backspace : Simple 'b' (Char.ofNat 8)
  | formFeed : Simple 'f' (Char.ofNat 12)
  | newLine : Simple 'n' '\n'
  | carriageReturn : Simple 'r' '\r'
  | tabulator : Simple 't' '\t'

/-- Four hexadecimal digits and their value -/
def Hex (h : Str) (n : Nat) : Prop := h.length = 4 ∧ digitsIn 16 h = some n

/-- The text between quotation marks, and the string it stands for -/
inductive Chars : Str → Str → Prop
  | nil : Chars [] []
  | plain {c : Char} {t s : Str} : c ≠ '"' → c ≠ '\\' → 32 ≤ c.toNat → Chars t s → Chars (c :: t) (c :: s)
  | simple {e c : Char} {t s : Str} : Simple e c → Chars t s → Chars ('\\' :: e :: t) (c :: s)
  | unit {h : Str} {n : Nat} {t s : Str} : Hex h n → n < 0xD800 ∨ 0xDFFF < n → Chars t s →
    Chars ('\\' :: 'u' :: (h ++ t)) (Char.ofNat n :: s)
  | pair {h k : Str} {n m : Nat} {t s : Str} : Hex h (0xD800 + n) → n < 0x400 → Hex k (0xDC00 + m) → m < 0x400 → Chars t s →
    Chars ('\\' :: 'u' :: (h ++ '\\' :: 'u' :: (k ++ t))) (Char.ofNat (0x10000 + n * 0x400 + m) :: s)

/-- The parts of a number: sign, digits in front of the dot, digits behind it, and the exponent with its letter and its sign -/
structure Numeral where
  neg : Bool
  whole : Str
  frac : Option Str
  exp : Option (Char × Option Char × Str)

/-- No leading zero, and digits where there must be digits -/
def Numeral.Valid (n : Numeral) : Prop :=
  isNumeral n.whole = true ∧ (n.whole.head? = some '0' → n.whole = ['0']) ∧
  (∀ f, n.frac = some f → isNumeral f = true) ∧
  ∀ e s d, n.exp = some (e, s, d) → (e = 'e' ∨ e = 'E') ∧ (s = none ∨ s = some '+' ∨ s = some '-') ∧ isNumeral d = true

/-- How it is written -/
def Numeral.text (n : Numeral) : Str :=
  (if n.neg then ['-'] else []) ++ n.whole ++
  (match n.frac with | some f => '.' :: f | none => []) ++
  (match n.exp with | some (e, s, d) => e :: (s.toList ++ d) | none => [])

/-- The power of ten that it is multiplied with -/
def Numeral.power (n : Numeral) : Int :=
  match n.exp with
  | some (_, s, d) => if s = some '-' then -(digitsValue d : Int) else digitsValue d
  | none => 0

/-- Its value -/
def Numeral.value (n : Numeral) : Rat :=
  let digits := n.whole ++ n.frac.getD []
  let q := (digitsValue digits : Rat) * (10 : Rat) ^ (n.power - ((n.frac.getD []).length : Int))
  if n.neg then -q else q

section
variable (fits : Rat → Bool)

mutual
/-- A value, without white space around it -/
inductive Val : Nat → Str → J → Prop
  | null {d : Nat} : Val d c!"null" .null
  | true {d : Nat} : Val d c!"true" (.bool true)
  | false {d : Nat} : Val d c!"false" (.bool false)
  | num {d : Nat} {n : Numeral} : n.Valid → fits n.value = .true → Val d n.text (.num n.value)
  | str {d : Nat} {t s : Str} : Chars t s → Val d ('"' :: (t ++ ['"'])) (.str s)
  | noItem {d : Nat} {w : Str} : Ws w → Val (d + 1) ('[' :: (w ++ [']'])) (.arr [])
  | arr {d : Nat} {t : Str} {l : List J} : Items d t l → Val (d + 1) ('[' :: (t ++ [']'])) (.arr l)
  | noField {d : Nat} {w : Str} : Ws w → Val (d + 1) ('{' :: (w ++ ['}'])) (.obj [])
  | obj {d : Nat} {t : Str} {o : List (Str × J)} : Members d t o → Val (d + 1) ('{' :: (t ++ ['}'])) (.obj o)

/-- One or more values, separated by commas -/
inductive Items : Nat → Str → List J → Prop
  | one {d : Nat} {a t b : Str} {j : J} : Ws a → Val d t j → Ws b → Items d (a ++ (t ++ b)) [j]
  | more {d : Nat} {a t b u : Str} {j : J} {l : List J} : Ws a → Val d t j → Ws b → Items d u l →
    Items d (a ++ (t ++ (b ++ ',' :: u))) (j :: l)

/-- One or more names with values, separated by commas -/
inductive Members : Nat → Str → List (Str × J) → Prop
  | one {d : Nat} {a x b c t e k : Str} {j : J} : Ws a → Chars x k → Ws b → Ws c → Val d t j → Ws e →
    Members d (a ++ '"' :: (x ++ '"' :: (b ++ ':' :: (c ++ (t ++ e))))) [(k, j)]
  | more {d : Nat} {a x b c t e k u : Str} {j : J} {o : List (Str × J)} : Ws a → Chars x k → Ws b → Ws c → Val d t j → Ws e →
    Members d u o → Members d (a ++ '"' :: (x ++ '"' :: (b ++ ':' :: (c ++ (t ++ (e ++ ',' :: u)))))) ((k, j) :: o)
end

/-- A whole text -/
def Text (d : Nat) (s : Str) (j : J) : Prop := ∃ a t b, Ws a ∧ Ws b ∧ s = a ++ (t ++ b) ∧ Val fits d t j

/-- The bytes are a text in UTF-8 that stands for `j`, in which at most 127 objects and arrays are nested. -/
def Document (bytes : List Decode.Byte) (j : J) : Prop := ∃ s, bytes = s.flatMap Decode.encode ∧ Text fits 127 s j

end
end Verif.Spec.JsonText

/-! ## Values that can be written -/

namespace Verif.Spec.JsonText
open Verif.Json (J)

/-- The printed number is a number with this value, and in the range. -/
def Printed (fits : Rat → Bool) (num : Rat → Str) (q : Rat) : Prop :=
  fits q = true ∧ ∃ n : Numeral, n.Valid ∧ n.text = num q ∧ n.value = q

mutual
/-- At most `d` objects and arrays are nested, and all numbers satisfy `P`. -/
def Within (P : Rat → Prop) : Nat → J → Prop
  | _, .null => True
  | _, .bool _ => True
  | _, .num q => P q
  | _, .str _ => True
  | 0, .arr _ => False
  | d + 1, .arr l => WithinItems P d l
  | 0, .obj _ => False
  | d + 1, .obj o => WithinFields P d o

/-- All items are such. -/
def WithinItems (P : Rat → Prop) : Nat → List J → Prop
  | _, [] => True
  | d, j :: l => Within P d j ∧ WithinItems P d l

/-- All fields are such. -/
def WithinFields (P : Rat → Prop) : Nat → List (Str × J) → Prop
  | _, [] => True
  | d, e :: o => Within P d e.2 ∧ WithinFields P d o
end

end Verif.Spec.JsonText
