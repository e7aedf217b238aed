import Verif.Base.Core
/-!
# Unicode and UTF-8

Rust strings are UTF-8; `str::len` and slicing count bytes.  Unicode character classes are taken
from tables that are not part of the repository: they are a type class, about which only its ASCII
part is assumed.
-/

namespace Verif

/-- `'0'..='9'` -/
def isAsciiDigit (c : Char) : Bool := decide ('0'.toNat ≤ c.toNat) && decide (c.toNat ≤ '9'.toNat)

/-- `'A'..='Z'` -/
def isAsciiUpper (c : Char) : Bool := decide ('A'.toNat ≤ c.toNat) && decide (c.toNat ≤ 'Z'.toNat)

/-- `'a'..='z'` -/
def isAsciiLower (c : Char) : Bool := decide ('a'.toNat ≤ c.toNat) && decide (c.toNat ≤ 'z'.toNat)

/-- The Unicode tables used by `pest` (`LETTER`, `NUMBER`) and `regex` (`\d`). -/
class UnicodeTables where
  /-- general category L -/
  letter : Char → Bool
  /-- general category N -/
  number : Char → Bool
  /-- general category Nd: the class `\d` of the `regex` crate -/
  decimal : Char → Bool
  letter_ascii : ∀ c : Char, c.toNat < 128 → letter c = (isAsciiUpper c || isAsciiLower c)
  number_ascii : ∀ c : Char, c.toNat < 128 → number c = isAsciiDigit c
  decimal_ascii : ∀ c : Char, c.toNat < 128 → decimal c = isAsciiDigit c

/-- Tables for examples: no character outside ASCII is in any class. -/
@[reducible] def asciiTables : UnicodeTables where
  letter c := isAsciiUpper c || isAsciiLower c
  number := isAsciiDigit
  decimal := isAsciiDigit
  letter_ascii _ _ := rfl
  number_ascii _ _ := rfl
  decimal_ascii _ _ := rfl

/-- `str::len`: the number of UTF-8 bytes. -/
def byteLen : Str → Nat
  | [] => 0
  | c :: s => c.utf8Size + byteLen s

/-- `str::split_at_checked`: none if the index is beyond the end or not a character boundary. -/
def splitAtByte : Nat → Str → Option (Str × Str)
  | 0, s => some ([], s)
  | _ + 1, [] => none
  | n + 1, c :: s =>
    if c.utf8Size ≤ n + 1 then (splitAtByte (n + 1 - c.utf8Size) s).map fun p => (c :: p.1, p.2)
    else none

/-- `&s[a..b]`: none where the slice panics. -/
def sliceBytes (s : Str) (a b : Nat) : Option Str :=
  (splitAtByte b s).bind fun p => (splitAtByte a p.1).map (·.2)

/-- The number written by decimal digits. -/
def digitsValue (s : Str) : Nat := s.foldl (fun n c => 10 * n + (c.toNat - 48)) 0

/-- A non-empty string of ASCII digits. -/
def isNumeral (s : Str) : Bool := !s.isEmpty && s.all isAsciiDigit

theorem utf8Size_digit {c : Char} (h : isAsciiDigit c = true) : c.utf8Size = 1 := by
  simp only [isAsciiDigit, Bool.and_eq_true, decide_eq_true_eq] at h
  have h2 : c.toNat ≤ 57 := h.2
  have : c.val.toNat ≤ 127 := by
    have : c.val.toNat = c.toNat := rfl
    omega
  rw [Char.utf8Size_eq_one_iff]
  exact UInt32.le_iff_toNat_le.2 (by simpa using this)

/-- All characters are one byte long. -/
theorem byteLen_ascii {s : Str} (h : ∀ c ∈ s, c.utf8Size = 1) : byteLen s = s.length := by
  induction s with
  | nil => rfl
  | cons c s ih =>
    simp only [byteLen, List.length_cons]
    rw [ih (fun c hc => h c (List.mem_cons_of_mem _ hc)), h c List.mem_cons_self]
    omega

theorem splitAtByte_ascii {s : Str} (h : ∀ c ∈ s, c.utf8Size = 1) {n : Nat} (hn : n ≤ s.length) :
    splitAtByte n s = some (s.take n, s.drop n) := by
  induction s generalizing n with
  | nil =>
    have : n = 0 := by simpa using hn
    subst this; rfl
  | cons c s ih =>
    cases n with
    | zero => simp [splitAtByte]
    | succ n =>
      have h1 := h c List.mem_cons_self
      simp only [splitAtByte, h1]
      have : 1 ≤ n + 1 := by omega
      simp only [this, if_true, Nat.add_sub_cancel]
      rw [ih (fun c hc => h c (List.mem_cons_of_mem _ hc)) (by simpa using hn)]
      simp

theorem splitAtByte_sound {n : Nat} {s a b : Str} (h : splitAtByte n s = some (a, b)) :
    s = a ++ b ∧ byteLen a = n := by
  induction s generalizing n a b with
  | nil =>
    cases n with
    | zero => simp [splitAtByte] at h; simp [h, byteLen]
    | succ n => simp [splitAtByte] at h
  | cons c s ih =>
    cases n with
    | zero => simp [splitAtByte] at h; obtain ⟨rfl, rfl⟩ := h; simp [byteLen]
    | succ n =>
      simp only [splitAtByte] at h
      split at h
      · next hc =>
        simp only [Option.map_eq_some_iff] at h
        obtain ⟨⟨p, q⟩, h1, h2⟩ := h
        obtain ⟨h3, h4⟩ := ih h1
        simp at h2
        obtain ⟨rfl, rfl⟩ := h2
        constructor
        · simp [h3]
        · simp only [byteLen, h4]
          have := c.utf8Size_pos
          omega
      · cases h

theorem splitAtByte_append {a b : Str} : splitAtByte (byteLen a) (a ++ b) = some (a, b) := by
  induction a with
  | nil => cases b <;> simp [byteLen, splitAtByte]
  | cons c a ih =>
    have hp := c.utf8Size_pos
    simp only [byteLen]
    obtain ⟨m, hm⟩ : ∃ m, c.utf8Size + byteLen a = m + 1 := ⟨c.utf8Size + byteLen a - 1, by omega⟩
    rw [hm]
    simp only [List.cons_append, splitAtByte]
    have h1 : c.utf8Size ≤ m + 1 := by omega
    have h2 : m + 1 - c.utf8Size = byteLen a := by omega
    rw [if_pos h1, h2, ih]
    simp

end Verif
