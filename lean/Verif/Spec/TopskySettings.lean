import Verif.Spec.Filler
import Verif.Base.Num
import Verif.Base.Unicode
import Verif.Model.Colours
/-!
# Specification for TopSky settings files

What a settings file looks like and what it means.  Neither the grammar nor the parser is used; only the type
of colours is taken from the model.
-/

namespace Verif.Spec.TopskySettings
open Verif.Colours (Colour)

/-- Comments start with one of these. -/
abbrev marks : List Str := [c!";", c!"//"]

def AreBlanks (s : Str) : Prop := ∀ c ∈ s, IsBlankChar c

instance (s : Str) : Decidable (AreBlanks s) := inferInstanceAs (Decidable (∀ c ∈ s, _))

/-- A comment up to the end of its line. -/
def IsComment (s : Str) : Prop := ∃ w ∈ marks, ∃ body, s = w ++ body ∧ ∀ c ∈ body, ¬ IsNewline c

/-- What may follow on a line: blanks and possibly a comment. -/
def IsTail (s : Str) : Prop := ∃ sp cm, s = sp ++ cm ∧ AreBlanks sp ∧ (cm = [] ∨ IsComment cm)

/-- Letters, digits, `_` and `/`. -/
def IsNameChar (c : Char) : Prop := c = '/' ∨ c = '_' ∨ isAsciiUpper c = true ∨ isAsciiLower c = true ∨ isAsciiDigit c = true

instance (c : Char) : Decidable (IsNameChar c) := inferInstanceAs (Decidable (_ ∨ _))

/-- A name; it does not start with two slashes, since that is a comment. -/
def IsName (s : Str) : Prop := s ≠ [] ∧ (∀ c ∈ s, IsNameChar c) ∧ ¬ c!"//" <+: s

instance (s : Str) : Decidable (IsName s) := inferInstanceAs (Decidable (_ ∧ _))

/-- A value: no line end, no comment mark, no blank at either end. -/
def IsValue (s : Str) : Prop := (∀ c ∈ s, ¬ IsNewline c) ∧ (∀ w ∈ marks, ¬ w <:+: s) ∧
  (∀ c, s.head? = some c → ¬ IsBlankChar c) ∧ ∀ c, s.getLast? = some c → ¬ IsBlankChar c

/-- The names of colours start with this. -/
abbrev prefix_ : Str := c!"Color_"

/-- What a line says. -/
inductive Entry
  | setting (name value : Str)
  /-- a colour with its three numbers, as written -/
  | colour (name : Str) (r g b : Str)
  /-- the name of a colour, without numbers -/
  | bare (name : Str)
  deriving DecidableEq, Repr

/-- The name of a setting is not that of a colour: it does not start with `Color_`, or nothing follows, or a comment
would start behind that. -/
def NoColour (name : Str) : Prop := prefix_ <+: name → name = prefix_ ∨ prefix_ ++ c!"//" <+: name

instance (s : Str) : Decidable (NoColour s) := inferInstanceAs (Decidable (_ → _))

/-- The text of a line, without its line end. -/
inductive IsLine : Entry → Str → Prop
  | setting (name g1 g2 value tail : Str) : IsName name → NoColour name →
      AreBlanks g1 → AreBlanks g2 → IsValue value → IsTail tail →
      (value.getLast? = some '/' → tail.head? ≠ some '/') →
      IsLine (.setting name value) (name ++ (g1 ++ ('=' :: (g2 ++ (value ++ tail)))))
  | colour (g0 name g1 g2 r g3 g4 g g5 g6 b tail : Str) : AreBlanks g0 → IsName name → AreBlanks g1 →
      AreBlanks g2 → IsDigits r → AreBlanks g3 → AreBlanks g4 → IsDigits g → AreBlanks g5 → AreBlanks g6 →
      IsDigits b → IsTail tail →
      IsLine (.colour name r g b) (prefix_ ++ (g0 ++ (name ++ (g1 ++ ('=' :: (g2 ++ (r ++ (g3 ++ (',' ::
        (g4 ++ (g ++ (g5 ++ (',' :: (g6 ++ (b ++ tail)))))))))))))))
  | bare (g0 name tail : Str) : AreBlanks g0 → IsName name → IsTail tail → tail.head? ≠ some '/' →
      IsLine (.bare name) (prefix_ ++ (g0 ++ (name ++ tail)))

/-- Lines, each behind the line end of the line before and further blanks, empty lines and comments. -/
inductive IsLines : List Entry → Str → Prop
  | nil : IsLines [] []
  | cons (e : Entry) (es : List Entry) (brk line rest : Str) : IsBreak marks brk → IsLine e line →
      IsLines es rest → IsLines (e :: es) (brk ++ (line ++ rest))

/-- The first line of a section: a name in brackets or braces. -/
inductive IsHead : Str → Prop
  | brackets (g1 name g2 tail : Str) : AreBlanks g1 → IsName name → AreBlanks g2 → IsTail tail →
      IsHead ('[' :: (g1 ++ (name ++ (g2 ++ (']' :: tail)))))
  | braces (g1 name g2 tail : Str) : AreBlanks g1 → IsName name → AreBlanks g2 → IsTail tail →
      IsHead ('{' :: (g1 ++ (name ++ (g2 ++ ('}' :: tail)))))

/-- Sections with their lines. -/
inductive IsSections : Str → Prop
  | nil : IsSections []
  | cons (brk head : Str) (es : List Entry) (lines rest : Str) : IsBreak marks brk → IsHead head →
      IsLines es lines → IsSections rest → IsSections (brk ++ (head ++ (lines ++ rest)))

/-- The end of a file: possibly line ends, blanks and comments. -/
def IsEnd (s : Str) : Prop := s = [] ∨ ∃ brk cm, s = brk ++ cm ∧ IsBreak marks brk ∧ (cm = [] ∨ IsComment cm)

/-- The text of a file with these lines outside of sections. -/
inductive IsFile : List Entry → Str → Prop
  /-- the first line is a setting -/
  | line (e : Entry) (es : List Entry) (line lines secs fin : Str) : IsLine e line → IsLines es lines →
      IsSections secs → IsEnd fin → IsFile (e :: es) (line ++ (lines ++ (secs ++ fin)))
  /-- the first line starts a section -/
  | section_ (head : Str) (es : List Entry) (lines secs fin : Str) : IsHead head → IsLines es lines →
      IsSections secs → IsEnd fin → IsFile [] (head ++ (lines ++ (secs ++ fin)))
  /-- the first line consists of blanks or a comment and is not empty -/
  | lead (lead : Str) (es : List Entry) (lines secs fin : Str) : IsTail lead → lead ≠ [] → IsLines es lines →
      IsSections secs → IsEnd fin → IsFile es (lead ++ (lines ++ (secs ++ fin)))
  /-- nothing but line ends, blanks and comments -/
  | empty (fin : Str) : IsEnd fin → IsFile [] fin

/-- The value a line gives to the setting `n`. -/
def valueOf (n : Str) : Entry → Option Str
  | .setting name value => if name = n then some value else none
  | _ => none

/-- A number from 0 to 255. -/
def byte (s : Str) : Option (Fin 256) := if h : digitsValue s < 256 then some ⟨digitsValue s, h⟩ else none

/-- The colour a line gives to the name `n`; nothing if one of the numbers is above 255. -/
def colourOf (n : Str) : Entry → Option Colour
  | .colour name r g b => if name = n then do return ⟨← byte r, ← byte g, ← byte b, 255⟩ else none
  | _ => none

end Verif.Spec.TopskySettings
