import Verif.Props.JsonText
import Verif.Props.AdaptationJsonExample
/-!
# JSON texts: examples

The adaptation of `Verif.Props.AdaptationJsonExample` as text, and texts that are read or refused.
-/

namespace Verif.Props.JsonTextExample
open Verif.Json Verif.JsonText Verif.Spec Verif.Spec.JsonText Verif.Spec.Json Verif.Adaptation Verif.Props.AdaptationExample

attribute [local instance] asciiTables

/-- Printing of whole numbers -/
def showWhole (q : Rat) : Str := if q < 0 then '-' :: showNat q.num.natAbs else showNat q.num.natAbs

def all (_ : Rat) : Bool := true

theorem whole_printed (n : Int) : Printed all showWhole n := by
  have hv : isNumeral (showNat n.natAbs) = true := by
    unfold isNumeral
    rw [Bool.and_eq_true, Bool.not_eq_true', List.isEmpty_eq_false_iff, List.all_eq_true]
    exact ⟨showNat_ne_nil _, showNat_digits _⟩
  refine ⟨rfl, ⟨decide (n < 0), showNat n.natAbs, none, none⟩, ⟨hv, showNat_head _, nofun, nofun⟩, ?_, ?_⟩
  · have : ((n : Rat) < 0) ↔ n < 0 := by exact_mod_cast Iff.rfl
    by_cases hn : n < 0 <;> simp [Numeral.text, showWhole, this, hn]
  · by_cases hn : n < 0
    · have h : ((n.natAbs : Nat) : Int) = -n := by omega
      have h' : ((n.natAbs : Nat) : Rat) = ((-n : Int) : Rat) := by rw [← h]; rfl
      simp only [Numeral.value, Numeral.power, hn, Option.getD_none, List.append_nil, List.length_nil, digitsValue_showNat]
      rw [h']
      simp [Rat.intCast_neg]
    · have h : ((n.natAbs : Nat) : Int) = n := by omega
      have h' : ((n.natAbs : Nat) : Rat) = (n : Rat) := by
        conv => rhs; rw [← h]
        rfl
      simp only [Numeral.value, Numeral.power, hn, Option.getD_none, List.append_nil, List.length_nil, digitsValue_showNat]
      rw [h']
      simp

theorem prints : PrintsNumbers all showWhole Int Int where
  ints n _ _ := whole_printed n
  doubles _ _ h := by cases h; exact whole_printed _
  singles _ _ h := by cases h; exact whole_printed _

/-- C104: the loaded adaptation is written and read. -/
example : ∃ a, fromPrf richEnv richPrf = .ok a ∧
    (JsonText.read all (write showWhole ((AdaptationJson.adaptation Int Int).to a))).bind (AdaptationJson.adaptation Int Int).of =
      some { a with index := none } := by
  obtain ⟨a, h, hk⟩ := rich_keeps
  exact ⟨a, h, C104_adaptation prints a hk⟩

/-- C104: a string with all kinds of characters -/
example : writeStr [Char.ofNat 7, '\n', '"', '\\', 'ä', Char.ofNat 0x1F600] = c!"\"\\u0007\\n\\\"\\\\ä😀\"" := by decide +kernel

/-- C103: a text with everything in it, and the value in another notation -/
example : (JsonText.read all c!" {\"a\" : [15.0e-1, -0, 1E+2 ,\"\\u00e4\\ud83d\\uDE00\\/\"],\r\n\t\"\":null , \"b\":[ true,false,{ }, [ ] ]} ").map
    (write fun q => showNat (10 * q).num.natAbs) = some c!"{\"a\":[15,0,1000,\"ä😀/\"],\"\":null,\"b\":[true,false,{},[]]}" := by
  decide +kernel

/-- C103: texts that are refused: no value, a trailing comma, a leading zero, a missing digit, half a pair, a control character, a
second value, a missing end, a name without quotation marks -/
example : ∀ s ∈ [c!"", c!"[1,]", c!"01", c!"1.", c!".5", c!"1e", c!"+1", c!"-", c!"\"\\ud83d\"", c!"\"\\ude00\"", c!"\"\t\"", c!"1 2", c!"[1",
    c!"{\"a\":1", c!"{a:1}", c!"{\"a\":1,}", c!"nul", c!"'a'", c!"\"\\x\"", c!"[1}", c!"NaN"], (JsonText.read all s).isNone = true := by
  decide +kernel

/-- C103: 127 nested arrays are read, 128 are not. -/
example : (JsonText.read all (List.replicate 127 '[' ++ List.replicate 127 ']')).isSome = true ∧
    (JsonText.read all (List.replicate 128 '[' ++ List.replicate 128 ']')).isNone = true := by decide +kernel

/-- C103: numbers that do not fit are refused. -/
example : (JsonText.read (fun q => decide (q < 10 ^ 308)) c!"1e309").isNone = true := by decide +kernel

end Verif.Props.JsonTextExample
