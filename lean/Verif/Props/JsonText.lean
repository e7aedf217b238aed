import Verif.Proofs.JsonLines
import Verif.Proofs.JsonWrite
import Verif.Proofs.JsonDepth
import Verif.Proofs.Squawks
import Verif.Base.ShowNat
/-!
# C103, C104: JSON texts

`Spec/JsonText.lean` says what a JSON text is, and for which value it stands.
-/

namespace Verif.Props
open Verif.Json Verif.JsonText Verif.Spec Verif.Spec.JsonText Verif.Spec.Json
open Verif.Adaptation (Adaptation)
open Verif.Display (F32Ops)

/-! ## C103: reading -/

/-- **C103.** A text is read as the value that it stands for; the text must be correct up to its end. -/
theorem C103_text (fits : Rat → Bool) (s : Str) (j : J) : JsonText.read fits s = some j ↔ Text fits 127 s j :=
  ⟨Proofs.JsonText.read_sound, Proofs.JsonText.read_complete⟩

/-- **C103.** The same for bytes, which must be UTF-8. -/
theorem C103_bytes (fits : Rat → Bool) (bytes : List Decode.Byte) (j : J) : readBytes fits bytes = some j ↔ Document fits bytes j :=
  Proofs.JsonText.readBytes_iff

/-- **C103.** A text stands for one value at most. -/
theorem C103_unique {fits : Rat → Bool} {s : Str} {j k : J} (h : Text fits 127 s j) (h' : Text fits 127 s k) : j = k :=
  Option.some.inj (((C103_text fits s j).2 h).symm.trans ((C103_text fits s k).2 h'))

/-- **C103.** What is no JSON text is refused. -/
theorem C103_refuses (fits : Rat → Bool) (s : Str) : JsonText.read fits s = none ↔ ∀ j, ¬ Text fits 127 s j := by
  simp only [← C103_text]
  cases JsonText.read fits s <;> simp

/-- **C103.** The kind of line ends makes no difference. -/
theorem C103_line_ends (fits : Rat → Bool) {s t : Str} (h : SameLines s t) : JsonText.read fits s = JsonText.read fits t :=
  Proofs.JsonText.read_lines h

/-- **C103, `squawks.json`.**  What is read from the bytes of the file is exactly what its text says. -/
theorem C103_squawks (fits : Rat → Bool) (bytes : List Decode.Byte) (x : Squawks.SquawksJson) :
    (readBytes fits bytes).bind Squawks.readJson = some x ↔ ∃ j, Document fits bytes j ∧ Squawks.Says j x := by
  rw [Option.bind_eq_some_iff]
  simp only [C103_bytes, Proofs.Squawks.read_iff]

/-! ## C104: writing -/

/-- **C104.** What is written is read as the same value, if it is not nested too deep and its numbers are printed such that they
are read again. -/
theorem C104_round_trip {fits : Rat → Bool} {num : Rat → Str} {j : J} (h : Within (Printed fits num) 127 j) :
    JsonText.read fits (write num j) = some j :=
  (C103_text fits _ j).2 ⟨[], _, [], Proofs.JsonText.ws_nil, Proofs.JsonText.ws_nil, by simp, Proofs.JsonText.write_val j h⟩

/-- **C104.** Written strings are read as they were, whatever characters are in them. -/
theorem C104_strings (fits : Rat → Bool) (num : Rat → Str) (s : Str) : JsonText.read fits (write num (.str s)) = some (.str s) :=
  C104_round_trip (by simp [Within])

/-- A written string has no control characters, and no quotation marks but at its ends and behind backslashes. -/
theorem C104_printable (s : Str) : ∀ c ∈ writeStr s, 32 ≤ c.toNat := by
  intro c hc
  simp only [writeStr, List.mem_cons, List.mem_append, List.mem_flatMap, List.not_mem_nil, or_false] at hc
  rcases hc with rfl | ⟨d, _, hc⟩ | rfl
  · decide
  · unfold writeChar at hc
    have small : ∀ l : Str, (∀ x ∈ l, 32 ≤ x.toNat) → c ∈ l → 32 ≤ c.toNat := fun l hl h => hl c h
    split at hc
    · exact small _ (by decide) hc
    · split at hc
      · exact small _ (by decide) hc
      · split at hc
        · exact small _ (by decide) hc
        · split at hc
          · exact small _ (by decide) hc
          · split at hc
            · exact small _ (by decide) hc
            · split at hc
              · exact small _ (by decide) hc
              · split at hc
                · exact small _ (by decide) hc
                · split at hc
                  · next h32 =>
                    have key : ∀ n : Fin 32, ∀ x ∈ c!"\\u" ++ padZero 4 (showRadix 16 n.val), 32 ≤ x.toNat := by decide +kernel
                    exact key ⟨d.toNat, h32⟩ c hc
                  · simp only [List.mem_singleton] at hc
                    subst hc
                    omega
  · decide

section
variable {F G : Type} [JsonFloat F] [JsonFloat G] [DecidableEq F] [F32Ops G]

/-- How numbers are printed: the integers of 64 bits, and the values of the floating point numbers, are printed such that they are
read again. -/
structure PrintsNumbers (fits : Rat → Bool) (num : Rat → Str) (F G : Type) [JsonFloat F] [JsonFloat G] : Prop where
  ints : ∀ n : Int, -2 ^ 63 ≤ n → n < 2 ^ 64 → Printed fits num n
  doubles : ∀ (x : F) (q : Rat), JsonFloat.write x = some q → Printed fits num q
  singles : ∀ (x : G) (q : Rat), JsonFloat.write x = some q → Printed fits num q

/-- **C104.** The JSON of an adaptation is nested 12 deep at most: it is not refused for its depth, whatever was loaded. -/
theorem C104_depth {P : Rat → Prop} (hi : ∀ n : Int, -2 ^ 63 ≤ n → n < 2 ^ 64 → P n)
    (hf : ∀ (x : F) (q : Rat), JsonFloat.write x = some q → P q) (hg : ∀ (x : G) (q : Rat), JsonFloat.write x = some q → P q)
    (a : Adaptation F G) (h : Keeps (AdaptationJson.adaptation F G) a) : Within P 12 ((AdaptationJson.adaptation F G).to a) :=
  haveI : Proofs.JsonDepth.GoodInts P := ⟨hi⟩
  haveI : Proofs.JsonDepth.GoodFloats P F := ⟨hf⟩
  haveI : Proofs.JsonDepth.GoodFloats P G := ⟨hg⟩
  Proofs.JsonDepth.Shallow.within (d := 12) a h

/-- **C104.** The text of an adaptation is read as the same adaptation (without its index, see C88). -/
theorem C104_adaptation [LawfulJsonFloat F] [LawfulJsonFloat G] {fits : Rat → Bool} {num : Rat → Str} (hp : PrintsNumbers fits num F G)
    (a : Adaptation F G) (h : Keeps (AdaptationJson.adaptation F G) a) :
    (JsonText.read fits (write num ((AdaptationJson.adaptation F G).to a))).bind (AdaptationJson.adaptation F G).of =
      some { a with index := none } := by
  have hw : Within (Printed fits num) 127 ((AdaptationJson.adaptation F G).to a) := by
    haveI : Proofs.JsonDepth.GoodInts (Printed fits num) := ⟨hp.ints⟩
    haveI : Proofs.JsonDepth.GoodFloats (Printed fits num) F := ⟨hp.doubles⟩
    haveI : Proofs.JsonDepth.GoodFloats (Printed fits num) G := ⟨hp.singles⟩
    exact Proofs.JsonDepth.Shallow.within (d := 127) a h
  rw [C104_round_trip hw]
  exact Proofs.AdaptationJson.adaptation_back a h

end

end Verif.Props
