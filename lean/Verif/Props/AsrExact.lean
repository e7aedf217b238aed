import Verif.Proofs.AsrExact
/-!
# C43, C44: exactly which texts `Asr::parse` accepts

`Spec/AsrExact.lean` says what an .asr file is, character by character.
-/

namespace Verif.Props
open Verif.Parse Verif.Parse.Asr Verif.Spec.Asr

variable {F : Type} [F64 F]

/-- **C43.** A text is read exactly if it is an .asr file whose settings are readable, and then the result is what its settings
mean.  `num` reads numbers; a coordinate in degrees, minutes and seconds is not a number. -/
theorem C43_asr_accepts (num : Str → F) (hnum : ∀ s, IsNumber s → F64.ofText s = some (num s))
    (hdms : ∀ s, IsDms s → (F64.ofText s : Option F) = none) (content : Str) :
    (∃ a : Asr F, parse content = .ok a) ↔ ∃ ws, IsAsr content ws ∧ ∀ w ∈ ws, w.Readable := by
  constructor
  · rintro ⟨a, h⟩
    by_cases hf : ∃ ws, IsAsr content ws
    · obtain ⟨ws, hf⟩ := hf
      rcases asr_outcome hnum hdms hf with ⟨h1, _⟩ | ⟨_, h1⟩
      · exact ⟨ws, hf, h1⟩
      · rw [h1] at h
        cases h
    · rw [asr_error hf] at h
      cases h
  · rintro ⟨ws, hf, hr⟩
    rcases asr_outcome hnum hdms hf with ⟨_, a, h, _⟩ | ⟨⟨w, hw, h⟩, _⟩
    · exact ⟨a, h⟩
    · exact absurd (hr w hw) h

/-- **C43.** What is read is what the settings mean. -/
theorem C43_asr_value (num : Str → F) (hnum : ∀ s, IsNumber s → F64.ofText s = some (num s))
    (hdms : ∀ s, IsDms s → (F64.ofText s : Option F) = none) (content : Str) (ws : List Line) (hf : IsAsr content ws)
    (hr : ∀ w ∈ ws, w.Readable) : ∃ a : Asr F, parse content = .ok a ∧ Means num ws a := by
  rcases asr_outcome hnum hdms hf with ⟨_, h⟩ | ⟨⟨w, hw, h⟩, _⟩
  · exact h
  · exact absurd (hr w hw) h

/-- **C44.** The parser panics exactly if the text is an .asr file with a setting that is not readable: a number that does not
fit, or a window area with a coordinate in degrees, minutes and seconds. -/
theorem C44_asr_panics_exactly (num : Str → F) (hnum : ∀ s, IsNumber s → F64.ofText s = some (num s))
    (hdms : ∀ s, IsDms s → (F64.ofText s : Option F) = none) (content : Str) :
    parse (F := F) content = .error .panic ↔ ∃ ws, IsAsr content ws ∧ ∃ w ∈ ws, ¬ w.Readable := by
  constructor
  · intro h
    by_cases hf : ∃ ws, IsAsr content ws
    · obtain ⟨ws, hf⟩ := hf
      rcases asr_outcome hnum hdms hf with ⟨_, a, h1, _⟩ | ⟨h1, _⟩
      · rw [h1] at h
        cases h
      · exact ⟨ws, hf, h1⟩
    · rw [asr_error hf] at h
      cases h
  · rintro ⟨ws, hf, w, hw, hr⟩
    rcases asr_outcome hnum hdms hf with ⟨h, _⟩ | ⟨_, h⟩
    · exact absurd (h w hw) hr
    · exact h

/-- **C44.** Every other text is rejected with a parse error. -/
theorem C44_asr_rejects (num : Str → F) (hnum : ∀ s, IsNumber s → F64.ofText s = some (num s))
    (hdms : ∀ s, IsDms s → (F64.ofText s : Option F) = none) (content : Str) :
    parse (F := F) content = .error .parseError ↔ ¬ ∃ ws, IsAsr content ws := by
  constructor
  · rintro h ⟨ws, hf⟩
    rcases asr_outcome hnum hdms hf with ⟨_, a, h1, _⟩ | ⟨_, h1⟩ <;> rw [h1] at h <;> cases h
  · exact asr_error

section Examples

theorem decimal_head {s : Str} (h : IsDecimal s) (c : Char) (hc : s.head? = some c) : c ∉ c!"NSWE" := by
  have dig : ∀ c : Char, isAsciiDigit c = true → c ∉ c!"NSWE" := by
    intro c hc hm
    revert hc
    simp only [List.mem_cons, List.not_mem_nil, or_false] at hm
    rcases hm with rfl | rfl | rfl | rfl <;> decide
  obtain ⟨sg, ds, fs, rfl, h1, h2, h3⟩ := h
  rcases h1 with rfl | rfl | rfl
  · cases ds with
    | nil =>
      rcases h3 with ⟨rfl, h⟩ | ⟨d, rfl, _⟩
      · exact absurd rfl h
      · cases hc
        decide
    | cons a ds =>
      cases hc
      exact dig _ (h2 _ List.mem_cons_self)
  · cases hc
    decide
  · cases hc
    decide

theorem number_isDecimal {s : Str} (h : IsNumber s) : IsDecimal s := by
  obtain ⟨i, fs, rfl, h1, h2⟩ := h
  rcases h1 with h1 | ⟨ds, rfl, h1⟩
  · exact ⟨[], i, fs, rfl, Or.inl rfl, h1.2, h2.imp (fun h => ⟨h, h1.1⟩) id⟩
  · exact ⟨c!"-", ds, fs, rfl, Or.inr (Or.inl rfl), h1.2, h2.imp (fun h => ⟨h, h1.1⟩) id⟩

/-- Every text that does not start with a compass direction stands for itself. -/
def plainText (s : Str) : Option Str :=
  match s.head? with
  | some c => if c ∈ c!"NSWE" then none else some s
  | none => some s

theorem plainText_decimal {s : Str} (h : IsDecimal s) : plainText s = some s := by
  unfold plainText
  cases hc : s.head? with
  | none => rfl
  | some c => simp only [if_neg (decimal_head h c hc)]

local instance asrNumberF64 : F64 Str := ⟨plainText, fun _ h => by rw [plainText_decimal h]; rfl⟩

/-- The hypotheses about numbers can be met. -/
example : (∀ s, IsNumber s → (F64.ofText s : Option Str) = some (id s)) ∧ ∀ s, IsDms s → (F64.ofText s : Option Str) = none := by
  refine ⟨fun s h => plainText_decimal (number_isDecimal h), ?_⟩
  rintro _ ⟨h, d, m, sec, rfl, hh, _⟩
  exact if_pos hh

/-- Two settings on one line, with a comment between the key and the value of the first one. -/
example : IsAsr c!"\nSHOWC:;note\n1LEADER:5;five\n" [.flag .showC true, .int .leader c!"5"] ∧
    ∀ w ∈ [Line.flag .showC true, .int .leader c!"5"], w.Readable := by
  refine ⟨⟨c!"\n", _, rfl, .newline _ _ (Or.inl rfl) .nil, .cons _ c!"SHOWC:;note\n1" [] _ _ ⟨⟨c!";note\n", c!"1", rfl, ⟨?_, ?_, ?_⟩, rfl⟩, trivial⟩ .nil
    (.last _ c!"LEADER:5" c!";five\n" ⟨⟨[], c!"5", rfl, ⟨.nil, Or.inl rfl, by decide⟩, rfl⟩, Or.inl (by decide)⟩
      (.comment c!"five" '\n' [] (by decide) (Or.inl rfl) .nil))⟩, ?_⟩
  · exact .comment c!"note" '\n' [] (by decide) (Or.inl rfl) .nil
  · refine Or.inr ⟨rfl, ?_⟩
    rintro ⟨c, r, e, hc⟩
    have e : '1' = c := (List.cons.inj e).1
    subst e
    revert hc
    decide
  · decide
  · intro w hw
    simp only [List.mem_cons, List.not_mem_nil, or_false] at hw
    rcases hw with rfl | rfl
    · exact ⟨trivial, by simp⟩
    · exact ⟨by decide, by simp⟩

/-- A file that makes the parser panic. -/
example : IsAsr c!"WINDOWAREA:N048.21.13.500:11:49:12" [.windowArea c!"N048.21.13.500" c!"11" c!"49" c!"12"] ∧
    ¬ (Line.windowArea c!"N048.21.13.500" c!"11" c!"49" c!"12").Readable := by
  have num : ∀ s : Str, IsDigits s → IsNumber s := fun s h => ⟨s, [], by simp, Or.inl h, Or.inl rfl⟩
  have no : ∀ r : Str, r.head? ≠ some ';' → Skipped [] r := fun r h => ⟨.nil, Or.inl rfl, fun e => absurd e h⟩
  refine ⟨⟨[], c!"WINDOWAREA:N048.21.13.500:11:49:12", rfl, .nil, .last (.windowArea _ _ _ _) c!"WINDOWAREA:N048.21.13.500:11:49:12" [] ⟨?_, Or.inr ?_, Or.inl (num _ (by decide)), Or.inl (num _ (by decide)), Or.inl (num _ (by decide))⟩ .nil⟩, ?_⟩
  · exact ⟨[], _, rfl, no _ (by decide), [], _, rfl, no _ (by decide), [], _, rfl, no _ (by decide), [], _, rfl, no _ (by decide),
      [], _, rfl, no _ (by decide), [], _, rfl, no _ (by decide), [], _, rfl, no _ (by decide), rfl⟩
  · exact ⟨'N', c!"048", c!"21", c!"13.500", rfl, by decide, by decide, by decide, c!"13", c!".500", rfl, Or.inl (by decide),
      Or.inr ⟨c!"500", rfl, by decide⟩⟩
  · intro h
    have := decimal_head (number_isDecimal (h.2 _ _ _ _ rfl).1) 'N' rfl
    exact this (by decide)

/-- A text that is no .asr file. -/
example : (match parse (F := Str) c!"SHOWC:2" with | .error .parseError => true | _ => false) = true := by decide +kernel

end Examples
end Verif.Props
