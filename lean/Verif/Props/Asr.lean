import Verif.Proofs.AsrPanic
/-!
# C43, C44: `Asr::parse`

`Spec/Asr.lean` says what an .asr file is, line by line, and what the lines mean.
-/

namespace Verif.Props
open Verif.Parse Verif.Parse.Asr Verif.Spec.Asr

variable {F : Type} [F64 F]

/-- **C43.** A well-formed file whose numbers fit is read, and the result is what its lines mean: every
scalar setting has the value of the first line that sets it or its default, a plugin setting the value of
the last line that sets it, and every list of map elements is in file order. -/
theorem C43_asr_meaning (num : Str → F) (hnum : ∀ s, IsNumber s → F64.ofText s = some (num s)) (content : Str)
    (ws : List Line) (hf : IsFile content ws) (hfit : ∀ w ∈ ws, w.Fits) :
    ∃ a, parse content = .ok a ∧ Means num ws a := by
  have hv : ∀ w ∈ ws, w.Valid := by obtain ⟨_, _, _, _, h⟩ := hf; exact lines_valid h
  exact ⟨_, by rw [file_parse hnum hf, if_pos hfit], build_means hnum ws (fun w hw => valid_nums (hv w hw)) hfit⟩

/-- **C44.** A file with an altitude filter, number of history dots or leader length that does not fit
makes the parser panic, wherever the line is and even if it is overridden by an earlier one. -/
theorem C44_asr_panics (num : Str → F) (hnum : ∀ s, IsNumber s → F64.ofText s = some (num s)) (content : Str)
    (ws : List Line) (hf : IsFile content ws) (hfit : ∃ w ∈ ws, ¬ w.Fits) :
    parse (F := F) content = .error .panic := by
  rw [file_parse hnum hf, if_neg]
  obtain ⟨w, hw, h⟩ := hfit
  exact fun h' => h (h' w hw)

/-- **C44.** Whatever the text, a panic is due to such a number or to a window area that is given in
degrees, minutes and seconds.  The parser never loops. -/
theorem C44_asr_panics_only (num : Str → F) (hnum : ∀ s, IsNumber s → F64.ofText s = some (num s)) (content : Str) :
    parse (F := F) content ≠ .error .parseError → (∀ a, parse (F := F) content ≠ .ok a) →
      ∃ pre s post, content = pre ++ s ++ post ∧ Harmful s := by
  intro h1 h2
  rcases parse_cases hnum content with h | ⟨a, h⟩ | ⟨s, ⟨p, q, h⟩, hb⟩
  · exact absurd h h1
  · exact absurd h (h2 a)
  · exact ⟨p, s, q, h.symm, hb⟩

section Examples
local instance asrTextF64 : F64 Str := ⟨some, fun _ _ => rfl⟩

/-- A small file. -/
def asrSample : List Line :=
  [.text .displayType c!"Ground Radar display", .int .leader c!"-1", .int .leader c!"5", .flag .showC false,
   .windowArea c!"48.0" c!"11" c!"49.5" c!"-12.25", .plugin c!"TopSky" c!"HideMapData" c!"A",
   .plugin c!"TopSky" c!"HideMapData" c!"B", .fix c!"ABAMI" .symbol, .fix c!"ABAMI" .name,
   .runway c!"EDDM Muenchen" c!"08L" c!"26R" .centreline, .named .region c!"Taxi"]

theorem asrSample_valid : ∀ w ∈ asrSample, w.Valid := by
  have hd : ∀ s : Str, IsDigits s → IsInt s := fun s h => Or.inl h
  have hn : ∀ i fs : Str, IsInt i → IsDigits fs → IsNumber (i ++ '.' :: fs) := fun i fs h1 h2 =>
    ⟨i, '.' :: fs, rfl, h1, Or.inr ⟨fs, rfl, h2⟩⟩
  intro w hw
  simp only [asrSample, List.mem_cons, List.not_mem_nil, or_false] at hw
  rcases hw with rfl | rfl | rfl | rfl | rfl | rfl | rfl | rfl | rfl | rfl | rfl
  · exact (by decide : IsValue c!"Ground Radar display")
  · exact Or.inr ⟨c!"1", rfl, by decide⟩
  · exact hd _ (by decide)
  · trivial
  · exact ⟨hn c!"48" c!"0" (hd _ (by decide)) (by decide), ⟨c!"11", [], rfl, hd _ (by decide), Or.inl rfl⟩,
      hn c!"49" c!"5" (hd _ (by decide)) (by decide),
      hn c!"-12" c!"25" (Or.inr ⟨c!"12", rfl, by decide⟩) (by decide)⟩
  · exact (by decide : IsField c!"TopSky" ∧ IsField c!"HideMapData" ∧ IsValue c!"A")
  · exact (by decide : IsField c!"TopSky" ∧ IsField c!"HideMapData" ∧ IsValue c!"B")
  · exact (by decide : IsField c!"ABAMI")
  · exact (by decide : IsField c!"ABAMI")
  · refine ⟨⟨(by decide : IsValue c!"EDDM Muenchen"), ?_⟩, ⟨'0', '8', c!"L", rfl, by decide, by decide, Or.inr ⟨'L', by decide, rfl⟩⟩,
      ⟨'2', '6', c!"R", rfl, by decide, by decide, Or.inr ⟨'R', by decide, rfl⟩⟩, by simp⟩
    intro p a b q h
    have ha : ∀ c ∈ c!"EDDM Muenchen", isAsciiDigit c = false := by decide
    have := ha a (by rw [h]; simp)
    rw [this]
    simp
  · exact (by decide : IsField c!"Taxi")

theorem lines_example (ws : List Line) (hne : ws ≠ []) (h : ∀ w ∈ ws, w.Valid) :
    IsLines (ws.flatMap fun w => w.toText ++ c!"\n") ws := by
  have nl : IsFiller c!"\n" := .newline _ _ (Or.inl rfl) .nil
  have ns : StartsLine c!"\n" := ⟨'\n', [], rfl, Or.inl rfl⟩
  induction ws with
  | nil => exact absurd rfl hne
  | cons w ws ih =>
    cases ws with
    | nil =>
      simpa using IsLines.last w c!"\n" (h w List.mem_cons_self) nl (Or.inr ns)
    | cons v ws =>
      rw [List.flatMap_cons, List.append_assoc]
      exact .cons w c!"\n" _ _ (h w List.mem_cons_self) nl ns
        (ih (by simp) fun x hx => h x (List.mem_cons_of_mem _ hx))

/-- The hypotheses of `C43_asr_meaning` are met by a file with a comment and these lines. -/
example : IsFile (c!";map\n" ++ asrSample.flatMap fun w => w.toText ++ c!"\n") asrSample ∧ (∀ w ∈ asrSample, w.Fits) :=
  ⟨⟨c!";map\n", _, rfl, .comment c!"map" '\n' [] (by decide) (Or.inl rfl) .nil,
    lines_example _ (by decide) asrSample_valid⟩, by decide⟩

/-- What the theorem says about it: the first leader line counts, the last plugin setting, and the default
of what is not set. -/
example : ∃ a : Asr Str, parse (c!";map\n" ++ asrSample.flatMap fun w => w.toText ++ c!"\n") = .ok a ∧
    a.leader = .minutes 1 ∧ a.showC = false ∧ a.historyDots = 5 ∧ a.pluginSettings.get? (c!"TopSky", c!"HideMapData") = some c!"B" ∧
    a.map.fixes = [(c!"ABAMI", .symbol), (c!"ABAMI", .name)] ∧ a.windowArea = (⟨c!"11", c!"48.0"⟩, ⟨c!"-12.25", c!"49.5"⟩) := by
  obtain ⟨a, h, m⟩ := C43_asr_meaning id (fun _ _ => rfl) _ asrSample
    ⟨c!";map\n", _, rfl, .comment c!"map" '\n' [] (by decide) (Or.inl rfl) .nil,
    lines_example _ (by decide) asrSample_valid⟩ (by decide)
  refine ⟨a, h, ?_, ?_, ?_, ?_, ?_, ?_⟩
  · rw [m.leader]; decide
  · rw [m.showC]; decide
  · have := m.historyDots
    have e : first asrSample (fun w => (w.int? .historyDots).map intValue) 5 = 5 := by decide
    rw [e] at this
    omega
  · rw [m.plugins]; decide
  · rw [m.fixes]; decide
  · exact m.windowArea

/-- A file that meets the hypotheses of `C44_asr_panics`. -/
example : IsFile ([Line.int .leader c!"128"].flatMap fun w => w.toText ++ c!"\n") [.int .leader c!"128"] ∧
    ∃ w ∈ [Line.int .leader c!"128"], ¬ w.Fits :=
  ⟨⟨[], _, rfl, .nil, lines_example [Line.int .leader c!"128"] (by decide) (by
    intro w hw; rw [List.mem_singleton.1 hw]; exact Or.inl (by decide))⟩, by decide⟩

/-- A harmful part. -/
example : Harmful c!"HISTORY_DOTS:256" :=
  .number .historyDots [] c!"256" (Or.inl rfl) (Or.inl (by decide)) (by decide)

end Examples
end Verif.Props
