import Verif.Proofs.TopskySettingsSound
import Verif.Props.Ese
/-!
# C61: TopSky settings files

`Spec/TopskySettings.lean` says what a file looks like and what its lines mean, without reference to the grammar
or the parser.
-/

namespace Verif.Props
open Verif.Parse.TopskySettings Verif.Spec Verif.Spec.TopskySettings Verif.Proofs.TopskySettings
open Verif.Colours (Colour)

namespace TopskySettings

theorem get_fold (l : List Entry) (acc : Map Str ColourDef × Map Str Str) (n : Str) :
    ((l.filterMap meaning).foldl step acc).1.get? n =
      (match (l.filterMap (colourOf n)).getLast? with
        | some c => some ⟨n, c⟩
        | none => acc.1.get? n) ∧
    ((l.filterMap meaning).foldl step acc).2.get? n =
      (match (l.filterMap (valueOf n)).getLast? with
        | some v => some v
        | none => acc.2.get? n) := by
  induction l generalizing acc with
  | nil => exact ⟨rfl, rfl⟩
  | cons e l ih =>
    cases e with
    | setting k v =>
      have hm : List.filterMap meaning (Entry.setting k v :: l) = Setting.other k v :: l.filterMap meaning := rfl
      have h1 : List.filterMap (colourOf n) (Entry.setting k v :: l) = l.filterMap (colourOf n) := rfl
      rw [hm, h1, List.foldl_cons]
      refine ⟨(ih _).1, ?_⟩
      rw [(ih _).2]
      by_cases hk : k = n
      · have h2 : List.filterMap (valueOf n) (Entry.setting k v :: l) = v :: l.filterMap (valueOf n) := by
          simp [valueOf, hk]
        rw [h2, List.getLast?_cons]
        cases (l.filterMap (valueOf n)).getLast? with
        | some v => rfl
        | none => simp only [step, Map.get?_insert, hk, if_true]; rfl
      · have h2 : List.filterMap (valueOf n) (Entry.setting k v :: l) = l.filterMap (valueOf n) := by
          simp [valueOf, hk]
        rw [h2]
        cases (l.filterMap (valueOf n)).getLast? with
        | some v => rfl
        | none => simp only [step, Map.get?_insert, hk, if_false]
    | colour k r g b =>
      have h1 : List.filterMap (valueOf n) (Entry.colour k r g b :: l) = l.filterMap (valueOf n) := rfl
      have hk' : colourOf n (.colour k r g b) = if k = n then colourOf k (.colour k r g b) else none := by
        simp [colourOf]
      have hm' : meaning (.colour k r g b) = (colourOf k (.colour k r g b)).map fun c => Setting.colour ⟨k, c⟩ := rfl
      rw [h1, List.filterMap_cons, List.filterMap_cons, hm', hk']
      cases colourOf k (.colour k r g b) with
      | none => simpa using ih acc
      | some c =>
        simp only [Option.map_some, List.foldl_cons]
        refine ⟨?_, (ih _).2⟩
        rw [(ih _).1]
        by_cases hk : k = n
        · simp only [hk, if_true]
          rw [List.getLast?_cons]
          cases (l.filterMap (colourOf n)).getLast? with
          | some v => rfl
          | none => simp only [step, Map.get?_insert, if_true]; rfl
        · simp only [hk, if_false]
          cases (l.filterMap (colourOf n)).getLast? with
          | some v => rfl
          | none => simp only [step, Map.get?_insert, hk, if_false]
    | bare k => exact ih acc

end TopskySettings

/-- **C61, meaning.** A settings file with the lines `es` outside of sections is read, and under every name stands
the value of its last setting, and the colour of its last colour line whose numbers are at most 255.  Comments,
blanks, empty lines and the contents of sections do not matter. -/
theorem C61_topsky_settings {es : List Entry} {content : Str} (h : IsFile es content) :
    ∃ colours settings, parse content = .ok (colours, settings) ∧ ∀ n : Str,
      colours.get? n = ((es.filterMap (colourOf n)).getLast?).map (fun c => ⟨n, c⟩) ∧
      settings.get? n = (es.filterMap (valueOf n)).getLast? := by
  refine ⟨_, _, file_parse h, fun n => ?_⟩
  have := TopskySettings.get_fold es ([], []) n
  constructor
  · rw [this.1]; cases (es.filterMap (colourOf n)).getLast? <;> rfl
  · rw [this.2]; cases (es.filterMap (valueOf n)).getLast? <;> rfl

/-- **C61, any text.** Reading a settings file never panics and never loops: there is a result or a parse error. -/
theorem C61_topsky_settings_total (content : Str) :
    parse content = .error .parseError ∨ ∃ v, parse content = .ok v := parse_any content

/-- **C61, acceptance.** The texts that are read are exactly the files described; every other text gives a parse error. -/
theorem C61_topsky_settings_accepts (content : Str) :
    ((∃ v, parse content = .ok v) ↔ ∃ es, IsFile es content) ∧ (parse content = .error .parseError ↔ ¬ ∃ es, IsFile es content) := by
  have h : (∃ v, parse content = .ok v) ↔ ∃ es, IsFile es content :=
    ⟨fun ⟨_, h⟩ => file_of_ok h, fun ⟨_, h⟩ => ⟨_, file_parse h⟩⟩
  refine ⟨h, ?_⟩
  rw [← h]
  constructor
  · rintro e ⟨v, h⟩
    rw [e] at h
    cases h
  · intro hn
    exact (parse_any content).resolve_right hn

/-- **C61, a defect.** If a settings file starts with an empty line, then nothing in it is read: the result is
empty, or there is a parse error. -/
theorem C61_empty_first_line (c : Char) (rest : Str) (h : IsNewline c) :
    parse (c :: rest) = .error .parseError ∨ parse (c :: rest) = .ok ([], []) := by
  refine newline_start (headNot_cons_of h)
where
  headNot_cons_of {c : Char} {t : Str} (h : IsNewline c) : Peg.AtLineEnd (c :: t) := by
    rcases h with rfl | rfl <;> exact Peg.headNot_cons.2 (by decide)

theorem TopskySettings.plain_of {t : Str} (h : ∀ c, t.head? = some c → ¬ IsBlankChar c ∧ c ≠ ';' ∧ c ≠ '/') : Pl t := by
  cases t with
  | nil => exact pl_end (Peg.headNot_nil _)
  | cons c t =>
    obtain ⟨h1, h2, h3⟩ := h c rfl
    exact pl_cons ⟨fun e => h1 (Or.inl e), fun e => h1 (Or.inr e), h2, h3⟩

/-- **C61, a defect.** If there are blanks in front of the first character of a settings file, and that character is
no line end and starts no comment, then the file cannot be read, whatever follows. -/
theorem C61_leading_blank (g : Str) (c : Char) (rest : Str) (hg : AreBlanks g) (h0 : g ≠ [])
    (hc : ¬ IsBlankChar c ∧ ¬ IsNewline c ∧ c ≠ ';' ∧ c ≠ '/') :
    parse (g ++ c :: rest) = .error .parseError := by
  refine blank_start hg h0 (TopskySettings.plain_of ?_) (by simp) (Peg.headNot_cons.2 (Peg.not_newline_iff.2 hc.2.1))
  intro d hd
  cases hd
  exact ⟨hc.1, hc.2.2⟩

/-- **C61, a defect.** One colour whose value does not start with a number makes the whole file unreadable, whatever
settings are in front of it and whatever follows. -/
theorem C61_bad_colour (g0 name g1 g2 rest : Str) (h0 : AreBlanks g0) (h1 : IsName name) (h2 : AreBlanks g1) (h3 : AreBlanks g2)
    (hr : ∀ c, rest.head? = some c → ¬ IsBlankChar c ∧ c ≠ ';' ∧ c ≠ '/' ∧ isAsciiDigit c = false) :
    parse (prefix_ ++ (g0 ++ (name ++ (g1 ++ ('=' :: (g2 ++ rest)))))) = .error .parseError ∧
    ∀ e es line lines brk, IsLine e line → IsLines es lines → IsBreak marks brk →
      parse (line ++ (lines ++ (brk ++ (prefix_ ++ (g0 ++ (name ++ (g1 ++ ('=' :: (g2 ++ rest))))))))) = .error .parseError := by
  have hp : Pl rest := TopskySettings.plain_of fun c hc => ⟨(hr c hc).1, (hr c hc).2.1, (hr c hc).2.2.1⟩
  have hd : Peg.HeadNot isAsciiDigit rest := by
    cases rest with
    | nil => exact Peg.headNot_nil _
    | cons c t => exact Peg.headNot_cons.2 (hr c rfl).2.2.2
  exact ⟨bad_first h0 h1 h2 h3 hp hd, fun e es line lines brk hl hls hb => bad_later hl hls hb h0 h1 h2 h3 hp hd⟩

/-! ## The hypotheses are met -/

section
open TopskySettings

/-- A file with a comment, a colour that is too large, one that is defined twice, a setting and a section. -/
def topskySample : Str := c!"Color_Active = 1, 2,3 ; first\n\n// x\nColor_Big=1,2,256\nColor_Active=255,0,9\nSetup_COOPANS=1 2 // on\n[ILL]\nFont=x\n"

theorem topskySample_file : IsFile [.colour c!"Active" c!"1" c!"2" c!"3", .colour c!"Big" c!"1" c!"2" c!"256",
    .colour c!"Active" c!"255" c!"0" c!"9", .setting c!"Setup_COOPANS" c!"1 2"] topskySample := by
  have no : AreBlanks [] := by decide
  have sp : AreBlanks c!" " := by decide
  have digits : ∀ s, s ∈ [c!"1", c!"2", c!"3", c!"256", c!"255", c!"0", c!"9"] → IsDigits s := by decide
  have nl : IsBreak marks c!"\n" := ⟨'\n', [], rfl, by decide, .nil⟩
  have brk : IsBreak marks c!"\n\n// x\n" := ⟨'\n', _, rfl, by decide, .newline '\n' _ (by decide)
    (.comment c!"//" c!" x" '\n' [] (by decide) (by decide) (by decide) .nil)⟩
  have tail : IsTail [] := ⟨[], [], rfl, no, Or.inl rfl⟩
  have tail1 : IsTail c!" ; first" := ⟨c!" ", c!"; first", rfl, sp, Or.inr ⟨c!";", by decide, c!" first", rfl, by decide⟩⟩
  have tail2 : IsTail c!" // on" := ⟨c!" ", c!"// on", rfl, sp, Or.inr ⟨c!"//", by decide, c!" on", rfl, by decide⟩⟩
  have l1 := IsLine.colour [] c!"Active" c!" " c!" " c!"1" [] c!" " c!"2" [] [] c!"3" c!" ; first" no (by decide) sp sp
    (digits _ (by decide)) no sp (digits _ (by decide)) no no (digits _ (by decide)) tail1
  have l2 := IsLine.colour [] c!"Big" [] [] c!"1" [] [] c!"2" [] [] c!"256" [] no (by decide) no no
    (digits _ (by decide)) no no (digits _ (by decide)) no no (digits _ (by decide)) tail
  have l3 := IsLine.colour [] c!"Active" [] [] c!"255" [] [] c!"0" [] [] c!"9" [] no (by decide) no no
    (digits _ (by decide)) no no (digits _ (by decide)) no no (digits _ (by decide)) tail
  have v1 : IsValue c!"1 2" := ⟨by decide, by decide, by decide, by decide⟩
  have v2 : IsValue c!"x" := ⟨by decide, by decide, by decide, by decide⟩
  have l4 := IsLine.setting c!"Setup_COOPANS" [] [] c!"1 2" c!" // on" (by decide) (by decide) no no v1 tail2 (by decide)
  have l5 := IsLine.setting c!"Font" [] [] c!"x" [] (by decide) (by decide) no no v2 tail (by decide)
  have hd := IsHead.brackets [] c!"ILL" [] [] no (by decide) no tail
  exact IsFile.line _ _ _ _ _ c!"\n" l1 (.cons _ _ _ _ _ brk l2 (.cons _ _ _ _ _ nl l3 (.cons _ _ _ _ _ nl l4 .nil)))
    (.cons c!"\n" _ _ _ _ nl hd (.cons _ _ _ _ _ nl l5 .nil) .nil) (Or.inr ⟨c!"\n", [], rfl, nl, Or.inl rfl⟩)

/-- What the theorem says about this file. -/
example : ∃ colours settings, parse topskySample = .ok (colours, settings) ∧ colours.get? c!"Active" = some ⟨c!"Active", ⟨255, 0, 9, 255⟩⟩ ∧
    colours.get? c!"Big" = none ∧ settings.get? c!"Setup_COOPANS" = some c!"1 2" ∧ settings.get? c!"Font" = none := by
  obtain ⟨cs, ss, h1, h2⟩ := C61_topsky_settings topskySample_file
  refine ⟨cs, ss, h1, ?_, ?_, ?_, ?_⟩
  · rw [(h2 _).1]; decide
  · rw [(h2 _).1]; decide
  · rw [(h2 _).2]; decide
  · rw [(h2 _).2]; decide

/-- A name that starts like a colour and goes on with a comment is the name of a setting; a colour without a name is not a line. -/
example : (∃ es, IsFile es c!"Color_//x=1") ∧ ¬ ∃ es, IsFile es c!"X=1\nColor_ 1,2,3" := by
  constructor
  · exact ⟨_, IsFile.line _ [] _ [] [] [] (IsLine.setting c!"Color_//x" [] [] c!"1" [] (by decide) (by decide) (by decide) (by decide)
      ⟨by decide, by decide, by decide, by decide⟩ ⟨[], [], rfl, by decide, Or.inl rfl⟩ (by decide)) .nil .nil (Or.inl rfl)⟩
  · exact (C61_topsky_settings_accepts _).2.1 (rejected_iff.1 (by decide +kernel))

/-- An empty first line: the file is not read, although the same file without it is. -/
example : parse c!"\nX=1" = .error .parseError ∧ parse c!"X=1" = .ok ([], [(c!"X", c!"1")]) := by
  refine ⟨rejected_iff.1 (by decide +kernel), ?_⟩
  exact file_parse (IsFile.line _ [] _ [] [] [] (IsLine.setting c!"X" [] [] c!"1" [] (by decide) (by decide) (by decide) (by decide)
    ⟨by decide, by decide, by decide, by decide⟩ ⟨[], [], rfl, by decide, Or.inl rfl⟩ (by decide)) .nil .nil (Or.inl rfl))

/-- A blank in front of the first setting. -/
example : parse c!" X=1\nY=2" = .error .parseError :=
  C61_leading_blank c!" " 'X' c!"=1\nY=2" (by decide) (by decide) (by decide)

/-- A colour by name, on the second line. -/
example : parse c!"X=1\nColor_A=red\nY=2" = .error .parseError :=
  (C61_bad_colour [] c!"A" [] [] c!"red\nY=2" (by decide) (by decide) (by decide) (by decide) (by decide)).2 _ _ c!"X=1" [] c!"\n"
    (IsLine.setting c!"X" [] [] c!"1" [] (by decide) (by decide) (by decide) (by decide)
      ⟨by decide, by decide, by decide, by decide⟩ ⟨[], [], rfl, by decide, Or.inl rfl⟩ (by decide)) .nil ⟨'\n', [], rfl, by decide, .nil⟩

end

end Verif.Props
