import Verif.Proofs.SctBare
import Verif.Proofs.SctPanic
import Verif.Props.Ese
/-!
# Reading .sct files: theorems

C50, C51, C60.  The format, the meaning of a file and what is harmful are in `Verif/Spec/Sct.lean`.
-/

namespace Verif.Props
open Verif.Peg Verif.Spec Verif.Spec.Sct Verif.Dms Verif.Parse
open Verif.Spec.Ese (DmsText)

set_option linter.unusedSectionVars false

section
variable {F : Type} [F64 F] [DmsArith F] [DecidableEq F] [UnicodeTables]

/-- C50: reading a text ends with an error or, unless it contains a harmful part, with a value. -/
theorem C50_sct_outcome (content : Str) :
    Parse.Sct.parse (F := F) content = .error .parseError ∨ (∃ e, Parse.Sct.parse (F := F) content = .ok e) ∨
      ∃ s, s <:+: content ∧ Harmful s := by
  obtain ⟨num, hnum⟩ := ese_reads F
  rcases Proofs.Sct.parse_cases num hnum content with h | h
  · exact Or.inl h
  · exact Or.inr h

/-- C50: reading a text panics only if it contains a harmful part. -/
theorem C50_sct_panics_only (content : Str) (h : Parse.Sct.parse (F := F) content = .error .panic) :
    ∃ s, s <:+: content ∧ Harmful s := by
  rcases C50_sct_outcome (F := F) content with h' | ⟨e, h'⟩ | h'
  · rw [h] at h'; cases h'
  · rw [h] at h'; cases h'
  · exact h'
/-- C51: a valid file whose numbers fit their types is read as the meaning of the file: of several sections of a kind
the last one counts, and the colours of all sections are kept, the last definition of a name winning. -/
theorem C51_sct_meaning (num : Str → F) (hnum : ∀ s, IsDecimal s → F64.ofText s = some (num s)) (f : File) (h : f.Valid) (hf : f.Fits) :
    ∃ colours : Map Str Colours.Colour, Parse.Sct.parse (F := F) f.text = .ok (f.value num colours) ∧ ∀ n, colours.get? n = f.colourOf n := by
  obtain ⟨c, h1, h2⟩ := Proofs.Sct.parse_file num hnum (F := F) h
  rw [Proofs.gated, if_pos hf] at h1
  exact ⟨c, h1, h2⟩

/-- C50: a valid file with a number that does not fit its type panics the parser. -/
theorem C50_sct_panics (f : File) (h : f.Valid) (hf : ¬ f.Fits) : Parse.Sct.parse (F := F) f.text = .error .panic := by
  obtain ⟨num, hnum⟩ := ese_reads F
  obtain ⟨c, h1, _⟩ := Proofs.Sct.parse_file num hnum (F := F) h
  rw [Proofs.gated, if_neg hf] at h1
  exact h1

/-- C60, for valid files: reading a file and reading it without its comments and empty lines both panic, or both give
the same result.  Missing: comments at the places where a valid file has none, for which it is false
(`C60_comment_rejected`, `C60_comment_in_name`, `C60_comment_in_region`). -/
theorem C60_comments_partial (f : File) (h : f.Valid) :
    (Parse.Sct.parse (F := F) f.text = .error .panic ∧ Parse.Sct.parse (F := F) f.bare.text = .error .panic) ∨
    ∃ e e' : Parse.Sct.Sct F, Parse.Sct.parse f.text = .ok e ∧ Parse.Sct.parse f.bare.text = .ok e' ∧
      { e with colours := [] } = { e' with colours := [] } ∧ ∀ n, e.colours.get? n = e'.colours.get? n := by
  obtain ⟨num, hnum⟩ := ese_reads F
  have hb := Proofs.Sct.file_bare h
  by_cases hf : f.Fits
  · obtain ⟨c, h1, h2⟩ := C51_sct_meaning num hnum f h hf
    obtain ⟨c', h1', h2'⟩ := C51_sct_meaning num hnum f.bare hb ((Proofs.Sct.file_fits f).2 hf)
    refine Or.inr ⟨_, _, h1, h1', ?_, fun n => ?_⟩
    · rw [Proofs.Sct.value_bare]; rfl
    · show c.get? n = c'.get? n
      rw [h2, h2']
      unfold File.colourOf
      rw [Proofs.Sct.file_colours]
  · exact Or.inl ⟨C50_sct_panics f h hf, C50_sct_panics f.bare hb fun hx => hf ((Proofs.Sct.file_fits f).1 hx)⟩
end

/-! ## Examples -/

section Examples
attribute [local instance] asciiTables
local instance sctTextF64 : F64 Str := ⟨some, fun _ _ => rfl⟩
local instance sctTextDms : DmsArith Str := ⟨fun d => d.sec⟩

def sctPoint : CoordText := ⟨⟨'N', c!"048", c!"21", c!"14.000"⟩, c!" ", ⟨'E', c!"011", c!"47", c!"10.000"⟩⟩
def sctPoint2 : CoordText := ⟨⟨'N', c!"048", c!"21", c!"15.000"⟩, c!" ", ⟨'E', c!"011", c!"47", c!"10.000"⟩⟩
def sctLine : LineText := ⟨.coord sctPoint, c!" ", .coord sctPoint2, some (c!"  ", c!"red")⟩

def sctInfo : InfoText where
  tail := []
  before := []
  brk := c!"\n"
  name := c!"EDMM 2401"
  callsign := ⟨c!"\n", c!"EDMM_CTR", []⟩
  airport := ⟨c!"\n", c!"EDDM", c!" ; the airport"⟩
  lat := ⟨c!"\n", ⟨'N', c!"048", c!"21", c!"14.000"⟩, []⟩
  lng := ⟨c!"\n", ⟨'E', c!"011", c!"47", c!"10.000"⟩, []⟩
  milesLat := ⟨c!"\n", c!"60.5", []⟩
  milesLng := ⟨c!"\n", c!"39.5", []⟩
  variation := ⟨c!"\n", c!"-3.5", []⟩
  scale := none
  after := [⟨c!"\n", ⟨c!" ", c!"blue", c!" ", c!"16711680"⟩, []⟩]

def sctFile : File where
  lead := c!"; Munich"
  outer := [⟨c!"\n", ⟨c!" ", c!"red", c!" ", c!"255"⟩, c!" // red"⟩, ⟨c!"\n", ⟨c!" ", c!"blue", c!" ", c!"4"⟩, []⟩]
  sections := [
    (c!"\n", .info sctInfo),
    (c!"\n\n", .vors ⟨c!" ", [.entry c!"\n" ⟨⟨c!"MUN", c!" ", c!"112.300", c!" ", sctPoint⟩, c!" ; MUN"⟩]⟩),
    (c!"\n", .drawings .geo ⟨[], [.entry c!"\n" ⟨c!"coast", c!" ", sctLine, [], [⟨c!"\n", sctLine, c!" ; more"⟩]⟩]⟩),
    (c!"\n", .vors ⟨[], [.entry c!"\n" ⟨⟨c!"OTT", c!" ", c!"112.300", c!" ", sctPoint⟩, []⟩,
      .colour c!"\n" ⟨c!" ", c!"red", c!" ", c!"16777216"⟩ []]⟩)]
  last := c!"\n"

theorem sctGap {s : Str} (h : s ≠ [] ∧ ∀ c ∈ s, IsBlank c) : IsGap s := h
theorem sctTail_nil : IsTail [] := ⟨[], [], rfl, by simp [AreBlanks], Or.inl rfl⟩
theorem sctComment {w body : Str} (hw : w ∈ marks) (h : ∀ c ∈ body, ¬ IsNewline c) : IsTail (' ' :: (w ++ body)) :=
  ⟨c!" ", w ++ body, rfl, by unfold AreBlanks; decide, Or.inr ⟨w, hw, body, rfl, h⟩⟩
theorem sctBreak : IsBreak c!"\n" := ⟨'\n', [], rfl, Or.inl rfl, .nil⟩

theorem sctPoint_valid : sctPoint.Valid := by
  exact ⟨⟨by decide, by decide, by decide, dec_ex (a := c!"14") (b := c!"000") (by decide) (by decide)⟩, sctGap (by decide),
    ⟨by decide, by decide, by decide, dec_ex (a := c!"10") (b := c!"000") (by decide) (by decide)⟩⟩

theorem sctPoint2_valid : sctPoint2.Valid := by
  exact ⟨⟨by decide, by decide, by decide, dec_ex (a := c!"15") (b := c!"000") (by decide) (by decide)⟩, sctGap (by decide),
    ⟨by decide, by decide, by decide, dec_ex (a := c!"10") (b := c!"000") (by decide) (by decide)⟩⟩

theorem sctLine_valid : sctLine.Valid := by
  refine ⟨sctPoint_valid, sctGap (by decide), sctPoint2_valid, fun g c h => ?_⟩
  cases h
  exact ⟨sctGap (by decide), (by decide : c!"red" ≠ []), (by decide : ∀ c ∈ c!"red", isAsciiAlphanumeric c = true ∨ c = '-' ∨ c = '_')⟩

theorem colour_ex {g n g' v : Str} (h1 : g ≠ [] ∧ ∀ c ∈ g, IsBlank c) (h2 : n ≠ [] ∧ ∀ c ∈ n, isAsciiAlphanumeric c = true ∨ c = '-' ∨ c = '_')
    (h3 : g' ≠ [] ∧ ∀ c ∈ g', IsBlank c) (h4 : IsDigits v) (h5 : v.head? ≠ some '-') : (⟨g, n, g', v⟩ : ColourDef).Valid :=
  ⟨h1, h2, h3, int_ex h4, h5⟩

/-- Two locations start with a capital letter, a digit or one of `nswe`. -/
theorem startsLine_head {s : Str} (h : StartsLine s) : ∃ c t, s = c :: t ∧ (isAsciiUpper c = true ∨ isAsciiDigit c = true ∨ c ∈ c!"NSWEnswe") := by
  obtain ⟨a, b, g, r, ha, _, _, rfl⟩ := h
  cases a with
  | coord c =>
    obtain ⟨⟨h1, _⟩, _⟩ := ha
    exact ⟨c.lat.hemi, _, rfl, Or.inr (Or.inr h1)⟩
  | fix n gap =>
    obtain ⟨⟨h1, h2⟩, _⟩ := ha
    cases n with
    | nil => exact absurd rfl h1
    | cons c n => exact ⟨c, _, rfl, (h2 c List.mem_cons_self).imp_right Or.inl⟩

theorem sctInfo_valid : sctInfo.Valid where
  tail := ⟨sctTail_nil, by decide, by decide⟩
  before := by simp [sctInfo]
  brk := sctBreak
  name := ⟨by decide, by decide, by decide, by decide⟩
  callsign := ⟨sctBreak, ⟨by decide, by decide⟩, sctTail_nil⟩
  airport := ⟨sctBreak, ⟨by decide, by decide⟩, sctComment (w := c!";") (body := c!" the airport") (by simp) (by decide)⟩
  lat := ⟨sctBreak, sctPoint_valid.1, sctTail_nil⟩
  lng := ⟨sctBreak, sctPoint_valid.2.2, sctTail_nil⟩
  milesLat := ⟨sctBreak, dec_ex (a := c!"60") (b := c!"5") (by decide) (by decide), sctTail_nil⟩
  milesLng := ⟨sctBreak, dec_ex (a := c!"39") (b := c!"5") (by decide) (by decide), sctTail_nil⟩
  variation := ⟨sctBreak, ⟨c!"-", c!"3", c!".5", rfl, by simp [IsSign], by decide, Or.inr ⟨c!"5", rfl, by decide⟩⟩, sctTail_nil⟩
  scale := by intro l h; cases h
  after := by
    intro l h
    rw [List.mem_singleton.1 h]
    exact ⟨sctBreak, colour_ex (by decide) (by decide) (by decide) (by decide) (by decide), sctTail_nil⟩

theorem sctDrawing_valid : (⟨c!"coast", c!" ", sctLine, [], [⟨c!"\n", sctLine, c!" ; more"⟩]⟩ : DrawingText).Valid where
  nonempty := by simp
  chars := by decide
  start := by decide
  noColour := by simp
  whole := by
    intro p q e hp hq ⟨g, l, sp, hg, _, _, _, e'⟩
    cases q with
    | nil => exact hq rfl
    | cons d q =>
      obtain ⟨hg1, hg2⟩ := hg
      cases g with
      | nil => exact hg1 rfl
      | cons x g =>
        have hx := hg2 x List.mem_cons_self
        injection e' with e1 _
        subst e1
        have : d ∈ c!"coast" := by
          have e : c!"coast" = p ++ d :: q := e
          rw [e]
          simp
        exact absurd hx ((by decide : ∀ d ∈ c!"coast", ¬ IsBlank d) d this)
  noLine := by
    intro h
    obtain ⟨c, t, e, hc⟩ := startsLine_head h
    injection e with e1 _
    subst e1
    exact absurd hc (by decide)
  gap := sctGap (by decide)
  first := sctLine_valid
  uniform := rfl
  blanks := by simp
  more := by
    intro l h
    rw [List.mem_singleton.1 h]
    exact ⟨sctBreak, sctLine_valid, sctComment (w := c!";") (body := c!" more") (by simp) (by decide)⟩

/-- The hypotheses of `C51_sct_meaning` are met by this file. -/
theorem sctFile_valid : sctFile.Valid where
  lead := ⟨[], _, rfl, by simp [AreBlanks], Or.inr ⟨c!";", by simp, c!" Munich", rfl, by decide⟩⟩
  first := by
    intro b h
    cases h
    exact Or.inl sctBreak
  breaks := by
    intro b h
    simp only [File.breaks, sctFile, List.map_cons, List.map_nil, List.cons_append, List.nil_append, List.tail_cons, List.mem_cons,
      List.not_mem_nil, or_false] at h
    rcases h with rfl | rfl | rfl | rfl | rfl
    · exact sctBreak
    · exact sctBreak
    · exact ⟨'\n', c!"\n", rfl, Or.inl rfl, .newline _ _ (Or.inl rfl) .nil⟩
    · exact sctBreak
    · exact sctBreak
  outer := by
    intro l h
    simp only [sctFile, List.mem_cons, List.not_mem_nil, or_false] at h
    rcases h with rfl | rfl
    · exact ⟨colour_ex (by decide) (by decide) (by decide) (by decide) (by decide), sctComment (w := c!"//") (body := c!" red") (by simp) (by decide)⟩
    · exact ⟨colour_ex (by decide) (by decide) (by decide) (by decide) (by decide), sctTail_nil⟩
  sections := by
    intro s h
    simp only [sctFile, List.mem_cons, List.not_mem_nil, or_false] at h
    rcases h with rfl | rfl | rfl | rfl
    · exact sctInfo_valid
    · refine ⟨⟨⟨c!" ", [], rfl, by unfold AreBlanks; decide, Or.inl rfl⟩, by decide, by decide⟩, fun l h => ?_⟩
      rw [List.mem_singleton.1 h]
      exact ⟨sctBreak, ⟨⟨by decide, by decide⟩, sctGap (by decide), dec_ex (a := c!"112") (b := c!"300") (by decide) (by decide), sctGap (by decide),
        sctPoint_valid⟩, sctComment (w := c!";") (body := c!" MUN") (by simp) (by decide)⟩
    · refine ⟨⟨sctTail_nil, by decide, by decide⟩, fun l h => ?_⟩
      rw [List.mem_singleton.1 h]
      exact ⟨sctBreak, sctDrawing_valid⟩
    · refine ⟨⟨sctTail_nil, by decide, by decide⟩, fun l h => ?_⟩
      simp only [List.mem_cons, List.not_mem_nil, or_false] at h
      rcases h with rfl | rfl
      · exact ⟨sctBreak, ⟨⟨by decide, by decide⟩, sctGap (by decide), dec_ex (a := c!"112") (b := c!"300") (by decide) (by decide), sctGap (by decide),
          sctPoint_valid⟩, sctTail_nil⟩
      · exact ⟨sctBreak, colour_ex (by decide) (by decide) (by decide) (by decide) (by decide), sctTail_nil⟩
  last := Or.inr sctBreak
  ended := by intro h; cases h

/-- The first section `[VOR]` is lost; a colour may be defined anywhere, and a number of more than three bytes does not
replace it. -/
example : ∃ e : Parse.Sct.Sct Str, Parse.Sct.parse sctFile.text = .ok e ∧ e.vors.map (·.designator) = [c!"OTT"] ∧
    e.colours.get? c!"red" = some ⟨255, 0, 0, 255⟩ ∧ e.colours.get? c!"blue" = some ⟨0, 0, 255, 255⟩ ∧
    e.info.name = c!"EDMM 2401" ∧ e.geo.map (·.name) = [c!"coast"] ∧ e.ndbs = [] := by
  obtain ⟨c, h1, h2⟩ := C51_sct_meaning (F := Str) id (fun _ _ => rfl) sctFile sctFile_valid (by decide)
  refine ⟨_, h1, rfl, ?_, ?_, rfl, rfl, rfl⟩
  · show c.get? _ = _
    rw [h2]; decide
  · show c.get? _ = _
    rw [h2]; decide

/-- The file without comments, to which `C60_comments_partial` relates it. -/
example : sctFile.bare.text ≠ sctFile.text ∧ sctFile.bare.text.take 40 = c!"\n#define red 255\n#define blue 4\n[INFO]\nE" := by decide

/-- A file that meets the hypotheses of `C50_sct_panics`. -/
def sctOverflow : File := ⟨[], [⟨[], ⟨c!" ", c!"red", c!" ", c!"2147483648"⟩, []⟩], [], []⟩

example : sctOverflow.Valid ∧ ¬ sctOverflow.Fits := by
  refine ⟨⟨sctTail_nil, ?_, by simp [sctOverflow, File.breaks], ?_, by simp [sctOverflow], Or.inl rfl, by simp [sctOverflow]⟩, by decide⟩
  · intro b h
    cases h
    exact Or.inr ⟨rfl, by simp [sctOverflow, AreBlanks]⟩
  · intro l h
    rw [List.mem_singleton.1 h]
    exact ⟨colour_ex (by decide) (by decide) (by decide) (by decide) (by decide), sctTail_nil⟩

example : Harmful c!"#define red 2147483648" :=
  .colour c!" " c!"red" c!" " c!"2147483648" (by unfold AreBlanks; decide) ⟨by decide, by decide⟩ (by unfold AreBlanks; decide) ⟨int_ex (by decide), by decide⟩
    (by decide)

/-! ## Comments and line ends that matter -/

def sctA : Str := c!"N048.21.14.000 E011.47.10.000"
def sctB : Str := c!"N048.21.14.000 E011.47.10.001"

/-- A drawing named `X` of two lines; `c` follows the first line. -/
def sctGeo (c : Str) : Str := c!"[GEO]\nX " ++ sctA ++ c!" " ++ sctB ++ c ++ c!"\n" ++ sctA ++ c!" " ++ sctB ++ c!"\n"

/-- The same with a space in front of the second line. -/
def sctGeo' (c : Str) : Str := c!"[GEO]\nX " ++ sctA ++ c!" " ++ sctB ++ c ++ c!"\n " ++ sctA ++ c!" " ++ sctB ++ c!"\n"

def namesAre (names : List Str) : Run (Parse.Sct.Sct Str) → Bool
  | .ok e => e.geo.map (·.name) = names
  | _ => false

/-- C60 is false: a comment behind the first line of a drawing makes the file unreadable. -/
theorem C60_comment_rejected : namesAre [c!"X"] (Parse.Sct.parse (sctGeo [])) = true ∧
    Parse.Sct.parse (F := Str) (sctGeo c!" ; c") = .error .parseError :=
  ⟨by decide +kernel, rejected_iff.1 (by decide +kernel)⟩

/-- C60 is false: it may also become a part of the name, together with the line and its end. -/
theorem C60_comment_in_name : namesAre [c!"X"] (Parse.Sct.parse (sctGeo' [])) = true ∧
    namesAre [c!"X " ++ sctA ++ c!" " ++ sctB ++ c!" ; c\n"] (Parse.Sct.parse (sctGeo' c!" ; c")) = true :=
  ⟨by decide +kernel, by decide +kernel⟩

/-- C60 is false: a file that ends with the first line of a drawing is unreadable without a line end. -/
theorem C60_last_line_rejected : namesAre [c!"X"] (Parse.Sct.parse (c!"[GEO]\nX " ++ sctA ++ c!" " ++ sctB ++ c!"\n")) = true ∧
    Parse.Sct.parse (F := Str) (c!"[GEO]\nX " ++ sctA ++ c!" " ++ sctB) = .error .parseError :=
  ⟨by decide +kernel, rejected_iff.1 (by decide +kernel)⟩

def regionsAre (names : List (Str × Str)) : Run (Parse.Sct.Sct Str) → Bool
  | .ok e => e.regions.map (fun r => (r.name, r.colourName)) = names
  | _ => false

/-- A region of one colour; `c` follows its name and `t` its points. -/
def sctRegion (c t : Str) : Str :=
  c!"[REGIONS]\nREGIONNAME X" ++ c ++ c!"\nred " ++ sctA ++ c!"\n" ++ sctB ++ c!"\n" ++ sctA ++ c!"\n" ++ t

/-- C60 is false: a comment behind the name of a region becomes a part of the name. -/
theorem C60_comment_in_region : regionsAre [(c!"X", c!"red")] (Parse.Sct.parse (sctRegion [] [])) = true ∧
    regionsAre [(c!"X ; c", c!"red")] (Parse.Sct.parse (sctRegion c!" ; c" [])) = true :=
  ⟨by decide +kernel, by decide +kernel⟩

end Examples

end Verif.Props
