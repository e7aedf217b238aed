import Verif.Props.Symbology
/-!
# C119: symbology files that are cut off

An accepted symbology file ends with `END`, behind which there are only blanks and line ends.
-/

namespace Verif.Props.SymbologyCut
open Verif.Parse.Symbology (parse)
open Verif.Spec Verif.Spec.Symbology

/-- A space, a tabulator or a character of a line end -/
def IsEmptyChar (c : Char) : Prop := IsBlankChar c ∨ IsNewline c

theorem filler_empty {s : Str} (h : IsFiller [] s) : ∀ c ∈ s, IsEmptyChar c := by
  induction h with
  | nil => simp
  | blank c s hc _ ih =>
    intro d hd
    rcases List.mem_cons.1 hd with rfl | hd
    · exact Or.inl hc
    · exact ih d hd
  | newline c s hc _ ih =>
    intro d hd
    rcases List.mem_cons.1 hd with rfl | hd
    · exact Or.inr hc
    · exact ih d hd
  | _ => simp_all

theorem break_empty {s : Str} (h : s = [] ∨ IsBreak s) : ∀ c ∈ s, IsEmptyChar c := by
  rcases h with rfl | ⟨c, t, rfl, hc, ht⟩
  · simp
  · intro d hd
    rcases List.mem_cons.1 hd with rfl | hd
    · exact Or.inr hc
    · exact filler_empty ht d hd

theorem spaced_append : ∀ {a b : List Str} {s : Str}, Spaced (a ++ b) s → ∃ x y, s = x ++ y ∧ Spaced b y
  | [], b, s, h => ⟨[], s, rfl, h⟩
  | t :: a, b, _, .cons _ bl _ rest _ h => by
    obtain ⟨x, y, rfl, hy⟩ := spaced_append (a := a) h
    exact ⟨t ++ (bl ++ x), y, by simp, hy⟩

/-- The end of a symbology file -/
theorem text_end {f : File} {content : Str} (h : f.IsText content) :
    ∃ x r, content = x ++ c!"END" ++ r ∧ ∀ c ∈ r, IsEmptyChar c := by
  obtain ⟨hv, hs⟩ := h
  have ht : f.trail = [] ∨ IsBreak f.trail := hv.2.2.2.2.2.2.2.2.2
  have e : f.tokens = ([f.lead, c!"SYMBOLOGY", f.brk1, c!"SYMBOLSIZE", f.brk2] ++ (f.items.flatMap (fun i => i.1.tokens ++ [i.2]) ++
    (f.symbols.flatMap SymbolDef.tokens ++ [c!"m_ClipArea:", f.clip, f.brk3]))) ++ [c!"END", f.trail] := by
    simp [File.tokens]
  rw [e] at hs
  obtain ⟨x, y, rfl, hy⟩ := spaced_append hs
  cases hy with
  | cons _ b1 _ r1 h1 hr =>
    cases hr with
    | cons _ b2 _ r2 h2 hr =>
      cases hr
      refine ⟨x, b1 ++ (f.trail ++ (b2 ++ [])), by simp, fun c hc => ?_⟩
      simp only [List.mem_append, List.not_mem_nil, or_false] at hc
      rcases hc with hc | hc | hc
      · exact Or.inl (h1 c hc)
      · exact break_empty ht c hc
      · exact Or.inl (h2 c hc)

variable {F G : Type} [F64 F] [F64 G] [Parse.SymbolRule.Close F] (num : Str → F) (numG : Str → G)
  (hnum : ∀ s, IsDecimal s → F64.ofText s = some (num s)) (hnumG : ∀ s, IsDecimal s → F64.ofText s = some (numG s))

include hnum hnumG in
/-- **C119.** A symbology file without `END` at its end is refused. -/
theorem C119_symbology_end {content : Str} (h : parse (F := F) (G := G) content ≠ .error .parseError) :
    ∃ x r, content = x ++ c!"END" ++ r ∧ ∀ c ∈ r, IsEmptyChar c := by
  rw [Ne, (C62_symbology_accepts num numG hnum hnumG content).2.2, Classical.not_not] at h
  obtain ⟨f, hf⟩ := h
  exact text_end hf

include hnum hnumG in
/-- **C119.** If `END` stands only once in a symbology file, then what is left of the file is refused, unless only blanks and line ends
behind `END` are missing. -/
theorem C119_symbology {u v y z : Str} (ht : u ++ v = y ++ c!"END" ++ z) (hy : ¬ c!"END" <:+: y ++ c!"EN")
    (hu : parse (F := F) (G := G) u ≠ .error .parseError) : y ++ c!"END" <+: u := by
  obtain ⟨x, r, rfl, _⟩ := C119_symbology_end num numG hnum hnumG hu
  have p1 : x ++ c!"END" <+: y ++ c!"END" ++ z := by
    rw [← ht]
    exact ⟨r ++ v, by simp⟩
  by_cases hl : x.length < y.length
  · have p2 : x ++ c!"END" <+: y ++ c!"EN" := by
      refine List.prefix_of_prefix_length_le p1 ⟨'D' :: z, by simp⟩ ?_
      simp
      omega
    exact absurd ((List.infix_append' x c!"END" []).trans (by simpa using p2.isInfix)) hy
  · have p2 : y ++ c!"END" <+: x ++ c!"END" ++ r ++ v := by
      rw [ht]
      exact List.prefix_append _ _
    refine List.prefix_of_prefix_length_le p2 (List.prefix_append _ _) ?_
    simp
    omega

/-- An accepted file in which `END` stands once. -/
example : ∃ f : File, f.IsText f.text ∧ f.Fits ∧ ∃ y z, f.text = y ++ c!"END" ++ z ∧ ¬ c!"END" <:+: y ++ c!"EN" :=
  ⟨Symbology.sample Symbology.arc c!"ARC 0 -1.5:3 90 450", ⟨Symbology.sample_valid Symbology.arc_text, Symbology.text_spaced _⟩, by decide,
    c!" \nSYMBOLOGY\nSYMBOLSIZE\r\nAirports:symbol:16777215:3.5:0:1:7\nAirports:symbol:255:4:2:-1:14\n \nAirports:symbol:-1:4:2:1:0\nSYMBOL:0\nSYMBOLITEM:MOVETO 1 2\nSYMBOLITEM:ARC 0 -1.5:3 90 450\nSYMBOL:99\nSYMBOLITEM:SETPIXEL:0:0\nm_ClipArea:5\n",
    c!"\n", by decide +kernel, by decide +kernel⟩

end Verif.Props.SymbologyCut
