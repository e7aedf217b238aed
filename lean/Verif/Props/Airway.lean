import Verif.Proofs.AirwayFile
/-!
# C08: `parse_airway_txt`

`Spec/Airway.lean` says what an airway file is and which segments its lines stand for, without
reference to the grammar.
-/

namespace Verif.Props
open Verif.Parse Verif.Parse.Airway Verif.Spec.Airway
open Verif.Spec.Isec (IsCoord IsComment IsDesignator)
open Verif.AirwayGraph

variable {F : Type} [F64 F] [Quantize (Point F)]

/-- **C08, the files.** The parser reports an error exactly for the texts that are no airway file with
at least one line. -/
theorem C08_airway_error_iff (num : Str → F) (hnum : ∀ s, IsCoord s → F64.ofText s = some (num s)) (content : Str) :
    parseAirwayTxt (F := F) content = .error .parseError ↔ ¬ ∃ ws, ws ≠ [] ∧ IsFile content ws := by
  constructor
  · rintro h ⟨ws, hne, hf⟩
    rw [parse_complete hnum hf hne] at h
    split at h
    · obtain ⟨g, hg⟩ := build_ok (ws.flatMap (segs num))
      rw [hg] at h; cases h
    · cases h
  · intro h
    exact (parse_sound content).resolve_right h

/-- **C08.** An airway file parses to the graph of the segments of its lines, in file order, provided
all levels are at most 4294967295. -/
theorem C08_airway_ok (num : Str → F) (hnum : ∀ s, IsCoord s → F64.ofText s = some (num s)) (content : Str)
    (ws : List Line) (hf : IsFile content ws) (hne : ws ≠ []) (hl : ∀ w ∈ ws, LevelsFit w) :
    ∃ g, parseAirwayTxt (F := F) content = .ok g ∧
      build (ws.flatMap (segments fun lat lng => { x := num lng, y := num lat })) = .ok g := by
  obtain ⟨g, hg⟩ := build_ok (ws.flatMap (segs num))
  refine ⟨g, ?_, hg⟩
  rw [parse_complete hnum hf hne, if_pos hl, hg]

/-- **C08.** With a larger level the parser panics. -/
theorem C08_airway_panic (num : Str → F) (hnum : ∀ s, IsCoord s → F64.ofText s = some (num s)) (content : Str)
    (ws : List Line) (hf : IsFile content ws) (hl : ¬ ∀ w ∈ ws, LevelsFit w) :
    parseAirwayTxt (F := F) content = .error .panic := by
  have hne : ws ≠ [] := by rintro rfl; simp at hl
  rw [parse_complete hnum hf hne, if_neg hl]

/-- **C08.** The parser panics exactly for the airway files with a level above 4294967295, and it never
loops. -/
theorem C08_airway_panics_iff (num : Str → F) (hnum : ∀ s, IsCoord s → F64.ofText s = some (num s)) (content : Str) :
    (parseAirwayTxt (F := F) content = .error .panic ↔
      ∃ ws, IsFile content ws ∧ ∃ w ∈ ws, ∃ n, (w.nb1 = some n ∨ w.nb2 = some n) ∧
        ∃ l, levelOf n = some l ∧ 4294967295 < l) ∧
    parseAirwayTxt (F := F) content ≠ .error .diverge := by
  have key : ∀ ws : List Line, (¬ ∀ w ∈ ws, LevelsFit w) ↔ ∃ w ∈ ws, ∃ n, (w.nb1 = some n ∨ w.nb2 = some n) ∧
        ∃ l, levelOf n = some l ∧ 4294967295 < l := by
    intro ws
    simp only [LevelsFit, Classical.not_forall, Nat.not_lt]
    constructor
    · rintro ⟨w, hw, n, hn, l, hl, h⟩; exact ⟨w, hw, n, hn, l, hl, by omega⟩
    · rintro ⟨w, hw, n, hn, l, hl, h⟩; exact ⟨w, hw, n, hn, l, hl, by omega⟩
  constructor
  · constructor
    · intro h
      rcases parse_sound (F := F) content with h' | ⟨ws, hne, hf⟩
      · rw [h'] at h; cases h
      · refine ⟨ws, hf, (key ws).1 fun hl => ?_⟩
        obtain ⟨g, hg, _⟩ := C08_airway_ok num hnum content ws hf hne hl
        rw [hg] at h; cases h
    · rintro ⟨ws, hf, h⟩
      exact C08_airway_panic num hnum content ws hf ((key ws).2 h)
  · intro h
    rcases parse_sound (F := F) content with h' | ⟨ws, hne, hf⟩
    · rw [h'] at h; cases h
    · rw [parse_complete hnum hf hne] at h
      split at h
      · obtain ⟨g, hg⟩ := build_ok (ws.flatMap (segs num))
        rw [hg] at h; cases h
      · cases h

/-! ## Concrete cases -/

section Examples

/-- Coordinates kept as their texts. -/
local instance textF64a : F64 Str := ⟨some, fun _ _ => rfl⟩
local instance : Quantize (Point Str) := ⟨fun p => (p.x.length, p.y.length)⟩

/-- The hypothesis on `num` is met. -/
example : ∀ s, IsCoord s → F64.ofText s = some (id s : Str) := fun _ _ => rfl

def airwayExample (level : Str) : Str := c!"; airways" ++ ['\n'] ++
  c!"ASPAT\t49.1\t10.7\t14\tL603\tH\tRODIX\t49.5\t10.25\t" ++ level ++ c!"\tY\t0\t0\t\t0\t0N// end" ++ ['\r', '\n']

def airwayLine (level : Str) : Line :=
  ⟨c!"ASPAT", c!"49.1", c!"10.7", c!"L603", ['H'], some ⟨c!"RODIX", c!"49.5", c!"10.25", level, ['Y']⟩, none⟩

theorem airwayExample_isFile {level : Str} (h : IsDigits level) :
    IsFile (airwayExample level) [airwayLine level] := by
  have := IsFile.blank c!"; airways" ['\n'] (c!"ASPAT\t49.1\t10.7\t14\tL603\tH\tRODIX\t49.5\t10.25\t" ++ level ++
      c!"\tY\t0\t0\t\t0\t0N// end" ++ ['\r', '\n']) [airwayLine level]
    (Or.inr ⟨c!" airways", Or.inl rfl, by decide⟩) (Or.inl rfl) ?_
  · simpa [airwayExample] using this
  · have := IsFile.line (airwayLine level) (c!"ASPAT\t49.1\t10.7\t14\tL603\tH\tRODIX\t49.5\t10.25\t" ++ level ++
      c!"\tY\t0\t0\t\t0\t0N// end") ['\r', '\n'] [] [] ?_ (Or.inr (Or.inl rfl)) (.last [] (Or.inl rfl))
    · simpa using this
    · refine ⟨c!"\tRODIX\t49.5\t10.25\t" ++ level ++ c!"\tY", c!"\t0\t0\t\t0\t0N", c!"// end",
        (by decide : IsDesignator c!"ASPAT"), ⟨[], c!"49", c!"1", rfl, Or.inl rfl, by decide, by decide⟩,
        ⟨[], c!"10", c!"7", rfl, Or.inl rfl, by decide, by decide⟩, (by decide : IsDesignator c!"L603"),
        Or.inr (Or.inl rfl),
        ⟨(by decide : IsDesignator c!"RODIX"), ⟨[], c!"49", c!"5", rfl, Or.inl rfl, by decide, by decide⟩,
          ⟨[], c!"10", c!"25", rfl, Or.inl rfl, by decide, by decide⟩, Or.inl h, Or.inl rfl, by simp⟩,
        ⟨['0'], ['0'], [], ['0'], ['0'], by decide, rfl⟩, Or.inr ⟨c!" end", Or.inr rfl, by decide⟩,
        by simp [airwayLine]⟩

/-- A file whose level fits … -/
example : ∃ g, parseAirwayTxt (F := Str) (airwayExample c!"4294967295") = .ok g := by
  obtain ⟨g, h, _⟩ := C08_airway_ok (F := Str) id (fun _ _ => rfl) _ _ (airwayExample_isFile (level := c!"4294967295")
    (by decide)) (by simp) (by
      intro w hw n hn l hl
      rw [List.mem_singleton.1 hw] at hn
      rcases hn with hn | hn
      · cases hn
        revert hl
        decide +revert
      · cases hn)
  exact ⟨g, h⟩

/-- … and one whose level does not. -/
example : parseAirwayTxt (F := Str) (airwayExample c!"4294967296") = .error .panic :=
  C08_airway_panic (F := Str) id (fun _ _ => rfl) _ _ (airwayExample_isFile (level := c!"4294967296") (by decide))
    fun h => absurd (h (airwayLine c!"4294967296") (by simp) ⟨c!"RODIX", c!"49.5", c!"10.25", c!"4294967296", ['Y']⟩ (Or.inl rfl)
      4294967296 (by decide)) (by decide)

end Examples

end Verif.Props
