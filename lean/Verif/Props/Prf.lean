import Verif.Proofs.Prf
/-!
# C07: `Prf::parse`

`Spec/Prf.lean` says what a profile is, without reference to the grammar.
-/

namespace Verif.Props
open Verif.Parse.Prf Verif.Spec.Prf

section
variable [UnicodeTables]

/-- **C07, no panic.** For every content the parser returns settings or a parse error; it never panics
and never loops.  It returns settings exactly for the files of the specification with at least one
setting. -/
theorem C07_prf_no_panic (content : Str) :
    ((∃ m, parsePrf content = .ok m) ∨ parsePrf content = .error .parseError) ∧
    ((∃ m, parsePrf content = .ok m) ↔ ∃ ws, ws ≠ [] ∧ IsFile content ws) := by
  constructor
  · rcases parse_cases content with h | ⟨_, _, _, h⟩
    · exact Or.inr h
    · exact Or.inl ⟨_, h⟩
  · constructor
    · rintro ⟨m, hm⟩
      rcases parse_cases content with h | ⟨ws, h1, h2, h⟩
      · rw [h] at hm; cases hm
      · exact ⟨ws, h1, h2⟩
    · rintro ⟨ws, h1, h2⟩
      exact ⟨_, parse_complete h2 h1⟩

omit [UnicodeTables] in
theorem get?_foldl (l : List Setting) (m : Settings) (k : Str × Str) :
    Map.get? (l.foldl (fun (m : Settings) w => Map.insert m (w.category, w.key) w.value) m) k =
      match (l.filter fun w => (w.category, w.key) = k).getLast? with
      | some w => some w.value
      | none => Map.get? m k := by
  induction l generalizing m with
  | nil => rfl
  | cons w l ih =>
    rw [List.foldl_cons, ih, Map.get?_insert]
    by_cases h : (w.category, w.key) = k
    · rw [List.filter_cons_of_pos (by simpa using h), if_pos h, List.getLast?_cons]
      cases (l.filter fun w => decide ((w.category, w.key) = k)).getLast? <;> rfl
    · rw [List.filter_cons_of_neg (by simpa using h), if_neg h]

/-- **C07, last setting wins.** For every profile with the setting lines `ws`, the parser succeeds, and
looking up a category and a key returns the value of the last line with that category and key (none if
there is no such line). -/
theorem C07_prf_last_wins (content : Str) (ws : List Setting) (hf : IsFile content ws) (hne : ws ≠ []) :
    ∃ m, parsePrf content = .ok m ∧ ∀ cat key : Str,
      Map.get? m (cat, key) =
        ((ws.filter fun w => w.category = cat ∧ w.key = key).getLast?).map (·.value) := by
  refine ⟨_, parse_complete hf hne, fun cat key => ?_⟩
  have := get?_foldl ws [] (cat, key)
  unfold Map.ofList
  rw [List.foldl_map, this]
  simp only [Prod.mk.injEq, Map.get?_nil]
  cases (ws.filter fun w => decide (w.category = cat ∧ w.key = key)).getLast? <;> rfl

end

/-! ## Concrete cases -/

section Examples

attribute [local instance] asciiTables

/-- Blank lines, CR LF and LF, a missing separator, a repeated key and no final line end. -/
def prfExample : Str := ['\r', '\n', '\t'] ++ c!"Settings" ++ ['\t'] ++ c!"sector" ++ ['\t'] ++ c!"A.sct" ++ ['\n'] ++
  c!"RecentFiles 1x B c" ++ ['\n', ' ', '\n'] ++ c!"Settings sector /D"

example : IsFile prfExample [⟨c!"Settings", c!"sector", c!"A.sct"⟩,
    ⟨c!"RecentFiles", c!"1x", c!"B c"⟩, ⟨c!"Settings", c!"sector", c!"/D"⟩] := by
  refine .blank ['\r'] _ _ (by decide) ?_
  refine .line _ (['\t'] ++ c!"Settings" ++ ['\t'] ++ c!"sector" ++ ['\t'] ++ c!"A.sct") _ _
    ⟨['\t'], ['\t'], ['\t'], rfl, by decide, by decide, by decide, by decide, by decide, by decide,
      by decide, by decide, by decide, by simp; decide, by simp, by simp⟩ ?_
  refine .line _ c!"RecentFiles 1x B c" _ _
    ⟨[], [' '], [' '], rfl, by decide, by decide, by decide, by decide, by decide, by decide,
      by decide, by decide, by decide, by simp; decide, by simp, by simp⟩ ?_
  refine .blank [' '] _ _ (by decide) ?_
  exact .lastLine _ c!"Settings sector /D"
    ⟨[], [' '], [' '], rfl, by decide, by decide, by decide, by decide, by decide, by decide,
      by decide, by decide, by decide, by simp; decide, by simp, by simp⟩

example : (parsePrf prfExample).map (fun m => Map.get? m (c!"Settings", c!"sector")) =
    .ok (some c!"/D") := by decide +kernel

end Examples

end Verif.Props
