import Verif.Proofs.Isec
/-!
# C02, C03, C04: `parse_isec_txt`

`Spec/Isec.lean` says what a waypoint file is, without reference to the grammar.
-/

namespace Verif.Props
open Verif.Parse Verif.Parse.Isec Verif.Spec.Isec
open Verif.AirwayGraph (Fix)

variable {F : Type} [F64 F]

/-- The fix a waypoint line stands for: the first number is the latitude (`y`), the second the
longitude (`x`). -/
def IsFixOf (w : Wpt) (f : Fix (Point F)) : Prop :=
  f.designator = w.designator ∧ F64.ofText w.lat = some f.coordinate.y ∧
    F64.ofText w.lng = some f.coordinate.x

/-- The two lists have the same length and correspond item by item. -/
def Corresponds {A B : Type} (P : A → B → Prop) : List A → List B → Prop
  | [], [] => True
  | a :: as, b :: bs => P a b ∧ Corresponds P as bs
  | _, _ => False

theorem corresponds_of {ws : List Wpt} {fs : List (Fix (Point F))} (h : ws.map fixOf = fs.map some) :
    Corresponds IsFixOf ws fs := by
  induction ws generalizing fs with
  | nil =>
    cases fs with
    | nil => trivial
    | cons f fs => cases h
  | cons w ws ih =>
    cases fs with
    | nil => cases h
    | cons f fs =>
      simp only [List.map_cons, List.cons.injEq] at h
      refine ⟨?_, ih h.2⟩
      have h1 := h.1
      simp only [fixOf, Option.bind_eq_some_iff, Option.map_eq_some_iff] at h1
      obtain ⟨y, hy, x, hx, rfl⟩ := h1
      exact ⟨rfl, hy, hx⟩

/-- **C02.** For every content the parser returns a map or a parse error; it never panics and never
loops.  It returns a map exactly for the files of the specification with at least one waypoint. -/
theorem C02_isec_no_panic (content : Str) :
    ((∃ m : IsecMap F, parseIsecTxt content = .ok m) ∨
      parseIsecTxt (F := F) content = .error .parseError) ∧
    ((∃ m : IsecMap F, parseIsecTxt content = .ok m) ↔ ∃ ws, ws ≠ [] ∧ IsFile content ws) := by
  constructor
  · rcases parse_cases (F := F) content with h | ⟨_, fs, _, _, _, h⟩
    · exact Or.inr h
    · exact Or.inl ⟨_, h⟩
  · constructor
    · rintro ⟨m, hm⟩
      rcases parse_cases (F := F) content with h | ⟨ws, fs, h1, h2, _, h⟩
      · rw [h] at hm; cases hm
      · exact ⟨ws, h1, h2⟩
    · rintro ⟨ws, h1, h2⟩
      obtain ⟨fs, _, h⟩ := parse_complete (F := F) h2 h1
      exact ⟨_, h⟩

omit [F64 F] in
theorem lookup_collect (fs : List (Fix (Point F))) (d : Str) :
    MultiMap.getVec (collect fs) d = fs.filter fun f => f.designator = d := by
  unfold collect
  rw [getVec_collect]
  simp [MultiMap.getVec]

/-- **C04.** For every waypoint file with the waypoint lines `ws`, the parser succeeds, and looking a
designator up returns the fixes of all lines with that designator, in file order, and no others. -/
theorem C04_isec_duplicates (content : Str) (ws : List Wpt) (hf : IsFile content ws) (hne : ws ≠ []) :
    ∃ m : IsecMap F, parseIsecTxt content = .ok m ∧ ∀ d : Str,
      Corresponds IsFixOf (ws.filter fun w => w.designator = d) (MultiMap.getVec m d) := by
  obtain ⟨fs, h1, h2⟩ := parse_complete (F := F) hf hne
  refine ⟨_, h2, fun d => ?_⟩
  rw [lookup_collect]
  have h3 := corresponds_of h1
  clear h1 h2 hf hne
  induction ws generalizing fs with
  | nil =>
    cases fs with
    | nil => trivial
    | cons f fs => exact h3.elim
  | cons w ws ih =>
    cases fs with
    | nil => exact h3.elim
    | cons f fs =>
      have hd : f.designator = w.designator := h3.1.1
      have := ih fs h3.2
      by_cases hw : w.designator = d
      · rw [List.filter_cons_of_pos (by simpa using hw), List.filter_cons_of_pos (by simpa [hd] using hw)]
        exact ⟨h3.1, this⟩
      · rw [List.filter_cons_of_neg (by simpa using hw), List.filter_cons_of_neg (by simpa [hd] using hw)]
        exact this

/-- A coordinate that `{:.6}` prints exactly: its text is a plain decimal numeral that reads back as
the same value. -/
def Prints (show6 : F → Str) (x : F) : Prop := IsCoord (show6 x) ∧ F64.ofText (show6 x) = some x

/-- A fix that can be written to isec.txt without loss. -/
def Printable (show6 : F → Str) (f : Fix (Point F)) : Prop :=
  IsDesignator f.designator ∧ Prints show6 f.coordinate.x ∧ Prints show6 f.coordinate.y

/-- **C03, printed order.** Printing any non-empty list of such fixes, line by line, and parsing the
text gives back, for every designator, exactly the fixes with that designator in the printed order. -/
theorem C03_isec_lines_round_trip (show6 : F → Str) (l : List (Fix (Point F))) (hne : l ≠ [])
    (hl : ∀ f ∈ l, Printable show6 f) :
    ∃ m : IsecMap F, parseIsecTxt (l.flatMap (showLine show6)) = .ok m ∧
      ∀ d : Str, MultiMap.getVec m d = l.filter fun f => f.designator = d := by
  obtain ⟨fs, h1, h2⟩ := parse_complete (F := F) (isFile_lines show6 l fun f hf => ⟨(hl f hf).1, (hl f hf).2.1.1, (hl f hf).2.2.1⟩)
    (by simpa using hne)
  have : fs = l := by
    clear h2 hne
    induction l generalizing fs with
    | nil =>
      cases fs with
      | nil => rfl
      | cons f fs => cases h1
    | cons g l ih =>
      cases fs with
      | nil => cases h1
      | cons f fs =>
        simp only [List.map_cons, List.cons.injEq] at h1
        rw [ih (fun f hf => hl f (List.mem_cons_of_mem _ hf)) fs h1.2]
        have hg := hl g List.mem_cons_self
        have h3 := h1.1
        simp only [fixOf, wptOf, hg.2.1.2, hg.2.2.2, Option.bind_some, Option.map_some,
          Option.some.injEq] at h3
        rw [← h3]
  subst this
  exact ⟨_, h2, lookup_collect fs⟩

/-- **C03.** Printing a waypoint map (`Display for IsecMap`: all fixes sorted by designator) and
parsing the text gives a map with the same lookups.  `m` lists the entries of the hash map in any
order; its keys are distinct and every fix is filed under its own designator (which is so for every
map that `parse_isec_txt` returns, see `isec_map_wellformed`). -/
theorem C03_isec_round_trip (le : Str → Str → Bool) (hle : ∀ a b c, le a b = true → le b c = true → le a c = true)
    (htot : ∀ a b, (le a b || le b a) = true) (show6 : F → Str) (m : IsecMap F)
    (hn : (Map.keys m).Nodup) (hk : ∀ e ∈ m, ∀ f ∈ e.2, f.designator = e.1 ∧ Printable show6 f)
    (hne : ∃ e ∈ m, e.2 ≠ []) :
    ∃ m' : IsecMap F, parseIsecTxt (display le show6 m) = .ok m' ∧
      ∀ d : Str, MultiMap.getVec m' d = MultiMap.getVec m d := by
  have hmem : ∀ f ∈ sortedFixes le m, Printable show6 f := by
    intro f hf
    obtain ⟨e, he, hfe⟩ := mem_sortedFixes hf
    exact (hk e he f hfe).2
  have hne' : sortedFixes le m ≠ [] := by
    obtain ⟨e, he, h⟩ := hne
    exact sortedFixes_ne le he h
  obtain ⟨m', h1, h2⟩ := C03_isec_lines_round_trip show6 (sortedFixes le m) hne' hmem
  refine ⟨m', h1, fun d => ?_⟩
  rw [h2, filter_sortedFixes le hle htot hn (fun e he f hf => (hk e he f hf).1)]

/-- The maps that `parse_isec_txt` returns satisfy the hypotheses of `C03_isec_round_trip` on keys and
designators. -/
theorem isec_map_wellformed (content : Str) (m : IsecMap F) (h : parseIsecTxt content = .ok m) :
    (Map.keys m).Nodup ∧ (∀ e ∈ m, ∀ f ∈ e.2, f.designator = e.1 ∧ IsDesignator f.designator) ∧
      ∃ e ∈ m, e.2 ≠ [] := by
  rcases parse_cases (F := F) content with h' | ⟨ws, fs, h1, h2, h3, h'⟩
  · rw [h'] at h; cases h
  · rw [h'] at h
    cases h
    have hd : ∀ f ∈ fs, IsDesignator f.designator := by
      intro f hf
      have h4 := corresponds_of h3
      have h5 := isFile_designators h2
      clear h1 h2 h3 h'
      induction ws generalizing fs with
      | nil =>
        cases fs with
        | nil => cases hf
        | cons f fs => exact h4.elim
      | cons w ws ih =>
        cases fs with
        | nil => exact h4.elim
        | cons g fs =>
          rcases List.mem_cons.1 hf with rfl | hf
          · rw [h4.1.1]; exact h5 w List.mem_cons_self
          · exact ih fs hf h4.2 fun v hv => h5 v (List.mem_cons_of_mem _ hv)
    have hne : fs ≠ [] := by
      rintro rfl
      simp at h3
      exact h1 h3
    have := collect_wf fs
    refine ⟨this.1, fun e he f hf => ?_, ?_⟩
    · obtain ⟨h4, h5⟩ := this.2 e he f hf
      exact ⟨h4, hd f h5⟩
    · cases fs with
      | nil => exact absurd rfl hne
      | cons f fs =>
        have hl := lookup_collect (f :: fs) f.designator
        have hne2 : MultiMap.getVec (collect (f :: fs)) f.designator ≠ [] := by
          rw [hl]; simp
        unfold MultiMap.getVec at hne2
        cases hg : Map.get? (collect (f :: fs)) f.designator with
        | none => simp [hg] at hne2
        | some v =>
          rw [hg] at hne2
          exact ⟨_, Map.mem_of_get? hg, hne2⟩

/-! ## Concrete cases -/

section Examples

/-- Coordinates kept as their texts. -/
local instance textF64 : F64 Str := ⟨some, fun _ _ => rfl⟩

def isecExample : Str := c!"; fixes" ++ ['\r', '\n', '\n'] ++ c!" ASPAT" ++ ['\t'] ++ c!" 49.196175" ++ ['\t'] ++
  c!"  10.725828" ++ ['\t'] ++ c!"15 // x" ++ ['\n'] ++ c!"A1-4.5-5.25 15" ++ ['\r'] ++ c!"ASPAT 1.0 2.0 15" ++ ['\n']

/-- A file with comments, missing separators, all three line ends and a duplicate designator. -/
example : (parseIsecTxt (F := Str) isecExample).map (fun m => (MultiMap.getVec m c!"ASPAT").map
      fun f => (f.coordinate.y, f.coordinate.x)) =
    .ok [(c!"49.196175", c!"10.725828"), (c!"1.0", c!"2.0")] := by decide +kernel

example : ∃ ws, ws.length = 3 ∧ IsFile isecExample ws := by
  refine ⟨[⟨c!"ASPAT", c!"49.196175", c!"10.725828"⟩, ⟨c!"A1", c!"-4.5", c!"-5.25"⟩,
    ⟨c!"ASPAT", c!"1.0", c!"2.0"⟩], rfl, ?_⟩
  refine .blank c!"; fixes" ['\r', '\n'] _ _ ⟨[], c!"; fixes", rfl, by simp [IsSpaces],
    Or.inr ⟨c!" fixes", Or.inl rfl, by decide⟩⟩ (Or.inr (Or.inl rfl)) ?_
  refine .blank [] ['\n'] _ _ ⟨[], [], rfl, by simp [IsSpaces], Or.inl rfl⟩ (Or.inl rfl) ?_
  refine .line _ (c!" ASPAT" ++ ['\t'] ++ c!" 49.196175" ++ ['\t'] ++ c!"  10.725828" ++ ['\t'] ++ c!"15 // x")
    ['\n'] _ _ ⟨c!" ", ['\t', ' '], ['\t', ' ', ' '], ['\t'], c!" // x", rfl, by decide,
      ⟨[], c!"49", c!"196175", rfl, Or.inl rfl, by decide, by decide⟩,
      ⟨[], c!"10", c!"725828", rfl, Or.inl rfl, by decide, by decide⟩,
      by decide, by decide, by decide, by decide,
      ⟨[' '], c!"// x", rfl, by decide, Or.inr ⟨c!" x", Or.inr rfl, by decide⟩⟩, by decide, by decide, by decide⟩
    (Or.inl rfl) ?_
  refine .line _ c!"A1-4.5-5.25 15" ['\r'] _ _ ⟨[], [], [], [' '], [], rfl, by decide,
      ⟨['-'], c!"4", c!"5", rfl, Or.inr rfl, by decide, by decide⟩,
      ⟨['-'], c!"5", c!"25", rfl, Or.inr rfl, by decide, by decide⟩,
      by decide, by decide, by decide, by decide,
      ⟨[], [], rfl, by decide, Or.inl rfl⟩, by decide, by decide, by decide⟩
    (Or.inr (Or.inr ⟨rfl, by decide⟩)) ?_
  refine .line _ c!"ASPAT 1.0 2.0 15" ['\n'] [] _ ⟨[], [' '], [' '], [' '], [], rfl, by decide,
      ⟨[], c!"1", c!"0", rfl, Or.inl rfl, by decide, by decide⟩,
      ⟨[], c!"2", c!"0", rfl, Or.inl rfl, by decide, by decide⟩,
      by decide, by decide, by decide, by decide,
      ⟨[], [], rfl, by decide, Or.inl rfl⟩, by decide, by decide, by decide⟩
    (Or.inl rfl) ?_
  exact .last [] ⟨[], [], rfl, by simp [IsSpaces], Or.inl rfl⟩

/-- Fixes that satisfy the hypotheses of the round-trip theorems. -/
example : Printable (F := Str) id ⟨c!"ASPAT", ⟨c!"10.725828", c!"-49.196175"⟩⟩ :=
  ⟨by decide, ⟨⟨[], c!"10", c!"725828", rfl, Or.inl rfl, by decide, by decide⟩, rfl⟩,
    ⟨['-'], c!"49", c!"196175", rfl, Or.inr rfl, by decide, by decide⟩, rfl⟩

end Examples

end Verif.Props
