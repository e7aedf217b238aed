import Verif.Proofs.SctDrawings
/-!
# Sections of .sct files
-/

namespace Verif.Proofs.Sct
open Verif.Proofs Verif.Peg Verif.Spec Verif.Spec.Sct Verif.Dms Verif.Parse
open Verif.Spec.Ese (DmsText Fits number)
open Verif.Colours (Colour)
open Verif.Peg.Sct (Rule skip)
open Verif.Parse.Sct (parseColourDefinition storeColour entries parseAirport parseFix parseNavaid parseNdb parseVor parseRunway parseDrawing parseAirway
  parseRegion parseLabel)

set_option linter.unusedSectionVars false

/-! ## The values -/

/-- Store the colours. -/
def addColours (cs : Map Str Colour) (ds : List ColourDef) : Map Str Colour :=
  ds.foldl (fun m d => match d.colour with | some c => m.insert d.name c | none => m) cs

theorem addColours_append (cs : Map Str Colour) (a b : List ColourDef) : addColours cs (a ++ b) = addColours (addColours cs a) b :=
  List.foldl_append

theorem gated_map {A B : Type} {p : Prop} [Decidable p] {v : A} (f : A → B) : f <$> gated p v = gated p (f v) := by
  unfold gated
  by_cases h : p
  · rw [if_pos h, if_pos h]; rfl
  · rw [if_neg h, if_neg h]; rfl

/-- A token of a section, read. -/
def readItem {A : Type} (f : Tree Rule → Run (Option A)) (t : Tree Rule) : Run (Option (Str × Colour)) ⊕ Run (Option A) :=
  if t.asRule = .colour_definition then .inl (parseColourDefinition t) else .inr (f t)

def foldItems {A : Type} : Map Str Colour → List (Run (Option (Str × Colour)) ⊕ Run (Option A)) → Run (List A × Map Str Colour)
  | cs, [] => .ok ([], cs)
  | cs, .inl d :: l => d.bind fun d => foldItems (match d with | some (n, c) => cs.insert n c | none => cs) l
  | cs, .inr a :: l => a.bind fun a => (foldItems cs l).bind fun p => .ok (a.toList ++ p.1, p.2)

theorem entries_eq {A : Type} (f : Tree Rule → Run (Option A)) : ∀ (ts : List (Tree Rule)) (cs : Map Str Colour),
    entries f cs ts = foldItems cs (ts.map (readItem f))
  | [], _ => rfl
  | t :: ts, cs => by
    rw [List.map_cons]
    unfold entries
    by_cases h : t.asRule = .colour_definition
    · rw [if_pos h]
      have : readItem f t = .inl (parseColourDefinition t) := if_pos h
      rw [this]
      show (storeColour cs t).bind _ = (parseColourDefinition t).bind _
      unfold storeColour
      show ((parseColourDefinition t).bind _).bind _ = _
      cases parseColourDefinition t with
      | error e => rfl
      | ok d =>
        cases d with
        | none => exact entries_eq f ts cs
        | some p => exact entries_eq f ts _
    · rw [if_neg h]
      have : readItem f t = .inr (f t) := if_neg h
      rw [this]
      show (f t).bind _ = (f t).bind _
      cases f t with
      | error e => rfl
      | ok a =>
        show (entries f cs ts).bind _ = _
        rw [entries_eq f ts cs]
        rfl

section
variable {A V : Type} (fits : A → Prop) [DecidablePred fits] (value : A → V)

/-- What a line should be read as. -/
def itemOf : Line A → Run (Option (Str × Colour)) ⊕ Run (Option V)
  | .entry _ a => .inr (gated (fits a) (some (value a)))
  | .colour _ d _ => .inl (gated d.Fits (d.colour.map fun c => (d.name, c)))
  | .broken .. => .inr (.ok none)

theorem foldItems_lines : ∀ (l : List (Line A)) (cs : Map Str Colour), foldItems cs (l.map (itemOf fits value)) =
    gated (∀ x ∈ l, x.Fits fits) ((l.filterMap Line.entry?).map value, addColours cs (l.filterMap Line.colour?))
  | [], cs => (gated_true (by simp)).symm
  | .entry b a :: l, cs => by
    show (gated (fits a) (some (value a))).bind _ = _
    refine (gated_bind (q := ∀ x ∈ l, x.Fits fits) (w := (value a :: (l.filterMap Line.entry?).map value, addColours cs (l.filterMap Line.colour?))) ?_).trans
      (gated_congr (by simp [Line.Fits]) rfl)
    rw [foldItems_lines l cs]
    exact gated_ok rfl
  | .colour b d t :: l, cs => by
    show (gated d.Fits (d.colour.map fun c => (d.name, c))).bind _ = _
    refine (gated_bind (q := ∀ x ∈ l, x.Fits fits) (w := ((l.filterMap Line.entry?).map value, addColours cs (d :: l.filterMap Line.colour?))) ?_).trans
      (gated_congr (by simp [Line.Fits]) rfl)
    unfold addColours
    rw [List.foldl_cons]
    cases d.colour with
    | none => exact foldItems_lines l cs
    | some c => exact foldItems_lines l _
  | .broken b s :: l, cs => by
    show (foldItems cs (l.map (itemOf fits value))).bind _ = _
    rw [foldItems_lines l cs]
    refine (gated_ok (w := ((l.filterMap Line.entry?).map value, addColours cs (l.filterMap Line.colour?))) rfl).trans (gated_congr (by simp [Line.Fits]) rfl)
end

/-! ## Headers -/

/-- The end of the file or the header of a section. -/
def HeaderAt (t : Str) : Prop := t = [] ∨ ∃ s : Sect, ∃ tl u, t = s.header ++ (tl ++ u) ∧ IsHeaderTail tl ∧ AtLineEnd u

theorem header_bracket (s : Sect) : ∃ t, s.header = '[' :: t := by
  cases s with
  | drawings k b => cases k <;> exact ⟨_, rfl⟩
  | regions c b => cases c <;> exact ⟨_, rfl⟩
  | _ => exact ⟨_, rfl⟩

theorem headerAt_bracket {t : Str} (h : HeaderAt t) : t = [] ∨ ∃ u, t = '[' :: u := by
  rcases h with rfl | ⟨s, tl, u, rfl, _⟩
  · exact Or.inl rfl
  · obtain ⟨t, e⟩ := header_bracket s
    exact Or.inr ⟨t ++ (tl ++ u), by rw [e]; rfl⟩

theorem headerAt_start {t : Str} (h : HeaderAt t) : Start t := by
  rcases headerAt_bracket h with rfl | ⟨u, rfl⟩
  · exact start_nil
  · exact start_cons (by decide)

theorem headerAt_head {p : Char → Bool} {t : Str} (h : HeaderAt t) (hp : p '[' = false) : HeadNot p t := by
  rcases headerAt_bracket h with rfl | ⟨u, rfl⟩
  · exact headNot_nil _
  · exact headNot_cons.2 hp

/-! ## Lists of lines -/

theorem reps_append {A : Type} {txt : A → Str} {P : A → Str → Prop} : ∀ {a b : List A} {r : Str}, Reps txt P a (b.flatMap txt ++ r) → Reps txt P b r →
    Reps txt P (a ++ b) r
  | [], _, _, _, h => h
  | _ :: a, b, _, h1, h2 => ⟨by show P _ ((a ++ b).flatMap txt ++ _); rw [List.flatMap_append, List.append_assoc]; exact h1.1, reps_append h1.2 h2⟩

/-- The lines of a section. -/
structure Lists {A V : Type} (e : Expr Rule) (f : Tree Rule → Run (Option V)) (txt : A → Str) (valid : A → Prop) (fits : A → Prop) [DecidablePred fits]
    (value : A → V) (broken : Str → Prop) (needs : A → Prop) (Q : Str → Prop) : Prop where
  isPlain : plain e = true
  entry : ∀ a r, valid a → Next Q r → (needs a → r ≠ []) →
    ∃ tr, P e (txt a) r [tr] ∧ tr.asRule ≠ .colour_definition ∧ f tr = gated (fits a) (some (value a))
  first : ∀ a, valid a → ∃ c u, txt a = c :: u ∧ isNewlineChar c = false ∧ c ≠ '#'
  after : ∀ a r, valid a → Next Q r → Q (txt a ++ r)
  ignored : ∀ s r, broken s → AtLineEnd r → ∃ tr, P e s r [tr] ∧ tr.asRule ≠ .colour_definition ∧ f tr = .ok none
  brokenFirst : ∀ s, broken s → ∃ c u, s = c :: u ∧ isNewlineChar c = false ∧ c ≠ '#'
  brokenAfter : ∀ s r, broken s → AtLineEnd r → Q (s ++ r)
  colour : ∀ t, Q ('#' :: t)
  header : ∀ t, HeaderAt t → Q t
  stop : ∀ t, HeaderAt t → t ≠ [] → Fails skip e .nonAtomic t
  nil : Fails skip e .nonAtomic [] ∨ ∃ tr, Blk skip K e [] [] [tr] ∧ tr.asRule ≠ .colour_definition ∧ f tr = .ok none

abbrev lineExpr (e : Expr Rule) : Expr Rule := Base.NL ⬝ (Peg.Sct.colour_definition ∥ e)

theorem colour_first (d : ColourDef) : ∃ u, d.text = '#' :: u := ⟨_, rfl⟩

section
variable {A V : Type} {e : Expr Rule} {f : Tree Rule → Run (Option V)} {txt : A → Str} {valid : A → Prop} {fits : A → Prop} [DecidablePred fits]
    {value : A → V} {broken : Str → Prop} {needs : A → Prop} {Q : Str → Prop}

theorem line_break {l : Line A} (h : l.Valid valid broken) : ∃ brk t, Line.text txt l = brk ++ t ∧ IsBreak brk := by
  cases l with
  | entry b a => exact ⟨b, _, rfl, h.1⟩
  | colour b d t => exact ⟨b, _, rfl, h.1⟩
  | broken b s => exact ⟨b, _, rfl, h.1⟩

theorem Lists.line (L : Lists e f txt valid fits value broken needs Q) {l : Line A} {r : Str} (h : l.Valid valid broken) (hr : Next Q r)
    (hn : ∀ b a, l = .entry b a → needs a → r ≠ []) :
    (∃ t, Blk skip K (lineExpr e) (Line.text txt l) r [t] ∧ readItem f t = itemOf fits value l) ∧ Next Q (Line.text txt l ++ r) := by
  have other : ∀ {v : Str} {brk : Str}, IsBreak brk → (∃ c u, v = c :: u ∧ isNewlineChar c = false ∧ c ≠ '#') → (K [] (v ++ r)) → Q (v ++ r) →
      (∃ tr, P e v r [tr] ∧ tr.asRule ≠ .colour_definition ∧ readItem f tr = itemOf fits value l) → Line.text txt l = brk ++ v →
      (∃ t, Blk skip K (lineExpr e) (Line.text txt l) r [t] ∧ readItem f t = itemOf fits value l) ∧ Next Q (Line.text txt l ++ r) := by
    rintro v brk hb ⟨c, u, rfl, hc, hx⟩ hk hq ⟨tr, h1, _, h2⟩ et
    have hst : Start (c :: u ++ r) := start_of_k hk ⟨c, u, rfl, hc⟩
    refine ⟨⟨tr, ?_, h2⟩, Or.inr ⟨brk, c :: u ++ r, by rw [et, List.append_assoc], hb, hst, hq⟩⟩
    rw [et]
    exact blk_nlThen hb hst (blk_alt_right (fails_colourDef (headNot_cons.2 (by simpa using hx))) h1.1)
  cases l with
  | entry brk a =>
    obtain ⟨tr, h1, h2, h3⟩ := L.entry a r h.2 hr (hn brk a rfl)
    refine other h.1 (L.first a h.2) h1.2 (L.after a r h.2 hr) ⟨tr, h1, h2, ?_⟩ rfl
    unfold readItem
    rw [if_neg h2, h3]
    rfl
  | broken brk s =>
    obtain ⟨tr, h1, h2, h3⟩ := L.ignored s r h.2 hr.lineEnd
    refine other h.1 (L.brokenFirst s h.2) h1.2 (L.brokenAfter s r h.2 hr.lineEnd) ⟨tr, h1, h2, ?_⟩ rfl
    unfold readItem
    rw [if_neg h2, h3]
    rfl
  | colour brk d tl =>
    obtain ⟨h1, h2, h3⟩ := h
    obtain ⟨tr, p1, p2, p3⟩ := entry_colour h2 h3 hr.lineEnd
    obtain ⟨u, eu⟩ := colour_first d
    have hst : Start (d.text ++ tl ++ r) := start_of_k p1.2 ⟨'#', u ++ tl, by rw [eu]; rfl, by decide⟩
    refine ⟨⟨tr, ?_, ?_⟩, Or.inr ⟨brk, d.text ++ tl ++ r, by simp [Line.text], h1, hst, ?_⟩⟩
    · show Blk skip K (lineExpr e) (brk ++ (d.text ++ tl)) r [tr]
      exact blk_nlThen h1 hst (blk_alt_left p1.1)
    · unfold readItem
      rw [if_pos p2, p3]
      rfl
    · rw [eu]
      exact L.colour _

theorem Lists.lines (L : Lists e f txt valid fits value broken needs Q) {r : Str} (hr : Next Q r) : ∀ {l : List (Line A)},
    (∀ x ∈ l, x.Valid valid broken) → (∀ b a, l.getLast? = some (.entry b a) → needs a → r ≠ []) →
    Reps (Line.text txt) (fun l r => ∃ t, Blk skip K (lineExpr e) (Line.text txt l) r [t] ∧ readItem f t = itemOf fits value l) l r ∧
      Next Q (l.flatMap (Line.text txt) ++ r)
  | [], _, _ => ⟨trivial, hr⟩
  | x :: l, h, hn => by
    have ih := L.lines hr (l := l) (fun y hy => h y (List.mem_cons_of_mem _ hy)) fun b a ha => by
      cases l with
      | nil => cases ha
      | cons y l => exact hn b a (by rw [List.getLast?_cons_cons]; exact ha)
    have := L.line (h x List.mem_cons_self) ih.2 fun b a e hx => by
      cases l with
      | nil => exact hn b a (by rw [e]; rfl) hx
      | cons y l =>
        obtain ⟨brk, t, e1, hb⟩ := line_break (txt := txt) (h y (by simp))
        simp [e1, break_ne hb]
    refine ⟨⟨this.1, ih.1⟩, ?_⟩
    rw [List.flatMap_cons, List.append_assoc]
    exact this.2

/-- Another section follows. -/
def More (r : Str) : Prop := ∃ brk t, r = brk ++ t ∧ IsBreak brk ∧ Start t ∧ HeaderAt t ∧ t ≠ []

/-- The lines up to the next section.  The line ends at the end of the file may be taken for a line that is not understood. -/
theorem Lists.block (L : Lists e f txt valid fits value broken needs Q) {l : List (Line A)} {r : Str} (h : ∀ x ∈ l, x.Valid valid broken)
    (hr : Next HeaderAt r) (hn : ∀ b a, l.getLast? = some (.entry b a) → needs a → r ≠ []) :
    ∃ r1 r2 ts, r = r1 ++ r2 ∧ (r1 = [] ∨ (r2 = [] ∧ ¬ More r)) ∧ Blk skip K (.star (lineExpr e)) (l.flatMap (Line.text txt) ++ r1) r2 ts ∧
      AtLineEnd (l.flatMap (Line.text txt) ++ r) ∧
      ∀ cs, entries f cs ts = gated (∀ x ∈ l, x.Fits fits) ((l.filterMap Line.entry?).map value, addColours cs (l.filterMap Line.colour?)) := by
  obtain ⟨hre, hnx⟩ := L.lines (hr.mono L.header) h hn
  have hpl' : plain (Peg.Sct.colour_definition ∥ e) = true := by show (_ && plain e) = true; rw [L.isPlain]; rfl
  have hpl : Uniform (eval skip (lineExpr e) .nonAtomic) := hu _ _ (by show (_ && plain (Peg.Sct.colour_definition ∥ e)) = true; rw [hpl']; rfl)
  have usual : Fails skip (lineExpr e) .nonAtomic r →
      ∃ r1 r2 ts, r = r1 ++ r2 ∧ (r1 = [] ∨ (r2 = [] ∧ ¬ More r)) ∧ Blk skip K (.star (lineExpr e)) (l.flatMap (Line.text txt) ++ r1) r2 ts ∧
      AtLineEnd (l.flatMap (Line.text txt) ++ r) ∧
      ∀ cs, entries f cs ts = gated (∀ x ∈ l, x.Fits fits) ((l.filterMap Line.entry?).map value, addColours cs (l.filterMap Line.colour?)) := by
    intro hfs
    obtain ⟨ts, b1, e1⟩ := blk_star_read lineSkip.exact hpl hre hfs (k_end hr.lineEnd)
    refine ⟨[], r, ts, rfl, Or.inl rfl, by rw [List.append_nil]; exact b1, hnx.lineEnd, fun cs => ?_⟩
    rw [entries_eq, e1, foldItems_lines]
  have at_header : ∀ brk t, IsBreak brk → Start t → HeaderAt t → Fails skip e .nonAtomic t → Fails skip (lineExpr e) .nonAtomic (brk ++ t) :=
    fun brk t hb hs ht hf => fails_seq_right lineSkip.uniform lineSkip.exact (by rfl) (by rfl) (hu _ _ hpl') (blk_brk hb hs)
      ((fails_alt_iff (hu _ _ rfl)).2 ⟨fails_colourDef (headerAt_head ht (by decide)), hf⟩)
  by_cases hmore : More r
  · obtain ⟨brk, t, rfl, hb, hs, ht, hne⟩ := hmore
    exact usual (at_header brk t hb hs ht (L.stop t ht hne))
  · rcases hr with rfl | ⟨brk, t, rfl, hb, hs, ht⟩
    · exact usual (fails_seq_left fails_NL_nil)
    · by_cases hne : t = []
      · subst hne
        rcases L.nil with hf | ⟨tr, h1, h2, h3⟩
        · exact usual (at_header brk [] hb hs ht hf)
        · -- an empty last line
          rw [List.append_nil] at hmore hre hnx hn ⊢
          have hend : Blk skip K (lineExpr e) brk [] [tr] := by
            have := blk_nlThen (t := []) (r := []) hb start_nil (blk_alt_right (x := Peg.Sct.colour_definition) (t := [])
              (fails_colourDef (headNot_nil _)) h1)
            simpa using this
          have et : [Line.broken brk []].flatMap (Line.text txt) ++ [] = brk := by simp [Line.text]
          have hre' : Reps (Line.text txt) (fun l r => ∃ t, Blk skip K (lineExpr e) (Line.text txt l) r [t] ∧ readItem f t = itemOf fits value l)
              (l ++ [Line.broken brk []]) [] := by
            refine reps_append (by rw [et]; exact hre) ⟨⟨tr, ?_, by unfold readItem; rw [if_neg h2, h3]; rfl⟩, trivial⟩
            show Blk skip K (lineExpr e) (brk ++ []) [] [tr]
            rw [List.append_nil]
            exact hend
          obtain ⟨ts, b1, e1⟩ := blk_star_read lineSkip.exact hpl hre' (fails_seq_left fails_NL_nil) (k_plain plain_nil)
          refine ⟨brk, [], ts, by simp, Or.inr ⟨rfl, hmore⟩, by simpa [Line.text] using b1, hnx.lineEnd, fun cs => ?_⟩
          rw [entries_eq, e1, foldItems_lines]
          refine gated_congr ⟨fun h x hx => h x (List.mem_append_left _ hx), fun h x hx => ?_⟩ ?_
          · rcases List.mem_append.1 hx with hx | hx
            · exact h x hx
            · rw [List.mem_singleton.1 hx]
              trivial
          · rw [List.filterMap_append, List.filterMap_append]
            have e1 : [Line.broken brk []].filterMap (Line.entry? (A := A)) = [] := rfl
            have e2 : [Line.broken brk []].filterMap (Line.colour? (A := A)) = [] := rfl
            rw [e1, e2, List.append_nil, List.append_nil]
      · exact absurd ⟨brk, t, rfl, hb, hs, ht, hne⟩ hmore

end

/-! ## Fixes and airways at headers -/

section
variable [UnicodeTables]

/-- The header of a section up to a blank, if there is one. -/
def headerParts : Sect → Str × Str
  | .drawings .artccHigh _ => (c!"[ARTCC", c!"HIGH]")
  | .drawings .artccLow _ => (c!"[ARTCC", c!"LOW]")
  | .highAirways _ => (c!"[HIGH", c!"AIRWAY]")
  | .lowAirways _ => (c!"[LOW", c!"AIRWAY]")
  | s => (s.header, [])

theorem ascii_fix {s : Str} (h : s.all (fun c => decide (c.toNat < 128) && (isAsciiUpper c || (isAsciiLower c || (c == '[' || c == ']')))) = true) :
    ∀ c ∈ s, isFixChar c = true := by
  intro c hc
  have := List.all_eq_true.1 h c hc
  simp only [Bool.and_eq_true, Bool.or_eq_true, beq_iff_eq, decide_eq_true_eq] at this
  obtain ⟨h1, h2⟩ := this
  have hl := UnicodeTables.letter_ascii c h1
  unfold isFixChar
  rcases h2 with h | h | rfl | rfl
  · rw [hl, h]; rfl
  · rw [hl, h]; simp
  · simp
  · simp

theorem header_parts (s : Sect) : s.header = (headerParts s).1 ++ (if (headerParts s).2 = [] then [] else ' ' :: (headerParts s).2) := by
  cases s with
  | drawings k b => cases k <;> rfl
  | regions c b => cases c <;> rfl
  | _ => rfl

theorem header_first (s : Sect) : (headerParts s).1.all (fun c => decide (c.toNat < 128) && (isAsciiUpper c || (isAsciiLower c || (c == '[' || c == ']')))) = true ∧
    ∃ t, (headerParts s).1 = '[' :: t := by
  cases s with
  | drawings k b => cases k <;> exact ⟨by rfl, _, rfl⟩
  | regions c b => cases c <;> exact ⟨by rfl, _, rfl⟩
  | _ => exact ⟨by rfl, _, rfl⟩

theorem header_second (s : Sect) : (headerParts s).2 = [] ∨ ∃ w, (headerParts s).2 = w ++ c!"]" ∧ IsDesignator w ∧
    w.head? ∈ [some 'H', some 'L', some 'A'] := by
  cases s with
  | drawings k b =>
    cases k with
    | artccHigh => exact Or.inr ⟨c!"HIGH", rfl, des_iff.2 (by decide), by decide⟩
    | artccLow => exact Or.inr ⟨c!"LOW", rfl, des_iff.2 (by decide), by decide⟩
    | _ => exact Or.inl rfl
  | highAirways b => exact Or.inr ⟨c!"AIRWAY", rfl, des_iff.2 (by decide), by decide⟩
  | lowAirways b => exact Or.inr ⟨c!"AIRWAY", rfl, des_iff.2 (by decide), by decide⟩
  | regions c b => cases c <;> exact Or.inl rfl
  | _ => exact Or.inl rfl

theorem fixEnd_tail {tl u : Str} (h : IsHeaderTail tl) (hu : AtLineEnd u) : FixEnd (tl ++ u) := by
  obtain ⟨⟨sp, cm, rfl, h1, h2⟩, h3, h4⟩ := h
  cases sp with
  | cons c sp =>
    refine headNot_cons.2 (fixChar_not ?_)
    rcases h1 c List.mem_cons_self with (rfl | rfl) | rfl
    · simp
    · simp
    · exact absurd rfl h4
  | nil =>
    rcases h2 with rfl | ⟨w, hw, body, rfl, _⟩
    · cases u with
      | nil => exact headNot_nil _
      | cons c u =>
        refine headNot_cons.2 (fixChar_not ?_)
        rcases newline_iff.1 (by simpa using headNot_cons.1 hu) with rfl | rfl <;> simp
    · simp only [Spec.Sct.marks, List.mem_cons, List.not_mem_nil, or_false] at hw
      rcases hw with rfl | rfl
      · exact headNot_cons.2 (fixChar_not (by simp))
      · exact absurd rfl h3

/-- The name of a fix takes the header, or its first word. -/
theorem fails_desHeader {y : Expr Rule} {t : Str} (hp : plain y = true) (h : HeaderAt t) (hend : ∀ u, AtLineEnd u → Fails skip y .nonAtomic u)
    (hword : ∀ w u, IsDesignator w → w.head? ∈ [some 'H', some 'L', some 'A'] → Fails skip y .nonAtomic (w ++ ']' :: u)) :
    Fails skip (Peg.Sct.fix_designator ⬝ y) .nonAtomic t := by
  rcases h with rfl | ⟨s, tl, u, rfl, ht, hu'⟩
  · refine fails_seq_left (fails_rule (fails_plus ?_))
    exact ((like_fix .atomic).fails _).2 (headNot_nil _)
  · obtain ⟨h1, v, hv⟩ := header_first s
    have o : ∀ r, FixEnd r → Out skip K Peg.Sct.fix_designator .nonAtomic (headerParts s).1 r [.node .fix_designator (headerParts s).1 []] := fun r hr =>
      out_rule_atomic (((like_fix .atomic).plus (by decide)).2 ⟨by rw [hv]; simp, ascii_fix h1, hr, rfl⟩)
    rw [header_parts s]
    rcases header_second s with e | ⟨w, e, hw, hw'⟩
    · rw [if_pos e, List.append_nil, ← List.append_assoc]
      exact fails_seq_right lineSkip.uniform lineSkip.exact (by rfl) (by rfl) (hu _ _ hp) (blk_gap (o _ (fixEnd_tail ht hu')) (k_tail ht.1 hu')) (hend u hu')
    · rw [if_neg (by rw [e]; simp), e]
      have e2 : (headerParts s).1 ++ ' ' :: (w ++ c!"]") ++ (tl ++ u) = ((headerParts s).1 ++ c!" ") ++ (w ++ ']' :: (tl ++ u)) := by simp
      rw [e2]
      refine fails_seq_right lineSkip.uniform lineSkip.exact (by rfl) (by rfl) (hu _ _ hp)
        (blk_gap (o _ (headNot_cons.2 (fixChar_not (by simp)))) (k_gap (by decide) (k_des hw))) (hword w _ hw hw')

theorem fails_airwayFix {t : Str} (h : ∀ v g r, IsDesignator v → IsGap g → t ≠ v ++ (g ++ r)) : Fails skip Peg.Sct.airway_fix .nonAtomic t := by
  refine fails_of_not_out lineSkip.ok (by rfl) ?_
  rintro s r ts rfl ho
  obtain ⟨v, g, hv, hg, rfl⟩ := out_fix ho
  exact h v g (v ++ r) hv hg (by simp)

theorem lineEnd_head {c : Char} {u : Str} (h : AtLineEnd (c :: u)) : isNewlineChar c = true := by simpa using headNot_cons.1 h

theorem fails_coordEnd {u : Str} (h : AtLineEnd u) : Fails skip Peg.Sct.sct_coordinate .nonAtomic u := by
  refine fails_coord fun c hc => ?_
  cases u with
  | nil => cases hc
  | cons d u =>
    cases hc
    rcases newline_iff.1 (lineEnd_head h) with rfl | rfl <;> decide

theorem fails_coordWord {w u : Str} (hw : w.head? ∈ [some 'H', some 'L', some 'A']) : Fails skip Peg.Sct.sct_coordinate .nonAtomic (w ++ u) := by
  refine fails_coord ?_
  cases w with
  | nil => simp at hw
  | cons c w =>
    refine headNot_cons.2 ?_
    simp only [List.head?_cons, List.mem_cons, Option.some.injEq, List.not_mem_nil, or_false] at hw
    rcases hw with rfl | rfl | rfl <;> decide

theorem fails_fixHeader {t : Str} (h : HeaderAt t) : Fails skip Peg.Sct.fix .nonAtomic t :=
  fails_rule (fails_desHeader (by rfl) h (fun _ hu => fails_coordEnd hu) fun _ _ _ hw => fails_coordWord hw)

theorem fails_airwayHeader {t : Str} (h : HeaderAt t) : Fails skip Peg.Sct.airway .nonAtomic t := by
  refine fails_rule (fails_desHeader (by rfl) h (fun u hu' => ?_) fun w u hw hw' => ?_)
  · refine fails_seq_left ((fails_alt_iff (hu _ _ rfl)).2 ⟨fails_coordEnd hu', fails_airwayFix fun v g r hv _ e => ?_⟩)
    obtain ⟨c, t, rfl, hc⟩ := des_head hv
    subst e
    have := lineEnd_head hu'
    rw [(head_parts (head_of (by decide) hc)).2.1] at this
    cases this
  · refine fails_seq_left ((fails_alt_iff (hu _ _ rfl)).2 ⟨fails_coordWord hw', fails_airwayFix fun v g r hv hg e => ?_⟩)
    cases g with
    | nil => exact hg.1 rfl
    | cons c g =>
      have hb := blank_iff'.2 (hg.2 c List.mem_cons_self)
      have hd : isDesChar c = false := by
        cases hx : isDesChar c with
        | false => rfl
        | true =>
          rw [(head_parts (head_of (by decide) hx)).1] at hb
          cases hb
      have := (first_outside (p := isDesChar) (des_iff.1 hw).2 (des_iff.1 hv).2 (by decide) hd e).2
      rw [← this.1] at hb
      exact absurd hb (by decide)

end

/-! ## The kinds of sections -/

section
variable {A V : Type} {e : Expr Rule} {f : Tree Rule → Run (Option V)} {txt : A → Str} {valid : A → Prop} {fits : A → Prop} [DecidablePred fits]
    {value : A → V}

/-- Sections of entries of one line. -/
theorem simpleLists (hp : plain e = true)
    (entry : ∀ a r, valid a → AtLineEnd r → ∃ tr, P e (txt a) r [tr] ∧ tr.asRule ≠ .colour_definition ∧ f tr = gated (fits a) (some (value a)))
    (first : ∀ a, valid a → ∃ c u, txt a = c :: u ∧ isNewlineChar c = false ∧ c ≠ '#') (stop : ∀ t, HeaderAt t → Fails skip e .nonAtomic t) :
    Lists e f txt valid fits value Never (fun _ => False) (fun _ => True) where
  isPlain := hp
  entry a r ha hr _ := entry a r ha hr.lineEnd
  first := first
  after _ _ _ _ := trivial
  ignored _ _ h := h.elim
  brokenFirst _ h := h.elim
  brokenAfter _ _ h := h.elim
  colour _ := trivial
  header _ _ := trivial
  stop t ht _ := stop t ht
  nil := Or.inl (stop [] (Or.inl rfl))

/-- Sections of entries of one line in which other lines are ignored. -/
theorem brokenLists {starts : Str → Prop} (hp : plain e = true)
    (entry : ∀ a r, valid a → AtLineEnd r → ∃ tr, P e (txt a) r [tr] ∧ tr.asRule ≠ .colour_definition ∧ f tr = gated (fits a) (some (value a)))
    (first : ∀ a, valid a → ∃ c u, txt a = c :: u ∧ isNewlineChar c = false ∧ c ≠ '#') (stop : ∀ t, HeaderAt t → Fails skip e .nonAtomic t)
    (hf : ∀ v, f (.node .broken v []) = .ok none) (hs : ∀ s r, ¬ starts s → AtLineEnd r → Fails skip e .nonAtomic (s ++ r)) :
    Lists (e ∥ Peg.Sct.broken) f txt valid fits value (IsBroken starts) (fun _ => False) (fun _ => True) where
  isPlain := by show (plain e && _) = true; rw [hp]; rfl
  entry a r ha hr _ := by
    obtain ⟨tr, h1, h2, h3⟩ := entry a r ha hr.lineEnd
    exact ⟨tr, pb_alt_left h1, h2, h3⟩
  first := first
  after _ _ _ _ := trivial
  ignored s r h hr := by
    obtain ⟨v, hv⟩ := pb_broken h hr
    exact ⟨_, pb_alt_right (hs s r h.noEntry hr) hv, fun h => Rule.noConfusion h, hf v⟩
  brokenFirst s h := by
    cases s with
    | nil => exact absurd rfl h.head.1
    | cons c u => exact ⟨c, u, rfl, not_newline_iff.2 (h.line c List.mem_cons_self), fun e => h.head.2.2 (by rw [e]; rfl)⟩
  brokenAfter _ _ _ _ := trivial
  colour _ := trivial
  header _ _ := trivial
  stop t ht hne := by
    refine (fails_alt_iff (hu _ _ hp)).2 ⟨stop t ht, ?_⟩
    rcases headerAt_bracket ht with rfl | ⟨u, rfl⟩
    · exact absurd rfl hne
    · exact fails_broken
  nil := Or.inr ⟨_, blk_alt_right (t := []) (stop [] (Or.inl rfl)) blk_broken_nil, by decide, hf []⟩

end

theorem upper_first {v r : Str} (h : IsDesignator v) : ∃ c u, v ++ r = c :: u ∧ isNewlineChar c = false ∧ c ≠ '#' := by
  obtain ⟨c, t, rfl, hc⟩ := des_head h
  refine ⟨c, t ++ r, rfl, (head_parts (head_of (by decide) hc)).2.1, ?_⟩
  rintro rfl
  exact absurd hc (by decide)

theorem fix_first [UnicodeTables] {v r : Str} (h : IsFixName v) : ∃ c u, v ++ r = c :: u ∧ isNewlineChar c = false ∧ c ≠ '#' := by
  have hn := noNl_fixName h
  cases v with
  | nil => exact absurd rfl h.1
  | cons c t =>
    refine ⟨c, t ++ r, rfl, hn c List.mem_cons_self, ?_⟩
    rintro rfl
    have := (fixName_iff.1 h).2 '#' List.mem_cons_self
    rw [fixChar_not (by simp)] at this
    cases this

section
variable {F : Type} [F64 F] [DmsArith F] (num : Str → F) (hnum : ∀ s, IsDecimal s → F64.ofText s = some (num s))
include hnum

theorem lists_vor : Lists Peg.Sct.location (fun t => some <$> parseVor (F := F) t) (Tailed.text NavaidText.text) (Tailed.Valid NavaidText.Valid)
    (·.body.coord.Fits) (fun a => a.body.value num) Never (fun _ => False) (fun _ => True) := by
  refine simpleLists (by rfl) (fun a r ha hr => ?_) (fun a ha => ?_) fun t ht => ?_
  · obtain ⟨tr, h1, h2, h3⟩ := entry_navaid num hnum ha.1 ha.2 hr
    exact ⟨tr, h1, by rw [h2]; decide, (congrArg _ h3).trans (gated_map some)⟩
  · show ∃ c u, (a.body.designator ++ _) ++ a.tail = _ ∧ _
    rw [List.append_assoc]
    exact upper_first ha.1.1
  · exact fails_rule (fails_seq_left (fails_des (headerAt_head ht (by decide))))

theorem lists_ndb : Lists (Peg.Sct.location ∥ Peg.Sct.broken) (parseNdb (F := F)) (Tailed.text NavaidText.text) (Tailed.Valid NavaidText.Valid)
    (·.body.coord.Fits) (fun a => a.body.value num) (IsBroken StartsNavaid) (fun _ => False) (fun _ => True) := by
  refine brokenLists (by rfl) (fun a r ha hr => ?_) (fun a ha => ?_) (fun t ht => ?_) (fun v => rfl) fun s r hs hr => ?_
  · obtain ⟨tr, h1, h2, h3⟩ := entry_navaid num hnum ha.1 ha.2 hr
    refine ⟨tr, h1, by rw [h2]; decide, ?_⟩
    unfold parseNdb
    rw [h2]
    exact (congrArg _ h3).trans (gated_map some)
  · show ∃ c u, (a.body.designator ++ _) ++ a.tail = _ ∧ _
    rw [List.append_assoc]
    exact upper_first ha.1.1
  · exact fails_rule (fails_seq_left (fails_des (headerAt_head ht (by decide))))
  · exact fails_location fun h => hs (startsNavaid_cut hr h)

theorem lists_fixes [UnicodeTables] : Lists (Peg.Sct.fix ∥ Peg.Sct.broken) (parseFix (F := F)) (Tailed.text FixText.text) (Tailed.Valid FixText.Valid)
    (·.body.coord.Fits) (fun a => a.body.value num) (IsBroken StartsFix) (fun _ => False) (fun _ => True) := by
  refine brokenLists (by rfl) (fun a r ha hr => ?_) (fun a ha => ?_) (fun t ht => fails_fixHeader ht) (fun v => rfl) fun s r hs hr => ?_
  · obtain ⟨tr, h1, h2, h3⟩ := entry_fix num hnum ha.1 ha.2 hr
    exact ⟨tr, h1, by rw [h2]; decide, h3⟩
  · show ∃ c u, (a.body.designator ++ _) ++ a.tail = _ ∧ _
    rw [List.append_assoc]
    exact fix_first ha.1.1
  · exact fails_fix fun h => hs (startsFix_cut hr h)

theorem lists_airports : Lists Peg.Sct.aerodrome (fun t => some <$> parseAirport (F := F) t) (Tailed.text AirportText.text) (Tailed.Valid AirportText.Valid)
    (·.body.coord.Fits) (fun a => a.body.value num) Never (fun _ => False) (fun _ => True) := by
  refine simpleLists (by rfl) (fun a r ha hr => ?_) (fun a ha => ?_) fun t ht => ?_
  · obtain ⟨tr, h1, h2, h3⟩ := entry_airport num hnum ha.1 ha.2 hr
    exact ⟨tr, h1, by rw [h2]; decide, (congrArg _ h3).trans (gated_map some)⟩
  · show ∃ c u, (a.body.designator ++ _) ++ a.tail = _ ∧ _
    rw [List.append_assoc]
    exact upper_first ha.1.1
  · exact fails_rule (fails_seq_left (fails_des (headerAt_head ht (by decide))))

theorem lists_runways : Lists Peg.Sct.runway (fun t => some <$> parseRunway (F := F) t) RunwayText.text RunwayText.Valid
    RunwayText.Fits (fun a => a.value num) Never (fun _ => False) (fun _ => True) := by
  refine simpleLists (by rfl) (fun a r ha hr => ?_) (fun a ha => ?_) fun t ht => ?_
  · obtain ⟨tr, h1, h2, h3⟩ := entry_runway num hnum ha hr
    exact ⟨tr, h1, by rw [h2]; decide, (congrArg _ h3).trans (gated_map some)⟩
  · obtain ⟨c, y, t, e, hc, _⟩ := ha.1
    refine ⟨c, _, by unfold RunwayText.text; rw [e]; rfl, (head_parts (digit_char_head hc)).2.1, ?_⟩
    rintro rfl
    exact absurd hc (by decide)
  · exact fails_rule (fails_seq_left (fails_rule (fails_seq_left (fails_seq_left (fails_cls.2 (headerAt_head ht (p := isAsciiDigit) (by decide)))))))

theorem lists_airways [UnicodeTables] : Lists Peg.Sct.airway (parseAirway (F := F)) (Tailed.text AirwayText.text) (Tailed.Valid AirwayText.Valid)
    (·.body.Fits) (fun a => a.body.value num) Never (fun _ => False) (fun _ => True) := by
  refine simpleLists (by rfl) (fun a r ha hr => ?_) (fun a ha => ?_) fun t ht => fails_airwayHeader ht
  · obtain ⟨tr, h1, h2, h3⟩ := entry_airway num hnum ha.1 ha.2 hr
    exact ⟨tr, h1, by rw [h2]; decide, h3⟩
  · show ∃ c u, (a.body.designator ++ _) ++ a.tail = _ ∧ _
    rw [List.append_assoc]
    exact fix_first ha.1.1

theorem lists_labels : Lists Peg.Sct.label (fun t => some <$> parseLabel (F := F) t) (Tailed.text LabelText.text) (Tailed.Valid LabelText.Valid)
    (·.body.coord.Fits) (fun a => a.body.value num) Never (fun _ => False) (fun _ => True) := by
  refine simpleLists (by rfl) (fun a r ha hr => ?_) (fun a ha => ?_) fun t ht => ?_
  · obtain ⟨tr, h1, h2, h3⟩ := entry_label num hnum ha.1 ha.2 hr
    exact ⟨tr, h1, by rw [h2]; decide, (congrArg _ h3).trans (gated_map some)⟩
  · exact ⟨'"', _, rfl, by decide, by decide⟩
  · refine fails_rule (fails_seq_left (fails_seq_left (fails_str.2 ?_)))
    rintro ⟨w, hw⟩
    rcases headerAt_bracket ht with rfl | ⟨u, rfl⟩ <;> cases hw

theorem lists_regions : Lists Peg.Sct.region (fun t => some <$> parseRegion (F := F) t) RegionText.text RegionText.Valid
    RegionText.Fits (fun a => a.value num) Never (fun _ => False) NoHemi where
  isPlain := by rfl
  entry a r ha hr _ := by
    obtain ⟨tr, h1, h2, h3⟩ := entry_region num hnum ha hr
    exact ⟨tr, h1, by rw [h2]; decide, (congrArg _ h3).trans (gated_map some)⟩
  first a _ := ⟨'R', _, rfl, by decide, by decide⟩
  after a r _ _ := headNot_cons.2 (by decide)
  ignored _ _ h := h.elim
  brokenFirst _ h := h.elim
  brokenAfter _ _ h := h.elim
  colour _ := headNot_cons.2 (by decide)
  header t ht := headerAt_head ht (by decide)
  stop t ht _ := fails_region (headerAt_bracket ht)
  nil := Or.inl (fails_region (Or.inl rfl))

theorem noLine_head {t : Str} (h : HeadNot isAsciiAlphanumeric t) : NoLine t := by
  rintro ⟨a, b, g, r, ha, _, _, rfl⟩
  obtain ⟨c, u, e, hc⟩ := loc_head ha
  rw [e] at h
  rw [headNot_cons.1 h] at hc
  cases hc

theorem lists_drawings [DecidableEq F] : Lists Peg.Sct.coloured_lines (fun t => some <$> parseDrawing (F := F) t) DrawingText.text DrawingText.Valid
    DrawingText.Fits (fun a => a.value num) Never (fun d => d.more = []) NoLine where
  isPlain := by rfl
  entry a r ha hr hn := by
    obtain ⟨tr, h1, h2, h3⟩ := entry_drawing num hnum ha hr hn
    exact ⟨tr, h1, by rw [h2]; decide, (congrArg _ h3).trans (gated_map some)⟩
  first a ha := by
    cases e : a.name with
    | nil => exact absurd e ha.nonempty
    | cons c u =>
      refine ⟨c, _, by unfold DrawingText.text; rw [e]; rfl, not_newline_iff.2 (ha.chars c (by rw [e]; simp)).1, fun e' => ha.noColour ?_⟩
      rw [e, e']
      rfl
  after a r ha hr := noLine_drawing ha hr
  ignored _ _ h := h.elim
  brokenFirst _ h := h.elim
  brokenAfter _ _ h := h.elim
  colour _ := noLine_head num hnum (headNot_cons.2 (by decide))
  header t ht := noLine_head num hnum (headerAt_head ht (by decide))
  stop t ht _ := fails_drawing (headerAt_bracket ht)
  nil := Or.inl (fails_drawing (Or.inl rfl))

end

end Verif.Proofs.Sct
