import Verif.Proofs.SctText
import Verif.Props.Colours
/-!
# Entries of .sct files
-/

namespace Verif.Proofs.Sct
open Verif.Proofs Verif.Peg Verif.Spec Verif.Spec.Sct Verif.Dms Verif.Parse
open Verif.Spec.Ese (DmsText Fits number)
open Verif.Peg.Sct (Rule skip)
open Verif.Parse.Sct (nextStr nextUnsigned nextCoordinate nextLocation findCoordinate parseCoordinate parseColourDefinition
  parseAirport parseAirway parseFix parseNavaid parseNdb parseVor parseRegion parseLabel parseColouredLine parseDrawing parseRunway
  parseLocation parseLineGroups)
open Verif.Colours (Colour fromEuroscope)

set_option linter.unusedSectionVars false

/-- The text is read as a token of rule `q` that `f` reads with result `v`. -/
def Entry {A : Type} (x : Expr Rule) (q : Rule) (f : Tree Rule → Run A) (v : Run A) (t r : Str) : Prop :=
  ∃ tr, P x t r [tr] ∧ tr.asRule = q ∧ f tr = v

theorem entry_of {A : Type} {x : Expr Rule} {q : Rule} {f : Tree Rule → Run A} {v : Run A} {t r : Str} {kids : List (Tree Rule)}
    (h : P x t r kids) (hf : ∀ s, f (.node q s kids) = v) : Entry (.rule q .normal x) q f v t r := by
  obtain ⟨s, h⟩ := pb_rule (q := q) h
  exact ⟨_, h, rfl, hf s⟩

/-! ## Colours -/

theorem intValue_pos {n : Str} (h : IsPosInteger n) : 0 ≤ intValue n := by
  unfold intValue
  have := h.2
  split
  · exact absurd rfl this
  · omega
  · omega

theorem colour_value {n : Str} (h : IsPosInteger n) : fromEuroscope (intValue n) =
    if number n < 2 ^ 24 then some ⟨Fin.ofNat 256 (number n), Fin.ofNat 256 (number n / 256), Fin.ofNat 256 (number n / 65536), 255⟩ else none := by
  have h0 := intValue_pos h
  have hn : (number n : Int) = intValue n := by simp [number]; omega
  split
  · next hlt =>
    refine Verif.Colours.fromEuroscope_eq_some.2 ⟨rfl, ?_⟩
    simp only [Fin.val_ofNat]
    omega
  · next hlt =>
    cases hc : fromEuroscope (intValue n) with
    | none => rfl
    | some c =>
      have := (Verif.Colours.C34_accepted_iff (intValue n)).1 (by rw [hc]; rfl)
      omega

theorem read_colour {d : ColourDef} (h : d.Valid) (s : Str) :
    parseColourDefinition (.node .colour_definition s [.node .colour_name d.name [], .node .pos_integer d.number []]) =
      gated d.Fits (d.colour.map fun c => (d.name, c)) := by
  show (unwrap (parseSigned (2 ^ 31) d.number)).bind _ = _
  have hp := h.2.2.2
  rw [parseSigned_integer hp.1 (by decide), unwrap_gated]
  have h0 := intValue_pos hp
  refine (gated_ok (w := d.colour.map fun c => (d.name, c)) ?_).trans (gated_congr ?_ rfl)
  · show Except.ok _ = _
    rw [colour_value hp]
    rfl
  · simp only [ColourDef.Fits, Fits]
    refine ⟨fun hh => ⟨hp.2, hh.2⟩, fun hh => ⟨by omega, hh.2⟩⟩

theorem entry_colour {d : ColourDef} {tl r : Str} (h : d.Valid) (ht : IsTail tl) (hr : AtLineEnd r) :
    Entry Peg.Sct.colour_definition .colour_definition parseColourDefinition (gated d.Fits (d.colour.map fun c => (d.name, c))) (d.text ++ tl) r := by
  refine entry_of (kids := [.node .colour_name d.name [], .node .pos_integer d.number []]) ?_ (read_colour h)
  obtain ⟨h1, h2, h3, h4⟩ := h
  have := pb_thenStop (x := .str c!"#define") (seg_str (by decide)) h1 (pb_thenStop (seg_colourName h2) h3 (pb_tail (seg_posInteger h4) ht hr))
  simpa [ColourDef.text] using this

theorem fails_colourDef {r : Str} (h : HeadNot (· == '#') r) : Fails skip Peg.Sct.colour_definition .nonAtomic r := by
  refine fails_rule (fails_seq_left (fails_str.2 ?_))
  rintro ⟨t, rfl⟩
  exact absurd (headNot_cons.1 h) (by decide)

section
variable {F : Type} [F64 F] [DmsArith F] (num : Str → F) (hnum : ∀ s, IsDecimal s → F64.ofText s = some (num s))

include hnum in
theorem read_coordTree {c : CoordText} (h : c.Valid) : parseCoordinate (coordTree c) = gated c.Fits (c.point num) :=
  read_coord num hnum h.1 h.2.2

include hnum in
theorem next_coord {c : CoordText} (h : c.Valid) (ts : List (Tree Rule)) :
    nextCoordinate (coordTree c :: ts) = gated c.Fits (c.point num, ts) := by
  show (parseCoordinate (coordTree c)).bind _ = _
  rw [read_coordTree num hnum h]
  exact gated_ok rfl

include hnum in
theorem read_loc {l : LocText} (h : l.Valid) : parseLocation (locTree l) = gated l.Fits (l.value num) := by
  cases l with
  | coord c =>
    show (parseCoordinate (coordTree c)).bind _ = _
    rw [read_coordTree num hnum h]
    exact gated_ok rfl
  | fix name gap =>
    show _ = gated True _
    rw [gated_true trivial]
    rfl

include hnum in
theorem next_loc {l : LocText} (h : l.Valid) (ts : List (Tree Rule)) :
    nextLocation (locTree l :: ts) = gated l.Fits (l.value num, ts) := by
  show (parseLocation (locTree l)).bind _ = _
  rw [read_loc num hnum h]
  exact gated_ok rfl

/-! ## Navaids and fixes -/

include hnum in
theorem entry_navaid {n : NavaidText} {tl r : Str} (h : n.Valid) (ht : IsTail tl) (hr : AtLineEnd r) :
    Entry Peg.Sct.location .location parseNavaid (gated n.coord.Fits (n.value num)) (n.text ++ tl) r := by
  obtain ⟨h1, h2, h3, h4, h5⟩ := h
  refine entry_of (kids := [.node .designator n.designator [], .node .frequency n.frequency [], coordTree n.coord]) ?_ ?_
  · have := pb_thenStop (seg_designator h1) h2 (pb_thenStop (seg_frequency h3) h4 (pb_tail (seg_coord h5) ht hr))
    simpa [NavaidText.text] using this
  · intro s
    show (nextCoordinate (coordTree n.coord :: [])).bind _ = _
    rw [next_coord num hnum h5]
    exact gated_ok rfl

include hnum in
theorem entry_fix [UnicodeTables] {n : FixText} {tl r : Str} (h : n.Valid) (ht : IsTail tl) (hr : AtLineEnd r) :
    Entry Peg.Sct.fix .fix parseFix (gated n.coord.Fits (some (n.value num))) (n.text ++ tl) r := by
  obtain ⟨h1, h2, h3, h4⟩ := h
  refine entry_of (kids := [.node .fix_designator n.designator [], coordTree n.coord]) ?_ ?_
  · have := pb_then (seg_fix h1 h2) h3.1.2 ⟨fixEnd_gap h3, gap_head h3.1⟩ (pb_tail (seg_coord h4) ht hr)
    simpa [FixText.text] using this
  · intro s
    show (nextCoordinate (coordTree n.coord :: [])).bind _ = _
    rw [next_coord num hnum h4]
    exact gated_ok rfl

/-! ## Airports -/

theorem seg_opt {C : Str → Prop} {x : Expr Rule} {v : Str} {u : List (Tree Rule)} (h : S C x v u) : S C (.opt x) v u := fun r hr =>
  ⟨Or.inl (h r hr).1, (h r hr).2⟩

theorem seg_ctr {c : Char} (h : c ∈ c!"ABCDEFG") : S Stop Peg.Sct.ctr_airspace [c] [.node .ctr_airspace [c] []] := by
  refine seg_rule fun r _ => ⟨?_, k_cons ?_⟩
  · have hl : LikeCls skip K ((.str c!"A") ∥ (.str c!"B") ∥ (.str c!"C") ∥ (.str c!"D") ∥ (.str c!"E") ∥ (.str c!"F") ∥ (.str c!"G")) .nonAtomic _ :=
      (likeCls_char 'A' _).alt ((likeCls_char 'B' _).alt ((likeCls_char 'C' _).alt ((likeCls_char 'D' _).alt ((likeCls_char 'E' _).alt
        ((likeCls_char 'F' _).alt (likeCls_char 'G' _) (hu _ _ rfl)) (hu _ _ rfl)) (hu _ _ rfl)) (hu _ _ rfl)) (hu _ _ rfl)) (hu _ _ rfl)
    refine (hl.out _ _ _).2 ⟨c, rfl, ?_, rfl⟩
    simpa using h
  · revert c
    decide

def freqTrees : Option (Str × Str) → List (Tree Rule)
  | some (f, _) => if f = c!"." then [] else [.node .frequency f []]
  | none => []

theorem dot_not_decimal : ¬ IsDecimal c!"." := by
  rintro ⟨sg, ds, fs, e, h1, h2, h3⟩
  rcases h1 with rfl | rfl | rfl
  · cases ds with
    | cons c ds =>
      simp at e
      exact absurd (h2 c List.mem_cons_self) (by rw [← e.1]; decide)
    | nil =>
      rcases h3 with ⟨_, h⟩ | ⟨d, rfl, hd⟩
      · exact h rfl
      · cases e
        exact hd.1 rfl
  · simp at e
  · simp at e

theorem pb_freq {o : Option (Str × Str)} {t r : Str} {u : List (Tree Rule)} {y : Expr Rule}
    (h : ∀ f g, o = some (f, g) → (IsDecimal f ∨ f = c!".") ∧ IsGap g) (hy : P y t r u)
    (ht : HeadNot (fun c => isNumChar c) (t ++ r)) :
    P ((.opt (Peg.Sct.frequency ∥ (.str c!"."))) ⬝ y) (frequencyText o ++ t) r (freqTrees o ++ u) := by
  cases o with
  | none =>
    have hf : Fails skip (Peg.Sct.frequency ∥ (.str c!".")) .nonAtomic (t ++ r) := by
      refine (fails_alt_iff (hu _ _ rfl)).2 ⟨fails_frequency (Or.inl ht), fails_str.2 ?_⟩
      rintro ⟨w, hw⟩
      rw [← hw] at ht
      exact absurd (headNot_cons.1 ht) (by decide)
    exact pb_seq ⟨blk_opt_none hf hy.2, hy.2⟩ hy.1
  | some p =>
    obtain ⟨f, g⟩ := p
    obtain ⟨h1, h2⟩ := h f g rfl
    have key : S GapHead (.opt (Peg.Sct.frequency ∥ (.str c!"."))) f (freqTrees (some (f, g))) := by
      rcases h1 with h1 | rfl
      · have hd : f ≠ c!"." := by rintro rfl; exact dot_not_decimal h1
        rw [freqTrees, if_neg hd]
        exact seg_mono (seg_opt (seg_alt_left (seg_frequency h1))) fun _ => stop_gapHead
      · refine seg_opt (seg_alt_right (fun r hr => fails_frequency (Or.inr ⟨r, rfl, ?_⟩)) (seg_str (c := '.') (w := []) (by decide)))
        exact stop_not (by decide) (stop_gapHead hr)
    have := pb_then key h2.2 (gap_head h2) hy
    simpa [frequencyText] using this

theorem coord_headNot {c : CoordText} {r : Str} {p : Char → Bool} (h : c.Valid) (hp : ∀ x ∈ c!"NSWEnswe", p x = false) :
    HeadNot p (c.text ++ r) := headNot_cons.2 (hp _ h.1.1)

include hnum in
theorem entry_airport {a : AirportText} {tl r : Str} (h : a.Valid) (ht : IsTail tl) (hr : AtLineEnd r) :
    Entry Peg.Sct.aerodrome .aerodrome parseAirport (gated a.coord.Fits (a.value num)) (a.text ++ tl) r := by
  obtain ⟨h1, h2, h3, h4, h5, h6⟩ := h
  refine entry_of (kids := [.node .designator a.designator []] ++ (freqTrees a.frequency ++ [coordTree a.coord, .node .ctr_airspace [a.ctr] []])) ?_ ?_
  · have hc := pb_thenStop (seg_coord h4) h5 (pb_tail (seg_ctr h6) ht hr)
    have := pb_thenStop (seg_designator h1) h2 (pb_freq h3 hc (by rw [List.append_assoc]; exact coord_headNot h4 (by decide)))
    simpa [AirportText.text] using this
  · intro s
    have hfind : findCoordinate (freqTrees a.frequency ++ [coordTree a.coord, .node .ctr_airspace [a.ctr] []]) =
        .ok (coordTree a.coord, [.node .ctr_airspace [a.ctr] []]) := by
      cases a.frequency with
      | none => rfl
      | some p =>
        obtain ⟨f, g⟩ := p
        show findCoordinate ((if f = c!"." then [] else [.node .frequency f []]) ++ _) = _
        split <;> rfl
    show (findCoordinate (freqTrees a.frequency ++ [coordTree a.coord, .node .ctr_airspace [a.ctr] []])).bind _ = _
    rw [hfind]
    show (parseCoordinate (coordTree a.coord)).bind _ = _
    rw [read_coordTree num hnum h4]
    exact gated_ok rfl

/-! ## Airways and labels -/

include hnum in
theorem entry_airway [UnicodeTables] {a : AirwayText} {tl r : Str} (h : a.Valid) (ht : IsTail tl) (hr : AtLineEnd r) :
    Entry Peg.Sct.airway .airway parseAirway (gated a.Fits (some (a.value num))) (a.text ++ tl) r := by
  obtain ⟨h1, h2, h3, h4, h5, h6⟩ := h
  refine entry_of (kids := [.node .fix_designator a.designator [], locTree a.start, locTree a.stop]) ?_ ?_
  · have := pb_then (seg_fix h1 h2) h3.1.2 ⟨fixEnd_gap h3, gap_head h3.1⟩ (pb_thenStop (seg_loc h4) h5 (pb_tail (seg_loc h6) ht hr))
    simpa [AirwayText.text] using this
  · intro s
    show (parseLocation (locTree a.start)).bind _ = _
    rw [read_loc num hnum h4]
    refine gated_bind ?_
    show (parseLocation (locTree a.stop)).bind _ = _
    rw [read_loc num hnum h6]
    exact gated_ok rfl

theorem out_quoteText {v r : Str} (hv : ∀ c ∈ v, ¬ IsNewline c ∧ c ≠ '"') :
    Out skip K Base.quote_delimited_text .atomic v ('"' :: r) [] := by
  refine out_until_text (by decide) (fun p c q e => ?_) ?_
  · refine (fails_alt_iff (hu _ _ rfl)).2 ⟨fails_NL lineSkip ?_, fails_str.2 ?_⟩
    · refine no_lineEnd (v := c :: q) (fun d hd => not_newline_iff.2 (hv d ?_).1) (Or.inr ⟨'"', r, rfl, by decide, by decide⟩)
      rw [e]; exact List.mem_append_right _ hd
    · rintro ⟨w, hw⟩
      cases hw
      exact (hv '"' (by rw [e]; simp)).2 rfl
  · refine fails_until_ok ⟨0, [], ?_⟩
    have h1 := (fails_NL (R := Rule) lineSkip (t := '"' :: r) ?_)
    · have h1 := (hu .atomic (Base.NL : Expr Rule) rfl).fail_of h1 ⟨0, '"' :: r, []⟩ rfl
      simp only [eval, h1]
      simp [List.isPrefixOf]
    · exact no_lineEnd (v := []) (by simp) (Or.inr ⟨'"', r, rfl, by decide, by decide⟩)

include hnum in
theorem entry_label {l : LabelText} {tl r : Str} (h : l.Valid) (ht : IsTail tl) (hr : AtLineEnd r) :
    Entry Peg.Sct.label .label parseLabel (gated l.coord.Fits (l.value num)) (l.text ++ tl) r := by
  obtain ⟨⟨h0, h1⟩, h2, h3, h4, h5⟩ := h
  refine entry_of (kids := [.node .quote_delimited_text l.name [], coordTree l.coord, .node .colour_name l.colour []]) ?_ ?_
  · have kq : ∀ r, K [] ('"' :: r) := fun r => k_cons (by decide)
    have s1 : S (fun r => ∃ t, r = '"' :: t) Peg.Sct.quote_delimited_text l.name [.node .quote_delimited_text l.name []] := by
      refine seg_atomic (fun r hr => ?_) fun r hr => ?_
      · obtain ⟨t, rfl⟩ := hr
        exact out_quoteText h1
      · obtain ⟨t, rfl⟩ := hr
        by_cases hn : l.name = []
        · rw [hn]; exact kq t
        · refine k_plain (isStart_plain h0 hn fun u _ e => ?_)
          cases e
    have s2 : S (fun _ => True) Peg.Sct.quoted_string ('"' :: (l.name ++ c!"\"")) [.node .quote_delimited_text l.name []] := fun r _ => by
      refine ⟨?_, kq _⟩
      have o1 := s1 ('"' :: r) ⟨r, rfl⟩
      refine out_key (w := c!"\"") ?_ (out_seq0 (s2 := c!"\"") (t2 := []) (kq r) o1.1 out_str0)
      simpa using o1.2
    have := pb_then s2 h2 trivial (pb_thenStop (seg_coord h3) h4 (pb_tail (seg_colourName h5) ht hr))
    simpa [LabelText.text] using this
  · intro s
    show (nextLocation (locTree (.coord l.coord) :: _)).bind _ = _
    rw [next_loc num hnum (l := .coord l.coord) h3]
    exact gated_ok rfl

/-! ## Lines -/

def colourTrees : Option (Str × Str) → List (Tree Rule)
  | some (_, c) => [.node .colour_name c []]
  | none => []

theorem stop_colour {o : Option (Str × Str)} {tl r : Str} (h : ∀ g c, o = some (g, c) → IsGap g ∧ IsColourName c)
    (ht : IsTail tl) (hr : AtLineEnd r) : Stop (colourText o ++ (tl ++ r)) := by
  cases o with
  | none =>
    have := stop_tail ht hr
    simpa [colourText] using this
  | some p =>
    show Stop ((p.1 ++ p.2) ++ (tl ++ r))
    rw [List.append_assoc]
    exact stop_gap (h p.1 p.2 rfl).1

theorem pb_lineColour {o : Option (Str × Str)} {x : Expr Rule} {v tl r : Str} {u : List (Tree Rule)} (hx : S Stop x v u)
    (h : ∀ g c, o = some (g, c) → IsGap g ∧ IsColourName c) (ht : IsTail tl) (hr : AtLineEnd r) :
    P (x ⬝ (.opt Peg.Sct.colour_name)) (v ++ (colourText o ++ tl)) r (u ++ colourTrees o) := by
  cases o with
  | some p =>
    have := pb_thenStop hx (h p.1 p.2 rfl).1 (pb_tail (seg_opt (seg_colourName (h p.1 p.2 rfl).2)) ht hr)
    simpa [colourText, colourTrees] using this
  | none =>
    have hf : Fails skip Peg.Sct.colour_name .nonAtomic r := fails_colourName (stop_not (by decide) (stop_lineEnd hr))
    have := pb_seq (t2 := []) (pb_tail hx ht hr) (blk_opt_none hf (k_end hr))
    simpa [colourText, colourTrees] using this

include hnum in
theorem entry_line {l : LineText} {tl r : Str} (h : l.Valid) (ht : IsTail tl) (hr : AtLineEnd r) :
    Entry Peg.Sct.coloured_line .coloured_line parseColouredLine (gated l.Fits (l.value num)) (l.text ++ tl) r := by
  obtain ⟨h1, h2, h3, h4⟩ := h
  refine entry_of (kids := [locTree l.start] ++ ([locTree l.stop] ++ colourTrees l.colour)) ?_ ?_
  · have := pb_thenStop (seg_loc h1) h2 (pb_lineColour (seg_loc h3) h4 ht hr)
    simpa [LineText.text] using this
  · intro s
    show (nextLocation (locTree l.start :: locTree l.stop :: colourTrees l.colour)).bind _ = _
    rw [next_loc num hnum h1]
    refine gated_bind ?_
    show (nextLocation (locTree l.stop :: colourTrees l.colour)).bind _ = _
    rw [next_loc num hnum h3]
    refine gated_ok ?_
    show Except.ok _ = _
    unfold LineText.value colourTrees
    cases l.colour <;> rfl

/-! ## Runways -/

/-- What is skipped in front of a text without line end. -/
theorem skip_split {t r : Str} (ht : ∀ c ∈ t, ¬ IsNewline c) (hr : AtLineEnd r) : ∃ m w, t = m ++ w ∧ K m (w ++ r) := by
  let sp := t.takeWhile isBlank
  let u := t.dropWhile isBlank
  have e : t = sp ++ u := (List.takeWhile_append_dropWhile).symm
  have hsp : ∀ c ∈ sp, isBlank c = true := fun c hc => List.all_eq_true.1 (List.all_takeWhile (p := isBlank) (l := t)) c hc
  have hu' : HeadNot isBlank u := by
    intro c hc
    have := List.head?_dropWhile_not isBlank t
    rw [hc] at this
    simpa using this
  by_cases hc : ∃ w ∈ commentMarks, w <+: u
  · obtain ⟨w, hw, b, hb⟩ := hc
    refine ⟨t, [], by simp, ?_⟩
    refine (lineSkip.iff _ _).2 ⟨sp, u, e, hsp, Or.inr ⟨⟨w, hw, b, hb.symm, ?_⟩, hr⟩⟩
    intro c hc
    refine not_newline_iff.2 (ht c ?_)
    rw [e, ← hb]
    simp [hc]
  · refine ⟨sp, u, e, lineSkip.spaces hsp ?_⟩
    generalize u = u' at *
    cases u' with
    | nil => exact plain_lineEnd apart hr
    | cons c v =>
      refine ⟨headNot_cons.2 (headNot_cons.1 hu'), ?_⟩
      rintro ⟨w, hw, hp⟩
      simp only [commentMarks, List.mem_cons, List.not_mem_nil, or_false] at hw
      rcases hw with rfl | rfl
      · rw [List.cons_append, List.cons_prefix_cons] at hp
        exact hc ⟨c!";", by decide, by rw [hp.1, List.cons_prefix_cons]; exact ⟨rfl, List.nil_prefix⟩⟩
      · rw [List.cons_append, List.cons_prefix_cons] at hp
        cases v with
        | nil =>
          obtain ⟨z, hz⟩ := hp.2
          rw [List.nil_append] at hz
          rw [← hz] at hr
          exact absurd (headNot_cons.1 hr) (by decide)
        | cons d v =>
          rw [List.cons_append, List.cons_prefix_cons] at hp
          refine hc ⟨c!"//", by decide, ?_⟩
          rw [← hp.1, ← hp.2.1, List.cons_prefix_cons, List.cons_prefix_cons]
          exact ⟨rfl, rfl, List.nil_prefix⟩

/-- `(!NEWLINE ~ ANY)*` where blanks and comments are skipped. -/
theorem rest_blks {r : Str} (hr : AtLineEnd r) : ∀ (n : Nat) (w : Str), w.length ≤ n → (∀ c ∈ w, ¬ IsNewline c) → K [] (w ++ r) →
    ∃ bs : List (Str × List (Tree Rule)), Blks skip K ((.not .newline) ⬝ .any) bs r ∧ bs.flatMap (·.1) = w ∧ bs.flatMap (·.2) = []
  | _, [], _, _, _ => ⟨[], trivial, rfl, rfl⟩
  | 0, c :: w, hn, _, _ => by simp at hn
  | n + 1, c :: w, hn, hw, hk => by
    obtain ⟨m, v, rfl, hm⟩ := skip_split (fun d hd => hw d (List.mem_cons_of_mem _ hd)) hr
    have hl : v.length ≤ n := by simp at hn; omega
    obtain ⟨bs, h1, h2, h3⟩ := rest_blks hr n v hl (fun d hd => hw d (by simp [hd])) (lineSkip.knil _ _ hm)
    refine ⟨(c :: m, []) :: bs, ⟨?_, h1⟩, by simp [h2], by simp [h3]⟩
    rw [h2]
    refine ⟨[c], m, rfl, ⟨[], [], [c], [], [], rfl, ?_, ⟨rfl, rfl, ?_⟩, ⟨c, rfl, rfl, rfl⟩, rfl⟩, hm⟩
    · show K [] _
      simpa using hk
    · refine fails_newline.2 (headNot_cons.2 (not_newline_iff.2 (hw c List.mem_cons_self)))

theorem seg_des_rest {v w r : Str} (h : IsDesignator v) (hw : ∀ c ∈ w, ¬ IsNewline c)
    (hh : ∀ c, w.head? = some c → ¬ (isAsciiUpper c = true ∨ isAsciiDigit c = true)) (hr : AtLineEnd r) :
    P (Peg.Sct.designator ⬝ (.star ((.not .newline) ⬝ .any))) (v ++ w) r [.node .designator v []] := by
  have hd : HeadNot isDesChar (w ++ r) := by
    cases w with
    | nil => exact desEnd_stop (stop_lineEnd hr)
    | cons c w =>
      refine headNot_cons.2 ?_
      have := hh c rfl
      cases hc : isDesChar c with
      | false => rfl
      | true => exact absurd (by simpa [isDesChar] using hc) this
  obtain ⟨m, u, rfl, hm⟩ := skip_split hw hr
  obtain ⟨bs, h1, h2, h3⟩ := rest_blks hr u.length u (Nat.le_refl _) (fun c hc => hw c (by simp [hc])) (lineSkip.knil _ _ hm)
  have hf : Fails skip ((.not .newline) ⬝ .any : Expr Rule) .nonAtomic r := by
    cases r with
    | nil =>
      refine ⟨0, [], ?_⟩
      have e1 : eval skip (.newline : Expr Rule) .nonAtomic ⟨0, [], []⟩ = .fail :=
        (hu .nonAtomic (.newline : Expr Rule) rfl).fail_of (fails_newline.2 (headNot_nil _)) _ rfl
      have e2 := skipIf_exact (a := .nonAtomic) (m := []) (r := []) lineSkip.exact (k_plain plain_nil) (st := (⟨0, [], []⟩ : St)) rfl
      simp only [eval, e1, Res.ok_bind, e2]
      rfl
    | cons c t =>
      have hc : isNewlineChar c = true := by simpa using headNot_cons.1 hr
      have : ¬ Fails skip (.newline : Expr Rule) .nonAtomic (c :: t) := by
        rw [fails_newline, headNot_cons, hc]; simp
      refine fails_until_ok ⟨0, [], ?_⟩
      cases he : eval skip (.newline : Expr Rule) .nonAtomic ⟨0, c :: t, []⟩ with
      | ok st ts => exact ⟨st, ts, rfl⟩
      | fail => exact absurd ⟨0, [], he⟩ this
      | diverge => exact absurd he (eval_ne_diverge lineSkip.ok _ rfl _ _)
  have hs := blk_star lineSkip.exact (hu .nonAtomic ((.not .newline) ⬝ .any) rfl) h1 hf (k_end hr)
  rw [h2, h3] at hs
  have p1 : P Peg.Sct.designator (v ++ m) (u ++ r) [.node .designator v []] := by
    have o := seg_des h (m ++ (u ++ r)) (by simpa using hd)
    exact ⟨blk_gap o.1 hm, by simpa using o.2⟩
  have := pb_seq p1 hs
  simpa using this

include hnum in
theorem entry_runway {w : RunwayText} {r : Str} (h : w.Valid) (hr : AtLineEnd r) :
    Entry Peg.Sct.runway .runway parseRunway (gated w.Fits (w.value num)) w.text r := by
  obtain ⟨h1, h2, h3, h4, h5, h6, h7, h8, h9, h10, h11, h12, h13, h14, h15⟩ := h
  refine entry_of (kids := [.node .runway_designator w.designator1 [], .node .runway_designator w.designator2 [],
    .node .pos_integer w.heading1 [], .node .pos_integer w.heading2 [], coordTree w.coord1, coordTree w.coord2,
    .node .designator w.airport []]) ?_ ?_
  · have := pb_thenStop (seg_runway h1) h2 (pb_thenStop (seg_runway h3) h4 (pb_thenStop (seg_posInteger h5) h6 (pb_thenStop (seg_posInteger h7) h8
      (pb_thenStop (seg_coord h9) h10 (pb_thenStop (seg_coord h11) h12 (seg_des_rest h13 h14 h15 hr))))))
    simpa [RunwayText.text] using this
  · intro s
    show (nextUnsigned (2 ^ 32) (.node .pos_integer w.heading1 [] :: _)).bind _ = _
    rw [read_unsigned h5.1]
    refine gated_bind ?_
    show (nextUnsigned (2 ^ 32) (.node .pos_integer w.heading2 [] :: _)).bind _ = _
    rw [read_unsigned h7.1]
    refine gated_bind ?_
    show (nextCoordinate (coordTree w.coord1 :: _)).bind _ = _
    rw [next_coord num hnum h9]
    refine gated_bind ?_
    show (nextCoordinate (coordTree w.coord2 :: _)).bind _ = _
    rw [next_coord num hnum h11]
    exact gated_ok rfl

end

end Verif.Proofs.Sct
