import Verif.Proofs.SctBlocks
/-!
# Drawings in .sct files
-/

namespace Verif.Proofs.Sct
open Verif.Proofs Verif.Peg Verif.Spec Verif.Spec.Sct Verif.Dms Verif.Parse
open Verif.Spec.Ese (DmsText Fits number)
open Verif.Peg.Sct (Rule skip)
open Verif.Parse.Sct (parseColouredLine parseDrawing parseLineGroups)

set_option linter.unusedSectionVars false

/-! ## Matching without looking at the result -/

def Oks (x : Expr Rule) (a : Atom) (r : Str) : Prop := ∃ pos stk st ts, eval skip x a ⟨pos, r, stk⟩ = .ok st ts

theorem oks_all {x : Expr Rule} {a : Atom} {r : Str} (hx : plain x = true) (h : Oks x a r) (st : St) (hs : st.rest = r) :
    ∃ st' ts, eval skip x a st = .ok st' ts := by
  obtain ⟨pos, stk, st1, ts, h⟩ := h
  rcases hu a x hx r with h1 | h1 | ⟨s, r', ts', rfl, h1⟩
  · rw [h1 _ rfl] at h; cases h
  · rw [h1 _ rfl] at h; cases h
  · exact ⟨_, _, h1 st hs⟩

theorem oks_seq {x y : Expr Rule} {a : Atom} {s r : Str} {ts : List (Tree Rule)} (ha : a ≠ .nonAtomic) (hx : plain x = true) (hw : wf x = true)
    (hy : plain y = true) (ho : Out skip K x a s r ts) (h : Oks y a r) : Oks (x ⬝ y) a (s ++ r) := by
  have e1 := out_eval lineSkip.uniform lineSkip.exact x hx hw a s r ts ⟨0, s ++ r, []⟩ ho rfl
  obtain ⟨st', ts', e2⟩ := oks_all hy h _ (St.past_rest ⟨0, s ++ r, []⟩ s r)
  have hk : ∀ st, skipIf skip a st = .ok st [] := by cases a <;> first | exact absurd rfl ha | exact fun _ => rfl
  exact ⟨0, [], st', ts ++ ts', by simp only [eval, e1, Res.ok_bind, hk, e2]⟩

theorem oks_alt_left {x y : Expr Rule} {a : Atom} {r : Str} (h : Oks x a r) : Oks (x ∥ y) a r := by
  obtain ⟨pos, stk, st, ts, h⟩ := h
  exact ⟨pos, stk, st, ts, by simp only [eval, h]⟩

/-! ## The first line of a drawing -/

abbrev gapExpr : Expr Rule := .plus Peg.Sct.WHITESPACE

/-- The text that ends the name of a drawing. -/
abbrev headLine (x : Expr Rule) : Expr Rule :=
  ((gapExpr ⬝ x) ⬝ (gapExpr ⬝ x)) ⬝ (.opt (gapExpr ⬝ Peg.Sct.colour_name)) ⬝ Base.NL

abbrev nameEnd : Expr Rule := headLine Peg.Sct.sct_coordinate ∥ headLine Peg.Sct.airway_fix ∥ (.str c!"[") ∥ (.str c!"]")

theorem out_colourOpt {s r : Str} {ts : List (Tree Rule)} (h : Out skip K (.opt (gapExpr ⬝ Peg.Sct.colour_name)) .compound s r ts) :
    ∃ o, s = colourText o ∧ ∀ g c, o = some (g, c) → IsGap g ∧ IsColourName c := by
  rcases h with h | ⟨rfl, _, _⟩
  · obtain ⟨s1, s2, t1, t2, rfl, _, h1, ⟨k, h2, _⟩⟩ := (out_seq_atomic (by decide)).1 h
    have hc := ((like_colour .atomic).plus (by decide)).1 h2
    refine ⟨some (s1, s2), rfl, fun g c e => ?_⟩
    cases e
    exact ⟨(out_ws (by decide) h1).1, colour_iff.2 ⟨hc.1, hc.2.1⟩⟩
  · exact ⟨none, rfl, fun g c e => by cases e⟩

/-- The text a first line is matched by. -/
theorem out_headLine {x : Expr Rule} {kind : Bool} (hx : ∀ s r ts, Out skip K x .compound s r ts → ∃ l : LocText, l.Valid ∧ l.isCoord = kind ∧ s = l.text)
    {s r : Str} {ts : List (Tree Rule)} (h : Out skip K (headLine x) .compound s r ts) :
    ∃ v c t, IsFirstLine v ∧ s = v ++ c :: t ∧ isNewlineChar c = true := by
  obtain ⟨s1, s2, t1, t2, rfl, _, h1, h2⟩ := (out_seq_atomic (by decide)).1 h
  obtain ⟨s3, s4, t3, t4, rfl, _, h3, h4⟩ := (out_seq_atomic (by decide)).1 h1
  obtain ⟨g1, a1, u1, u2, rfl, _, h5, h6⟩ := (out_seq_atomic (by decide)).1 h3
  obtain ⟨g2, a2, u3, u4, rfl, _, h7, h8⟩ := (out_seq_atomic (by decide)).1 h4
  obtain ⟨cs, nl, u5, u6, rfl, _, h9, h10⟩ := (out_seq_atomic (by decide)).1 h2
  obtain ⟨o, rfl, ho⟩ := out_colourOpt h9
  obtain ⟨sp, c, t, rfl, hsp, hc⟩ := out_NL_head lineSkip (by decide) h10
  obtain ⟨l1, hl1, k1, rfl⟩ := hx _ _ _ h6
  obtain ⟨l2, hl2, k2, rfl⟩ := hx _ _ _ h8
  refine ⟨_, c, t, ⟨g1, ⟨l1, g2, l2, o⟩, sp, (out_ws (by decide) h5).1, ⟨hl1, (out_ws (by decide) h7).1, hl2, ho⟩, k1.trans k2.symm,
    fun d hd => blankChar_iff.1 (hsp d hd), rfl⟩, ?_, hc⟩
  simp [LineText.text]

theorem coord_kind (s r : Str) (ts : List (Tree Rule)) (h : Out skip K Peg.Sct.sct_coordinate .compound s r ts) :
    ∃ l : LocText, l.Valid ∧ l.isCoord = true ∧ s = l.text := by
  obtain ⟨c, hc, rfl, _⟩ := out_coordinate h
  exact ⟨.coord c, hc, rfl, rfl⟩

theorem fix_kind (s r : Str) (ts : List (Tree Rule)) (h : Out skip K Peg.Sct.airway_fix .compound s r ts) :
    ∃ l : LocText, l.Valid ∧ l.isCoord = false ∧ s = l.text := by
  obtain ⟨v, g, hv, hg, rfl⟩ := out_fix h
  exact ⟨.fix v g, ⟨hv, hg⟩, rfl, rfl⟩

theorem noNl_colourText {o : Option (Str × Str)} (h : ∀ g c, o = some (g, c) → IsGap g ∧ IsColourName c) : NoNewline (colourText o) := by
  cases o with
  | none => exact fun c hc => by cases hc
  | some p => exact noNl_append (noNl_blanks (h p.1 p.2 rfl).1.2) (noNl_colour (h p.1 p.2 rfl).2)

theorem noNl_line {l : LineText} (h : l.Valid) : NoNewline l.text :=
  noNl_append (noNl_loc h.1) (noNl_append (noNl_blanks h.2.1.2) (noNl_append (noNl_loc h.2.2.1) (noNl_colourText h.2.2.2)))

theorem noNl_firstLine {s : Str} (h : IsFirstLine s) : NoNewline s := by
  obtain ⟨g, l, sp, hg, hl, _, hs, rfl⟩ := h
  exact noNl_append (noNl_blanks hg.2) (noNl_append (noNl_line hl) (noNl_spTab hs))

theorem fails_headLine {x : Expr Rule} {kind : Bool} (hx : ∀ s r ts, Out skip K x .compound s r ts → ∃ l : LocText, l.Valid ∧ l.isCoord = kind ∧ s = l.text)
    (hw : wf (headLine x) = true) {s r : Str} (hs : ¬ IsFirstLine s) (hn : NoNewline s) (hr : AtLineEnd r) : Fails skip (headLine x) .compound (s ++ r) := by
  refine fails_of_not_out lineSkip.ok hw ?_
  intro s' r' ts e ho
  obtain ⟨v, c, t, hv, rfl, hc⟩ := out_headLine hx ho
  cases r with
  | nil =>
    have := hn c (by rw [List.append_nil] at e; rw [e]; simp)
    rw [hc] at this
    cases this
  | cons d r =>
    have e' : s ++ d :: r = v ++ c :: (t ++ r') := by rw [e]; simp
    exact hs (line_split (noNl_firstLine hv) hn (by simpa using headNot_cons.1 hr) hc e' ▸ hv)

theorem fails_colourOpt {sp r : Str} (hsp : ∀ c ∈ sp, IsBlankChar c) (hr : AtLineEnd r) : Fails skip (gapExpr ⬝ Peg.Sct.colour_name) .compound (sp ++ r) := by
  refine fails_of_not_out lineSkip.ok (by rfl) ?_
  intro s r' ts e ho
  obtain ⟨s1, s2, t1, t2, rfl, _, h1, ⟨k, h2, _⟩⟩ := (out_seq_atomic (by decide)).1 ho
  have hc := ((like_colour .atomic).plus (by decide)).1 h2
  have hg := (out_ws (by decide) h1).1
  cases s2 with
  | nil => exact hc.1 rfl
  | cons c s2 =>
    have hcc := hc.2.1 c List.mem_cons_self
    have hb : isBlank c = false := (head_parts (head_of (by decide) hcc)).1
    cases r with
    | nil =>
      have hm : c ∈ sp := by rw [List.append_nil] at e; rw [e]; simp
      rw [blank_iff'.2 (Or.inl (hsp c hm))] at hb
      cases hb
    | cons d r =>
      have hd : isNewlineChar d = true := by simpa using headNot_cons.1 hr
      have hdb : isBlank d = false := by rcases newline_iff.1 hd with rfl | rfl <;> decide
      have e' : sp ++ d :: r = s1 ++ c :: (s2 ++ r') := by rw [e]; simp
      have := (first_outside (p := isBlank) (fun x hx => blank_iff'.2 (Or.inl (hsp x hx))) (fun x hx => blank_iff'.2 (hg.2 x hx)) hdb hb e').2
      have e3 : d = c := by simpa using this.1
      rw [e3] at hd
      rw [(head_parts (head_of (by decide) hcc)).2.1] at hd
      cases hd

theorem oks_NL {sp r : Str} (hsp : ∀ c ∈ sp, IsBlankChar c) (hr : AtLineEnd r) (hne : r ≠ []) : Oks Base.NL .compound (sp ++ r) := by
  cases r with
  | nil => exact absurd rfl hne
  | cons c t => exact ⟨0, [], nl_ok_blanks lineSkip (by decide) (fun d hd => blankChar_iff.2 (hsp d hd)) (by simpa using headNot_cons.1 hr)⟩

theorem blank_not_loc {l : LocText} {r : Str} (h : l.Valid) : HeadNot isBlank (l.text ++ r) := by
  obtain ⟨c, t, e, hc⟩ := loc_head h
  rw [e]
  exact headNot_cons.2 (head_parts (head_of (by decide) hc)).1

/-- A first line ends the name. -/
theorem oks_headLine {x : Expr Rule} (hx : plain x = true) (hw1 : wf ((gapExpr ⬝ x) ⬝ (gapExpr ⬝ x)) = true)
    {l : LineText} {g sp r : Str} (hl : l.Valid)
    (h1 : ∀ r, Stop r → Out skip K x .compound l.start.text r [locTree l.start]) (h2 : ∀ r, Stop r → Out skip K x .compound l.stop.text r [locTree l.stop])
    (hg : IsGap g) (hsp : ∀ c ∈ sp, IsBlankChar c) (hr : AtLineEnd r) (hne : r ≠ []) :
    Oks (headLine x) .compound (g ++ (l.text ++ (sp ++ r))) := by
  obtain ⟨v1, v2, v3, v4⟩ := hl
  have hst : Stop (colourText l.colour ++ (sp ++ r)) := stop_colour v4 (tail_blanks hsp) hr
  have o1 : Out skip K ((gapExpr ⬝ x) ⬝ (gapExpr ⬝ x)) .compound ((g ++ l.start.text) ++ (l.gap ++ l.stop.text)) (colourText l.colour ++ (sp ++ r))
      (([] ++ [locTree l.start]) ++ ([] ++ [locTree l.stop])) := by
    refine (out_seq_atomic (by decide)).2 ⟨_, _, _, _, rfl, rfl, ?_, ?_⟩
    · refine (out_seq_atomic (by decide)).2 ⟨_, _, _, _, rfl, rfl, out_gap (by decide) hg (blank_not_loc v1), h1 _ ?_⟩
      rw [List.append_assoc]
      exact stop_gap v2
    · exact (out_seq_atomic (by decide)).2 ⟨_, _, _, _, rfl, rfl, out_gap (by decide) v2 (blank_not_loc v3), h2 _ hst⟩
  have e : g ++ (l.text ++ (sp ++ r)) = ((g ++ l.start.text) ++ (l.gap ++ l.stop.text)) ++ (colourText l.colour ++ (sp ++ r)) := by
    simp [LineText.text]
  rw [e]
  refine oks_seq (by decide) (by simp [plain, hx]; rfl) hw1 (by rfl) o1 ?_
  have hnl := oks_NL hsp hr hne
  generalize l.colour = o at v4 hst ⊢
  cases o with
  | none => exact oks_seq (s := []) (ts := []) (by decide) (by rfl) (by rfl) (by rfl) (Or.inr ⟨rfl, rfl, fails_colourOpt hsp hr⟩) hnl
  | some p =>
    refine oks_seq (s := p.1 ++ p.2) (ts := [] ++ [.node .colour_name p.2 []]) (by decide) (by rfl) (by rfl) (by rfl) (Or.inl ?_) hnl
    obtain ⟨h5, h6⟩ := v4 p.1 p.2 rfl
    refine (out_seq_atomic (by decide)).2 ⟨_, _, _, _, rfl, rfl, out_gap (by decide) h5 ?_, ?_⟩
    · obtain ⟨c, t, e, hc⟩ := colour_head h6
      rw [e]
      exact headNot_cons.2 (head_parts (head_of (by decide) hc)).1
    · exact ⟨[], ((like_colour .atomic).plus (by decide)).2 ⟨(colour_iff.1 h6).1, (colour_iff.1 h6).2, stop_not (by decide) (stop_tail (tail_blanks hsp) hr), rfl⟩, rfl⟩

theorem oks_nameEnd {l : LineText} {g sp r : Str} (hl : l.Valid) (hk : l.Uniform) (hg : IsGap g) (hsp : ∀ c ∈ sp, IsBlankChar c) (hr : AtLineEnd r)
    (hne : r ≠ []) : Oks nameEnd .compound (g ++ (l.text ++ (sp ++ r))) := by
  have hv := hl
  obtain ⟨start, gap, stop, colour⟩ := l
  cases start with
  | coord a =>
    cases stop with
    | coord b =>
      exact oks_alt_left (oks_headLine (by rfl) (by rfl) hl (fun r hr => out_coord_build hv.1 hr) (fun r hr => out_coord_build hv.2.2.1 hr)
        hg hsp hr hne)
    | fix b c => cases hk
  | fix a b =>
    cases stop with
    | coord b => cases hk
    | fix c d =>
      exact alt_ok_right lineSkip.ok (by rfl) (oks_alt_left (oks_headLine (by rfl) (by rfl) hl (fun r hr => out_fix_build hv.1.1 hv.1.2)
        (fun r hr => out_fix_build hv.2.2.1.1 hv.2.2.1.2) hg hsp hr hne))

theorem fails_nameEnd {c : Char} {s r : Str} (hc : c ≠ '[' ∧ c ≠ ']') (hs : ¬ IsFirstLine (c :: s)) (hn : NoNewline (c :: s)) (hr : AtLineEnd r) :
    Fails skip nameEnd .compound (c :: (s ++ r)) := by
  refine (fails_alt_iff (hu _ _ rfl)).2 ⟨fails_headLine coord_kind (by rfl) hs hn hr, (fails_alt_iff (hu _ _ rfl)).2
    ⟨fails_headLine fix_kind (by rfl) hs hn hr, (fails_alt_iff (hu _ _ rfl)).2 ⟨fails_str.2 ?_, fails_str.2 ?_⟩⟩⟩
  · simp only [List.cons_prefix_cons, List.nil_prefix, and_true]
    exact fun e => hc.1 e.symm
  · simp only [List.cons_prefix_cons, List.nil_prefix, and_true]
    exact fun e => hc.2 e.symm

theorem first_is {d : DrawingText} (h : d.Valid) : IsFirstLine d.firstLine := ⟨d.gap, d.first, d.blanks, h.gap, h.first, h.uniform, h.blanks, rfl⟩

theorem out_drawingName {d : DrawingText} {r : Str} (h : d.Valid) (hr : AtLineEnd r) (hne : r ≠ []) :
    Out skip K Peg.Sct.non_coordinate_or_double_fix_name .nonAtomic d.name (d.firstLine ++ r)
      [.node .non_coordinate_or_double_fix_name d.name []] := by
  have hn : NoNewline d.name := fun c hc => not_newline_iff.2 (h.chars c hc).1
  have inside : ∀ p c q, d.name = p ++ c :: q → Fails skip nameEnd .compound (c :: (q ++ (d.firstLine ++ r))) := fun p c q e => by
    have hm : c ∈ d.name := by rw [e]; simp
    have hq : NoNewline (c :: q) := fun x hx => hn x (by rw [e]; exact List.mem_append_right _ hx)
    have := fails_nameEnd (s := q ++ d.firstLine) (r := r) (h.chars c hm).2 ?_ (noNl_append hq (noNl_firstLine (first_is h))) hr
    · rwa [List.append_assoc] at this
    · intro hf
      cases p with
      | cons x p => exact h.whole (x :: p) (c :: q) e (by simp) (by simp) hf
      | nil =>
        obtain ⟨g, l, sp, hg, _, _, _, e2⟩ := hf
        cases g with
        | nil => exact hg.1 rfl
        | cons y g =>
          have : c = y := by injection e2
          refine h.start.1 c (by rw [e]; rfl) ?_
          rw [this]
          exact hg.2 y List.mem_cons_self
  have hend : Fails skip ((.not nameEnd) ⬝ .any) .compound (d.firstLine ++ r) := by
    refine fails_until_ok ?_
    have := oks_nameEnd h.first h.uniform h.gap h.blanks hr hne
    have e : d.firstLine ++ r = d.gap ++ (d.first.text ++ (d.blanks ++ r)) := by simp [DrawingText.firstLine]
    rw [e]
    exact this
  refine ⟨[], ?_, rfl⟩
  show Out skip K _ .compound _ _ _
  cases e : d.name with
  | nil => exact absurd e h.nonempty
  | cons c q =>
    refine (out_seq_atomic (by decide)).2 ⟨[c], q, [], [], rfl, rfl, ?_, ?_⟩
    · exact (out_seq_atomic (by decide)).2 ⟨[], [c], [], [], rfl, rfl, ⟨rfl, rfl, inside [] c q e⟩, ⟨c, rfl, rfl, rfl⟩⟩
    · exact out_until_text (by decide) (fun p x u e' => inside (c :: p) x u (by rw [e, e']; rfl)) hend

section
variable {F : Type} [F64 F] [DmsArith F] [DecidableEq F] (num : Str → F) (hnum : ∀ s, IsDecimal s → F64.ofText s = some (num s))

/-- The next thing is no line of a drawing. -/
def NoLine (t : Str) : Prop := ¬ StartsLine t

include hnum in
theorem entry_drawing {d : DrawingText} {r : Str} (h : d.Valid) (hr : Next NoLine r) (hne : d.more = [] → r ≠ []) :
    Entry Peg.Sct.coloured_lines .coloured_lines parseDrawing (gated d.Fits (d.value num)) d.text r := by
  have hlines := blks_lines (x := Peg.Sct.coloured_line) (f := parseColouredLine (F := F)) (txt := LineText.text) (valid := LineText.Valid)
    (val := fun c => gated c.Fits (c.value num))
    (fun a tl r ha ht hr => by obtain ⟨tr, h1, _, h3⟩ := entry_line num hnum ha ht hr; exact ⟨tr, h1, h3⟩)
    (fun a ha => by
      obtain ⟨c, t, e, hc⟩ := loc_first ha.1
      exact ⟨c, t ++ (a.gap ++ (a.stop.text ++ colourText a.colour)), by simp [LineText.text, e], hc⟩) h.more hr.lineEnd
  obtain ⟨ts, b1, e1⟩ := blk_star_read lineSkip.exact (hu .nonAtomic (Base.NL ⬝ Peg.Sct.coloured_line) rfl) hlines.1
    (fails_next rfl hr fun t ht => fails_line ht) (k_end hr.lineEnd)
  have hne' : d.more.flatMap (Ln.text LineText.text) ++ r ≠ [] := by
    cases hm : d.more with
    | nil => simpa using hne hm
    | cons l ls =>
      have := break_ne (h.more l (by rw [hm]; exact List.mem_cons_self)).1
      simp [Ln.text, this]
  obtain ⟨tr, p1, _, p3⟩ := entry_line num hnum h.first (tail_blanks h.blanks) hlines.2
  refine entry_of (kids := [.node .non_coordinate_or_double_fix_name d.name []] ++ ([tr] ++ ts)) ?_ ?_
  · have c1 := pb_seq p1 b1
    have o1 := out_drawingName h hlines.2 hne'
    have c2 : P Peg.Sct.non_coordinate_or_double_fix_name (d.name ++ d.gap) (d.first.text ++ d.blanks ++ d.more.flatMap (Ln.text LineText.text) ++ r)
        [.node .non_coordinate_or_double_fix_name d.name []] := by
      refine ⟨blk_gap ?_ (k_gap h.gap.2 c1.2), ?_⟩
      · have e : d.firstLine ++ (d.more.flatMap (Ln.text LineText.text) ++ r) =
            d.gap ++ (d.first.text ++ d.blanks ++ d.more.flatMap (Ln.text LineText.text) ++ r) := by simp [DrawingText.firstLine]
        rw [← e]
        exact o1
      · rw [List.append_assoc]
        refine k_plain (isStart_plain h.start h.nonempty fun t _ e => ?_)
        obtain ⟨c, u, e', hc⟩ := gap_head (r := d.first.text ++ d.blanks ++ d.more.flatMap (Ln.text LineText.text) ++ r) h.gap
        rw [e'] at e
        cases e
        exact absurd hc (by decide)
    have c3 := pb_seq c2 c1.1
    have e3 : d.text = d.name ++ d.gap ++ (d.first.text ++ d.blanks ++ d.more.flatMap (Ln.text LineText.text)) := by
      simp [DrawingText.text, DrawingText.firstLine]
    rw [e3]
    exact c3
  · intro s
    show (parseLineGroups (tr :: ts)).bind _ = _
    have e2 : (tr :: ts).map (parseColouredLine (F := F)) = d.lines.map fun c => gated c.Fits (c.value num) := by
      rw [List.map_cons, e1, p3]
      simp [DrawingText.lines]
    have e4 : parseLineGroups (F := F) (tr :: ts) = gated d.Fits (Lines.lineGroups (d.lines.map (·.value num))) := by
      show ((tr :: ts).mapM parseColouredLine).bind _ = _
      rw [mapM_of_map e2, mapM_gated]
      exact gated_ok rfl
    rw [e4]
    exact gated_ok rfl

/-- A drawing does not start with a bracket. -/
theorem fails_drawing {t : Str} (h : t = [] ∨ ∃ u, t = '[' :: u) : Fails skip Peg.Sct.coloured_lines .nonAtomic t := by
  refine fails_rule (fails_seq_left (fails_rule (fails_plus ?_)))
  rcases h with rfl | ⟨u, rfl⟩
  · exact fails_until_nil lineSkip.ok (by rfl) (by decide)
  · exact fails_until_ok (alt_ok_right lineSkip.ok (by rfl) (alt_ok_right lineSkip.ok (by rfl) (oks_alt_left (str_ok (w := c!"[") (r := u)))))

/-- A drawing is no line of the one in front of it. -/
theorem noLine_drawing {d : DrawingText} {r : Str} (h : d.Valid) (hr : Next NoLine r) : NoLine (d.text ++ r) := by
  have hl : AtLineEnd (d.more.flatMap (Ln.text LineText.text) ++ r) := by
    cases hm : d.more with
    | nil => simpa using hr.lineEnd
    | cons l ls =>
      rw [List.flatMap_cons, List.append_assoc, lnText]
      exact break_lineEnd (h.more l (by rw [hm]; exact List.mem_cons_self)).1
  intro hs
  refine h.noLine (startsLine_cut hl ?_)
  simpa [DrawingText.text] using hs

end

end Verif.Proofs.Sct
