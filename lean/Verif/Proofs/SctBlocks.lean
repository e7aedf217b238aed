import Verif.Proofs.SctEntries
/-!
# Entries of .sct files that extend over lines, and lines that are not understood
-/

namespace Verif.Proofs.Sct
open Verif.Proofs Verif.Peg Verif.Spec Verif.Spec.Sct Verif.Dms Verif.Parse
open Verif.Spec.Ese (DmsText Fits number)
open Verif.Peg.Sct (Rule skip)
open Verif.Parse.Sct (parseCoordinate parseFix parseNavaid parseNdb parseRegion parseColouredLine parseDrawing parseLineGroups)

set_option linter.unusedSectionVars false

/-! ## What follows a line -/

/-- The end of the file, or line ends and something with `Q`. -/
def Next (Q : Str → Prop) (r : Str) : Prop := r = [] ∨ ∃ brk t, r = brk ++ t ∧ IsBreak brk ∧ Start t ∧ Q t

theorem Next.lineEnd {Q : Str → Prop} {r : Str} (h : Next Q r) : AtLineEnd r := by
  rcases h with rfl | ⟨brk, t, rfl, hb, _⟩
  · exact headNot_nil _
  · exact break_lineEnd hb

theorem Next.mono {Q Q' : Str → Prop} {r : Str} (h : Next Q r) (hq : ∀ t, Q t → Q' t) : Next Q' r := by
  rcases h with rfl | ⟨brk, t, rfl, hb, hs, ht⟩
  · exact Or.inl rfl
  · exact Or.inr ⟨brk, t, rfl, hb, hs, hq t ht⟩

theorem fails_NL_nil : Fails skip (Base.NL : Expr Rule) .nonAtomic [] :=
  fails_plus (fails_nlOne lineSkip plain_nil (headNot_nil _))

theorem blk_brk {brk t : Str} (hb : IsBreak brk) (ht : Start t) : Blk skip K (Base.NL : Expr Rule) brk t [] := (pb_NL lineSkip hb ht).1

/-- `NL ~ x` fails if `x` fails behind the line ends. -/
theorem fails_next {Q : Str → Prop} {x : Expr Rule} {r : Str} (hx : plain x = true) (h : Next Q r)
    (hf : ∀ t, Q t → Fails skip x .nonAtomic t) : Fails skip (Base.NL ⬝ x) .nonAtomic r := by
  rcases h with rfl | ⟨brk, t, rfl, hb, hs, ht⟩
  · exact fails_seq_left fails_NL_nil
  · exact fails_seq_right lineSkip.uniform lineSkip.exact (by rfl) (by rfl) (hu _ _ hx) (blk_brk hb hs) (hf t ht)

theorem blk_nlThen {x : Expr Rule} {brk t r : Str} {u : List (Tree Rule)} (hb : IsBreak brk) (ht : Start (t ++ r)) (h : Blk skip K x t r u) :
    Blk skip K (Base.NL ⬝ x) (brk ++ t) r u := blk_seq (u1 := []) (blk_brk hb ht) h

/-! ## Texts without line ends -/

def NoNewline (s : Str) : Prop := ∀ c ∈ s, isNewlineChar c = false

theorem noNl_append {a b : Str} (ha : NoNewline a) (hb : NoNewline b) : NoNewline (a ++ b) := fun c hc => by
  rcases List.mem_append.1 hc with h | h
  · exact ha c h
  · exact hb c h

theorem noNl_of {p : Char → Bool} (hp : p '\n' = false ∧ p '\r' = false) {s : Str} (h : ∀ c ∈ s, p c = true) : NoNewline s := fun c hc => by
  cases hn : isNewlineChar c with
  | false => rfl
  | true =>
    have := h c hc
    rcases newline_iff.1 hn with rfl | rfl
    · rw [hp.1] at this; cases this
    · rw [hp.2] at this; cases this

theorem noNl_blanks {s : Str} (h : AreBlanks s) : NoNewline s := noNl_of (p := isBlank) (by decide) fun c hc => blank_iff'.2 (h c hc)

theorem noNl_spTab {s : Str} (h : ∀ c ∈ s, IsBlankChar c) : NoNewline s := noNl_blanks (areBlanks_of h)

theorem noNl_designator {s : Str} (h : IsDesignator s) : NoNewline s := noNl_of (p := isDesChar) (by decide) (des_iff.1 h).2

theorem noNl_colour {s : Str} (h : IsColourName s) : NoNewline s := noNl_of (p := isColourChar) (by decide) (colour_iff.1 h).2

theorem noNl_fixName [UnicodeTables] {s : Str} (h : IsFixName s) : NoNewline s :=
  noNl_of (p := isFixChar) ⟨fixChar_not (by simp), fixChar_not (by simp)⟩ (fixName_iff.1 h).2

theorem noNl_decimal {s : Str} (h : IsDecimal s) : NoNewline s := by
  refine noNl_of (p := isNumChar) (by decide) ?_
  obtain ⟨sg, ds, fs, rfl, h1, h2, h3⟩ := h
  have hd : ∀ c, isAsciiDigit c = true → isNumChar c = true := fun c hc => by simp [isNumChar, hc]
  intro c hc
  simp only [List.mem_append] at hc
  rcases hc with (hc | hc) | hc
  · rcases h1 with rfl | rfl | rfl
    · cases hc
    · rw [List.mem_singleton.1 hc]; decide
    · rw [List.mem_singleton.1 hc]; decide
  · exact hd c (h2 c hc)
  · rcases h3 with ⟨rfl, _⟩ | ⟨d, rfl, hd'⟩
    · cases hc
    · rcases List.mem_cons.1 hc with rfl | hc
      · decide
      · exact hd c (hd'.2 c hc)

theorem noNl_dms {d : DmsText} (h : d.Valid) : NoNewline d.text := by
  obtain ⟨h1, h2, h3, h4⟩ := h
  have hd : ∀ {s : Str}, IsDigits s → NoNewline s := fun h => noNl_of (p := isAsciiDigit) (by decide) h.2
  intro c hc
  simp only [DmsText.text, List.mem_cons, List.mem_append] at hc
  rcases hc with rfl | hc | rfl | hc | rfl | hc
  · revert h1
    generalize d.hemi = y
    revert y
    decide
  · exact hd h2 c hc
  · decide
  · exact hd h3 c hc
  · decide
  · exact noNl_decimal h4 c hc

theorem noNl_coord {c : CoordText} (h : c.Valid) : NoNewline c.text :=
  noNl_append (noNl_dms h.1) (noNl_append (noNl_blanks h.2.1.2) (noNl_dms h.2.2))

theorem noNl_loc {l : LocText} (h : l.Valid) : NoNewline l.text := by
  cases l with
  | coord c => exact noNl_coord h
  | fix v g => exact noNl_append (noNl_designator h.1) (noNl_append (noNl_blanks h.2.2) (noNl_designator h.1))

/-- A text without line ends at the start of a line is on that line. -/
theorem within_line {a u r r' : Str} (ha : NoNewline a) (hr : AtLineEnd r) (e : u ++ r = a ++ r') : ∃ t, u = a ++ t := by
  rcases List.append_eq_append_iff.1 e with ⟨w, e1, e2⟩ | ⟨w, e1, e2⟩
  · cases w with
    | nil => exact ⟨[], by simpa using e1.symm⟩
    | cons c w =>
      subst e2
      have h1 := headNot_cons.1 hr
      rw [ha c (by simp [e1])] at h1
      cases h1
  · exact ⟨w, e1⟩

/-- The text up to the first line end. -/
theorem line_split {a u r b : Str} {c d : Char} (ha : NoNewline a) (hu : NoNewline u) (hc : isNewlineChar c = true) (hd : isNewlineChar d = true)
    (e : u ++ c :: r = a ++ d :: b) : u = a :=
  (first_outside (p := fun c => !isNewlineChar c) (fun x hx => by simp [hu x hx]) (fun x hx => by simp [ha x hx]) (by simp [hc]) (by simp [hd]) e).1

theorem startsLine_cut {u r : Str} (hr : AtLineEnd r) (h : StartsLine (u ++ r)) : StartsLine u := by
  obtain ⟨a, b, g, r', ha, hg, hb, e⟩ := h
  have e' : u ++ r = (a.text ++ (g ++ b.text)) ++ r' := by rw [e]; simp
  obtain ⟨t, rfl⟩ := within_line (noNl_append (noNl_loc ha) (noNl_append (noNl_blanks hg) (noNl_loc hb))) hr e'
  exact ⟨a, b, g, t, ha, hg, hb, by simp⟩

theorem startsFix_cut [UnicodeTables] {u r : Str} (hr : AtLineEnd r) (h : StartsFix (u ++ r)) : StartsFix u := by
  obtain ⟨d, g, c, r', hd, hg, hc, e⟩ := h
  have e' : u ++ r = (d ++ (g ++ c.text)) ++ r' := by rw [e]; simp
  obtain ⟨t, rfl⟩ := within_line (noNl_append (noNl_fixName hd) (noNl_append (noNl_blanks hg) (noNl_coord hc))) hr e'
  exact ⟨d, g, c, t, hd, hg, hc, by simp⟩

theorem startsNavaid_cut {u r : Str} (hr : AtLineEnd r) (h : StartsNavaid (u ++ r)) : StartsNavaid u := by
  obtain ⟨d, g, f, g', c, r', hd, hg, hf, hg', hc, e⟩ := h
  have e' : u ++ r = (d ++ (g ++ (f ++ (g' ++ c.text)))) ++ r' := by rw [e]; simp
  obtain ⟨t, rfl⟩ := within_line (noNl_append (noNl_designator hd) (noNl_append (noNl_blanks hg) (noNl_append (noNl_decimal hf)
    (noNl_append (noNl_blanks hg') (noNl_coord hc))))) hr e'
  exact ⟨d, g, f, g', c, t, hd, hg, hf, hg', hc, by simp⟩

/-! ## What the rules match -/

theorem coord_first {c : CoordText} (h : c.Valid) : ∃ x t, c.text = x :: t ∧ isNewlineChar x = false :=
  ⟨_, _, rfl, (head_parts (hemi_head h.1.1)).2.1⟩

theorem loc_first {l : LocText} (h : l.Valid) : ∃ x t, l.text = x :: t ∧ isNewlineChar x = false := by
  obtain ⟨c, t, e, hc⟩ := loc_head h
  exact ⟨c, t, e, (head_parts (head_of (by decide) hc)).2.1⟩

theorem decimal_first {v : Str} (h : IsDecimal v) : ∃ x t, v = x :: t ∧ isNewlineChar x = false := by
  obtain ⟨c, t, e, hc⟩ := decimal_head' h
  exact ⟨c, t, e, (head_parts (head_of (by decide) hc)).2.1⟩

theorem out_line_starts {s r : Str} {ts : List (Tree Rule)} (h : Out skip K Peg.Sct.coloured_line .nonAtomic s r ts) : StartsLine (s ++ r) := by
  obtain ⟨kids, ⟨s1, m1, s2, t1, t2, rfl, hg, h1, ⟨s3, m3, s4, t3, t4, rfl, _, h3, _⟩, _⟩, _⟩ := h
  obtain ⟨a, ha, rfl⟩ := out_loc h1
  obtain ⟨b, hb, rfl⟩ := out_loc h3
  have hg : K m1 _ := hg
  simp only [List.append_assoc] at hg
  exact ⟨a, b, m1, m3 ++ (s4 ++ r), ha, blanks_before hg (loc_first hb), hb, by simp⟩

theorem fails_line {r : Str} (h : ¬ StartsLine r) : Fails skip Peg.Sct.coloured_line .nonAtomic r := by
  refine fails_of_not_out lineSkip.ok (by rfl) ?_
  rintro s r' ts rfl ho
  exact h (out_line_starts ho)

theorem out_fixName [UnicodeTables] {s r : Str} {ts : List (Tree Rule)} (h : Out skip K Peg.Sct.fix_designator .nonAtomic s r ts) : IsFixName s := by
  obtain ⟨kids, h, _⟩ := h
  have := ((like_fix .atomic).plus (by decide)).1 h
  exact fixName_iff.2 ⟨this.1, this.2.1⟩

theorem fails_fix [UnicodeTables] {r : Str} (h : ¬ StartsFix r) : Fails skip Peg.Sct.fix .nonAtomic r := by
  refine fails_of_not_out lineSkip.ok (by rfl) ?_
  rintro s r' ts rfl ⟨kids, ⟨s1, m1, s2, t1, t2, rfl, hg, h1, h2, _⟩, _⟩
  obtain ⟨c, hc, rfl, _⟩ := out_coordinate h2
  exact h ⟨s1, m1, c, r', out_fixName h1, blanks_before hg (coord_first hc), hc, by simp⟩

theorem fails_location {r : Str} (h : ¬ StartsNavaid r) : Fails skip Peg.Sct.location .nonAtomic r := by
  refine fails_of_not_out lineSkip.ok (by rfl) ?_
  rintro s r' ts rfl ⟨kids, ⟨s1, m1, s2, t1, t2, rfl, hg, h1, ⟨s3, m3, s4, t3, t4, rfl, hg3, h3, h4, _⟩, _⟩, _⟩
  obtain ⟨c, hc, rfl, _⟩ := out_coordinate h4
  have hd : IsDesignator s1 := by
    obtain ⟨k, h1, _⟩ := h1
    have := ((like_des .atomic).plus (by decide)).1 h1
    exact des_iff.2 ⟨this.1, this.2.1⟩
  have hf : IsDecimal s3 := by
    obtain ⟨k, ⟨k', h3, _⟩, _⟩ := h3
    exact (out_decimal (by decide) h3).2
  have hg : K m1 _ := hg
  simp only [List.append_assoc] at hg
  exact h ⟨s1, m1, s3, m3, c, r', hd, blanks_before hg (decimal_first hf), hf, blanks_before hg3 (coord_first hc), hc, by simp⟩

/-! ## Lines that are not understood -/

theorem fails_broken {t : Str} : Fails skip Peg.Sct.broken .nonAtomic ('[' :: t) := by
  refine fails_rule (fails_seq_left ?_)
  exact ⟨0, [], by simp [eval, List.isPrefixOf]⟩

/-- A text and the blanks at its end. -/
theorem trim_end (s : Str) : ∃ b sp, s = b ++ sp ∧ (∀ c ∈ sp, isSpTab c = true) ∧ ∀ c, b.getLast? = some c → isSpTab c = false := by
  induction s with
  | nil => exact ⟨[], [], rfl, by simp, by simp⟩
  | cons c s ih =>
    obtain ⟨b, sp, rfl, h1, h2⟩ := ih
    cases b with
    | cons d b =>
      refine ⟨c :: d :: b, sp, rfl, h1, fun x hx => h2 x ?_⟩
      simpa using hx
    | nil =>
      cases hc : isSpTab c with
      | true =>
        refine ⟨[], c :: sp, rfl, ?_, by simp⟩
        intro x hx
        rcases List.mem_cons.1 hx with rfl | hx
        · exact hc
        · exact h1 x hx
      | false =>
        refine ⟨[c], sp, rfl, h1, ?_⟩
        intro x hx
        cases hx
        exact hc

theorem fails_NL_text {b r : Str} (hb : NoNewline b) (hr : (∃ c ∈ b, isSpTab c = false) ∨ r = []) : Fails skip (Base.NL : Expr Rule) .atomic (b ++ r) := by
  refine fails_NL lineSkip ?_
  rcases hr with hr | rfl
  · exact no_lineEnd hb (Or.inl hr)
  · intro sp rest e _
    cases rest with
    | nil => exact headNot_nil _
    | cons c t => exact headNot_cons.2 (hb c (by simp at e; simp [e]))

/-- `(!NL ~ ANY)*` -/
theorem out_untilNL {b sp r : Str} (hb : NoNewline b) (hsp : ∀ c ∈ sp, isSpTab c = true) (hr : AtLineEnd r)
    (hl : (r = [] ∧ sp = []) ∨ (r ≠ [] ∧ ∀ c, b.getLast? = some c → isSpTab c = false)) :
    Out skip K (.star ((.not Base.NL) ⬝ .any)) .atomic b (sp ++ r) ([] : List (Tree Rule)) := by
  refine out_until_text (by decide) (fun p c q e => ?_) ?_
  · have hn : NoNewline (c :: q) := fun d hd => hb d (by rw [e]; exact List.mem_append_right _ hd)
    rw [← List.cons_append]
    refine fails_NL_text hn ?_
    rcases hl with ⟨rfl, rfl⟩ | ⟨_, hl⟩
    · exact Or.inr rfl
    · refine Or.inl ⟨(c :: q).getLast (by simp), List.getLast_mem _, hl _ ?_⟩
      rw [e, List.getLast?_append, List.getLast?_eq_some_getLast (by simp : c :: q ≠ [])]
      rfl
  · rcases hl with ⟨rfl, rfl⟩ | ⟨hne, _⟩
    · exact fails_until_nil lineSkip.ok (by rfl) (by decide)
    · cases r with
      | nil => exact absurd rfl hne
      | cons c t => exact fails_until_ok ⟨0, [], nl_ok_blanks lineSkip (by decide) hsp (by simpa using headNot_cons.1 hr)⟩

theorem not_mark {t : Str} (h : t.head? ≠ some '[' ∧ t.head? ≠ some '#') :
    Out skip K (.not ((.str c!"[") ∥ (.str c!"#"))) .atomic [] t ([] : List (Tree Rule)) := by
  refine ⟨rfl, rfl, (fails_alt_iff (hu _ _ rfl)).2 ⟨fails_str.2 ?_, fails_str.2 ?_⟩⟩
  · rintro ⟨u, hu⟩
    exact h.1 (by rw [← hu]; rfl)
  · rintro ⟨u, hu⟩
    exact h.2 (by rw [← hu]; rfl)

theorem pb_broken {starts : Str → Prop} {s r : Str} (h : IsBroken starts s) (hr : AtLineEnd r) :
    ∃ v, P Peg.Sct.broken s r [.node .broken v []] := by
  have hn : NoNewline s := fun c hc => not_newline_iff.2 (h.line c hc)
  have hk : K [] (s ++ r) := by
    refine k_plain (isStart_plain h.start h.head.1 fun t _ e => ?_)
    subst e
    exact absurd (headNot_cons.1 hr) (by decide)
  have mk : ∀ b sp, s = b ++ sp → (∀ c ∈ sp, isSpTab c = true) → b ≠ [] →
      ((r = [] ∧ sp = []) ∨ (r ≠ [] ∧ ∀ c, b.getLast? = some c → isSpTab c = false)) → ∃ v, P Peg.Sct.broken s r [.node .broken v []] := by
    rintro b sp rfl hsp hb hl
    refine ⟨b, ⟨b, sp, rfl, out_rule_atomic ((out_seq_atomic (by decide)).2 ⟨[], b, [], [], rfl, rfl, not_mark ?_, ?_⟩), ?_⟩, hk⟩
    · cases b with
      | nil => exact absurd rfl hb
      | cons c b => simpa using h.head.2
    · exact out_untilNL (fun c hc => hn c (by simp [hc])) hsp hr hl
    · exact lineSkip.spaces (fun c hc => lineSkip.blank c (hsp c hc)) (plain_lineEnd apart hr)
  by_cases hne : r = []
  · exact mk s [] (by simp) (by simp) h.head.1 (Or.inl ⟨hne, rfl⟩)
  · obtain ⟨b, sp, e, h1, h2⟩ := trim_end s
    refine mk b sp e h1 ?_ (Or.inr ⟨hne, h2⟩)
    rintro rfl
    rw [List.nil_append] at e
    subst e
    cases s with
    | nil => exact h.head.1 rfl
    | cons c t => exact h.start.1 c rfl (Or.inl (blankChar_iff.1 (h1 c List.mem_cons_self)))

/-- An empty rest of the file is such a line, too. -/
theorem blk_broken_nil : Blk skip K Peg.Sct.broken [] [] [.node .broken [] []] := by
  refine blk_of_out (out_rule_atomic ((out_seq_atomic (by decide)).2 ⟨[], [], [], [], rfl, rfl, not_mark (by simp), ?_⟩)) (k_plain plain_nil)
  exact out_untilNL (b := []) (sp := []) (by simp [NoNewline]) (by simp) (headNot_nil _) (Or.inl ⟨rfl, rfl⟩)

/-! ## Regions -/

theorem k_lines {brk t : Str} (hb : IsBreak brk) : K [] (brk ++ t) := k_end (break_lineEnd hb)

theorem start_of_k {t r : Str} (hk : K [] (t ++ r)) (h : ∃ c u, t = c :: u ∧ isNewlineChar c = false) : Start (t ++ r) := by
  obtain ⟨c, u, rfl, hc⟩ := h
  exact ⟨plain_k hk, headNot_cons.2 hc⟩

theorem lnText {A : Type} (txt : A → Str) (l : Ln A) (r : Str) : Ln.text txt l ++ r = l.brk ++ (txt l.body ++ l.tail ++ r) := by
  simp [Ln.text]

theorem break_ne {brk : Str} (h : IsBreak brk) : brk ≠ [] := by
  obtain ⟨c, t, rfl, _⟩ := h
  simp

/-- Lines of one kind, each with the line ends in front. -/
theorem blks_lines {A V : Type} {x : Expr Rule} {f : Tree Rule → V} {txt : A → Str} {valid : A → Prop} {val : A → V}
    (hx : ∀ a tl r, valid a → IsTail tl → AtLineEnd r → ∃ tr, P x (txt a ++ tl) r [tr] ∧ f tr = val a)
    (hfirst : ∀ a, valid a → ∃ c u, txt a = c :: u ∧ isNewlineChar c = false) {l : List (Ln A)} (hl : ∀ a ∈ l, a.Valid valid)
    {r : Str} (hr : AtLineEnd r) :
    Reps (Ln.text txt) (fun a r => ∃ tr, Blk skip K (Base.NL ⬝ x) (Ln.text txt a) r [tr] ∧ f tr = val a.body) l r ∧
      AtLineEnd (l.flatMap (Ln.text txt) ++ r) := by
  refine reps_of (fun a ha r hr => ?_) hr
  obtain ⟨h1, h2, h3⟩ := hl a ha
  obtain ⟨tr, hp, hf⟩ := hx a.body a.tail r h2 h3 hr
  refine ⟨⟨tr, ?_, hf⟩, ?_⟩
  · refine blk_nlThen h1 (start_of_k hp.2 ?_) hp.1
    obtain ⟨c, u, e, hc⟩ := hfirst a.body h2
    exact ⟨c, u ++ a.tail, by simp [e], hc⟩
  · rw [lnText]
    exact break_lineEnd h1

/-- The next thing is no coordinate. -/
def NoHemi (t : Str) : Prop := HeadNot (fun c => decide (c ∈ c!"NSWEnswe")) t

theorem out_name {n sp r : Str} (hn : ∀ c ∈ n, ¬ IsNewline c ∧ c ≠ '\t' ∧ c ≠ '[') (hl : ∀ c, n.getLast? = some c → ¬ IsBlankChar c)
    (hsp : ∀ c ∈ sp, IsBlankChar c) (hr : ∃ c t, r = c :: t ∧ isNewlineChar c = true) :
    Out skip K (.star ((.not (Base.NL ∥ (.str ['\t']) ∥ (.str c!"["))) ⬝ .any)) .atomic n (sp ++ r) ([] : List (Tree Rule)) := by
  refine out_until_text (by decide) (fun p c q e => ?_) ?_
  · have hmem : ∀ d ∈ c :: q, ¬ IsNewline d ∧ d ≠ '\t' ∧ d ≠ '[' := fun d hd => hn d (by rw [e]; exact List.mem_append_right _ hd)
    refine (fails_alt_iff (hu _ _ rfl)).2 ⟨?_, (fails_alt_iff (hu _ _ rfl)).2 ⟨fails_str.2 ?_, fails_str.2 ?_⟩⟩
    · rw [← List.cons_append]
      refine fails_NL_text (fun d hd => not_newline_iff.2 (hmem d hd).1) (Or.inl ⟨(c :: q).getLast (by simp), List.getLast_mem _, ?_⟩)
      have := hl ((c :: q).getLast (by simp)) (by
        rw [e, List.getLast?_append, List.getLast?_eq_some_getLast (by simp : c :: q ≠ [])]; rfl)
      cases hb : isSpTab ((c :: q).getLast (by simp)) with
      | false => rfl
      | true => exact absurd (blankChar_iff.1 hb) this
    · simp only [List.cons_prefix_cons, List.nil_prefix, and_true]
      exact fun e' => (hmem c List.mem_cons_self).2.1 e'.symm
    · simp only [List.cons_prefix_cons, List.nil_prefix, and_true]
      exact fun e' => (hmem c List.mem_cons_self).2.2 e'.symm
  · obtain ⟨c, t, rfl, hc⟩ := hr
    obtain ⟨st, ts, h1⟩ := nl_ok_blanks (R := Rule) lineSkip (a := .atomic) (by decide) (fun c hc => blankChar_iff.2 (hsp c hc)) (t := t) hc
    exact fails_until_ok ⟨0, [], st, ts, by simp only [eval, h1]⟩

theorem break_head {brk t : Str} (h : IsBreak brk) : ∃ c u, brk ++ t = c :: u ∧ isNewlineChar c = true := by
  obtain ⟨c, u, rfl, hc, _⟩ := h
  exact ⟨c, u ++ t, rfl, newline_iff.2 hc⟩

theorem pb_optNL {brk r : Str} (hb : IsBreak brk) (hr : Start r) : P (.opt Base.NL) brk r [] :=
  ⟨blk_opt_some (blk_brk hb hr), k_end (by simpa using break_lineEnd (r := r) hb)⟩

section
variable {F : Type} [F64 F] [DmsArith F] (num : Str → F) (hnum : ∀ s, IsDecimal s → F64.ofText s = some (num s))

include hnum in
theorem entry_region {g : RegionText} {r : Str} (h : g.Valid) (hr : Next NoHemi r) :
    Entry Peg.Sct.region .region parseRegion (gated g.Fits (g.value num)) g.text r := by
  obtain ⟨h1, ⟨hn1, hn2, hn3, hn4⟩, h3, h4, h5, h6, h7, h8, h9⟩ := h
  have hlines := blks_lines (x := Peg.Sct.sct_coordinate) (f := parseCoordinate (F := F)) (txt := CoordText.text) (valid := CoordText.Valid)
    (val := fun c => gated c.Fits (c.point num)) (fun a tl r ha ht hr => ⟨coordTree a, pb_tail (seg_coord ha) ht hr, read_coordTree num hnum ha⟩)
    (fun a ha => coord_first ha) h9 hr.lineEnd
  obtain ⟨ts, b1, e1⟩ := blk_star_read lineSkip.exact (hu .nonAtomic (Base.NL ⬝ Peg.Sct.sct_coordinate) rfl) hlines.1
    (fails_next rfl hr fun t ht => fails_coord ht) (k_end hr.lineEnd)
  refine entry_of (kids := [.node .name g.name []] ++ ([.node .colour_name g.colour []] ++ ([coordTree g.first] ++ ts))) ?_ ?_
  · have c1 := pb_thenStop (seg_colourName h5) h6 (pb_seq (pb_tail (seg_coord h7) h8 hlines.2) b1)
    have c2 := pb_seq (pb_optNL h4 (start_of_k c1.2 (by
      obtain ⟨c, u, e, hc⟩ := colour_head h5
      exact ⟨c, _, by rw [e]; rfl, (head_parts (head_of (by decide) hc)).2.1⟩))) c1.1
    have kname : ∀ t, K [] (g.name ++ (g.blanks ++ (g.brk ++ t))) := fun t => by
      refine k_plain (isStart_plain hn2 hn1 fun u _ e => ?_)
      obtain ⟨c, v, ev, hc⟩ := break_head (t := t) h4
      rw [ev] at e
      cases hb : g.blanks with
      | nil =>
        rw [hb] at e
        cases e
        exact absurd hc (by decide)
      | cons d w =>
        rw [hb] at e
        have : d = '/' := by simpa using congrArg List.head? e
        have hd := h3 d (by rw [hb]; exact List.mem_cons_self)
        rw [this] at hd
        rcases hd with hd | hd <;> exact absurd hd (by decide)
    have c3 : ∀ t, P Peg.Sct.name (g.name ++ g.blanks) (g.brk ++ t) [.node .name g.name []] := fun t =>
      ⟨blk_gap (out_rule_atomic (out_name hn3 hn4 h3 (break_head h4))) (k_gap (areBlanks_of h3) (k_lines h4)), by
        rw [List.append_assoc]; exact kname _⟩
    have c4 := pb_seq (by rw [List.append_assoc]; exact c3 _) c2.1
    have c5 := pb_thenStop (seg_opt (seg_str (c := 'R') (w := c!"EGIONNAME") (by decide))) h1 c4
    have e3 : g.text = c!"REGIONNAME" ++ (g.gap ++ (g.name ++ g.blanks ++ (g.brk ++ (g.colour ++ (g.gap' ++ (g.first.text ++ g.tail ++
        g.more.flatMap (Ln.text CoordText.text))))))) := by simp [RegionText.text]
    rw [e3]
    exact c5
  · intro s
    show ((coordTree g.first :: ts).mapM parseCoordinate).bind _ = _
    have e2 : (coordTree g.first :: ts).map (parseCoordinate (F := F)) = g.points.map fun c => gated c.Fits (c.point num) := by
      rw [List.map_cons, e1, read_coordTree num hnum h7]
      simp [RegionText.points]
    rw [mapM_of_map e2, mapM_gated]
    exact gated_ok rfl

/-- A region does not start with a bracket. -/
theorem fails_region {t : Str} (h : t = [] ∨ ∃ u, t = '[' :: u) : Fails skip Peg.Sct.region .nonAtomic t := by
  have hk : K [] t := by
    rcases h with rfl | ⟨u, rfl⟩
    · exact k_plain plain_nil
    · exact k_cons (by decide)
  have hst : Start t := by
    rcases h with rfl | ⟨u, rfl⟩
    · exact start_nil
    · exact start_cons (by decide)
  have fs : ∀ {x y : Expr Rule} {u : List (Tree Rule)}, plain x = true → wf x = true → plain y = true → Blk skip K x [] t u →
      Fails skip y .nonAtomic t → Fails skip (x ⬝ y) .nonAtomic t := fun h1 h2 h3 h4 h5 =>
    fails_seq_right lineSkip.uniform lineSkip.exact h1 h2 (hu _ _ h3) h4 h5
  refine fails_rule ?_
  refine fs rfl rfl rfl (blk_opt_none (fails_str.2 ?_) hk) ?_
  · rintro ⟨w, hw⟩
    rcases h with rfl | ⟨u, rfl⟩ <;> cases hw
  refine fs (u := [.node .name [] []]) rfl rfl rfl (blk_of_out (out_rule_atomic ?_) hk) ?_
  · refine Or.inl ⟨rfl, rfl, ?_⟩
    rcases h with rfl | ⟨u, rfl⟩
    · exact fails_until_nil lineSkip.ok (by rfl) (by decide)
    · exact fails_until_ok (alt_ok_right lineSkip.ok (by rfl) (alt_ok_right lineSkip.ok (by rfl) (str_ok (w := c!"[") (r := u))))
  refine fs rfl rfl rfl (blk_opt_none (fails_plus (fails_nlOne lineSkip hst.1 hst.2)) hk) ?_
  refine fails_seq_left (fails_colourName ?_)
  rcases h with rfl | ⟨u, rfl⟩
  · exact headNot_nil _
  · exact headNot_cons.2 (by decide)

end

end Verif.Proofs.Sct
