import Verif.Peg.Seg
import Verif.Proofs.SymbolRule
import Verif.Spec.Topsky
/-!
# Comments, line ends and texts in TopSky files
-/

namespace Verif.Proofs.Topsky
open Verif.Peg Verif.Peg.Topsky Verif.Spec Verif.Spec.Topsky
open Verif.Proofs.SymbolRule (Good)

section
variable {R : Type} {sk : St → Res R} {K : Str → Str → Prop}

/-! ## Line ends -/

/-- Nothing but blanks is left on the line. -/
def LineOver (r : Str) : Prop :=
  r = [] ∨ ∃ sp c t, r = sp ++ c :: t ∧ (∀ d ∈ sp, isSpTab d = true) ∧ isNewlineChar c = true

/-- `NL` inside a token fails where no line end follows the blanks. -/
theorem fails_NL (g : Good sk K) {t : Str}
    (ht : ∀ sp rest, t = sp ++ rest → (∀ c ∈ sp, isSpTab c = true) → HeadNot isNewlineChar rest) :
    Fails sk Base.NL .atomic t := by
  refine fails_plus (fails_of_not_out g.ok (by rfl) ?_)
  intro s r' ts e ho
  obtain ⟨s1, s2, t1, t2, rfl, rfl, h1, h2⟩ := (out_seq_atomic (by decide)).1 ho
  have hl := (out_newline_iff.1 h2).1
  have hs := ((likeCls_spTab (sk := sk) (K := K) .atomic g.uniform).star (by decide)).1 h1
  have := ht s1 (s2 ++ r') (by simp [e]) hs.1
  rcases hl with rfl | rfl | ⟨rfl, _⟩ <;> exact absurd (headNot_cons.1 this) (by decide)

/-- What `NL` matches starts with a line end behind blanks. -/
theorem out_NL_head (g : Good sk K) {a : Atom} (ha : a ≠ .nonAtomic) {s r : Str} {ts : List (Tree R)}
    (ho : Out sk K Base.NL a s r ts) : ∃ sp c t, s = sp ++ c :: t ∧ (∀ d ∈ sp, isSpTab d = true) ∧ isNewlineChar c = true := by
  obtain ⟨s1, s2, t1, t2, rfl, rfl, h1, _⟩ := (out_seq_atomic ha).1 ho
  obtain ⟨s3, s4, t3, t4, rfl, rfl, h3, h4⟩ := (out_seq_atomic ha).1 h1
  have hs := ((likeCls_spTab (sk := sk) (K := K) a g.uniform).star ha).1 h3
  rcases (out_newline_iff.1 h4).1 with rfl | rfl | ⟨rfl, _⟩
  · exact ⟨s3, '\n', s2, by simp, hs.1, by decide⟩
  · exact ⟨s3, '\r', '\n' :: s2, by simp, hs.1, by decide⟩
  · exact ⟨s3, '\r', s2, by simp, hs.1, by decide⟩

/-- `NL` matches at a line end behind blanks. -/
theorem nl_ok (g : Good sk K) {a : Atom} (ha : a ≠ .nonAtomic) {sp t : Str} {c : Char}
    (hs : ∀ d ∈ sp, isSpTab d = true) (hc : isNewlineChar c = true) :
    ∃ st ts, eval sk (Base.NL : Expr R) a ⟨0, sp ++ c :: t, []⟩ = .ok st ts := by
  refine plus_ok g.ok (x := nlOne) (a := a) (by rfl) ?_
  have o1 : ∀ nl r, LineEnd nl r → Out sk K (nlOne : Expr R) a (sp ++ nl) r [] := fun nl r hl => by
    refine (out_seq_atomic ha).2 ⟨sp, nl, [], [], rfl, rfl, ?_, out_newline_iff.2 ⟨hl, rfl⟩⟩
    refine ((likeCls_spTab (sk := sk) (K := K) a g.uniform).star ha).2 ⟨hs, ?_, rfl⟩
    rcases hl with rfl | rfl | ⟨rfl, _⟩ <;> exact headNot_cons.2 (by decide)
  have key : ∀ nl r, LineEnd nl r → c :: t = nl ++ r → ∃ st ts, eval sk (nlOne : Expr R) a ⟨0, sp ++ c :: t, []⟩ = .ok st ts := fun nl r hl e =>
    ⟨_, _, out_eval g.uniform g.exact nlOne (by rfl) (by rfl) a _ _ _ ⟨0, sp ++ c :: t, []⟩ (o1 nl r hl) (by simp [e])⟩
  rcases newline_iff.1 hc with rfl | rfl
  · exact key ['\n'] t (Or.inl rfl) rfl
  · by_cases ht : t.head? = some '\n'
    · cases t with
      | nil => cases ht
      | cons d t => cases ht; exact key ['\r', '\n'] t (Or.inr (Or.inl rfl)) rfl
    · exact key ['\r'] t (Or.inr (Or.inr ⟨rfl, ht⟩)) rfl

/-- A text up to the end of the line fails to go on there. -/
theorem fails_until_over (g : Good sk K) {x : Expr R} (hw : wf x = true) {r : Str} (hr : LineOver r) :
    Fails sk ((.not (Base.NL ∥ x)) ⬝ .any) .atomic r := by
  rcases hr with rfl | ⟨sp, c, t, rfl, h1, h2⟩
  · exact fails_until_nil g.ok (by simp [wf, hw]; rfl) (by decide)
  · obtain ⟨st, ts, h⟩ := nl_ok g (a := .atomic) (by decide) h1 h2 (t := t)
    exact fails_until_ok ⟨0, [], st, ts, by simp only [eval, h]⟩

theorem fails_untilNL_over (g : Good sk K) {r : Str} (hr : LineOver r) :
    Fails sk ((.not Base.NL) ⬝ .any) .atomic r := by
  rcases hr with rfl | ⟨sp, c, t, rfl, h1, h2⟩
  · exact fails_until_nil g.ok (by rfl) (by decide)
  · obtain ⟨st, ts, h⟩ := nl_ok g (a := .atomic) (by decide) h1 h2 (t := t)
    exact fails_until_ok ⟨0, [], st, ts, h⟩

/-- What stands before the end of the line: the text does not end with a blank, or a visible character follows. -/
def Visible (v r : Str) : Prop :=
  (∀ c, v.getLast? = some c → isSpTab c = false) ∨ r = [] ∨ ∃ c t, r = c :: t ∧ isSpTab c = false ∧ isNewlineChar c = false

/-- `NL` fails inside the text. -/
theorem fails_NL_in (g : Good sk K) {v r p q : Str} {c : Char} (hv : ∀ c ∈ v, isNewlineChar c = false)
    (hr : Visible v r) (e : v = p ++ c :: q) : Fails sk Base.NL .atomic (c :: (q ++ r)) := by
  have hn : ∀ d ∈ c :: q, isNewlineChar d = false := fun d hd => hv d (by simp [e, List.mem_cons.1 hd])
  refine fails_NL g ?_
  rcases hr with hr | rfl | hr
  · have := no_lineEnd (v := c :: q) (r := r) hn (Or.inl ⟨(c :: q).getLast (by simp), List.getLast_mem _, hr _ (by
      rw [e, List.getLast?_append, List.getLast?_eq_some_getLast (by simp : c :: q ≠ [])]; rfl)⟩)
    simpa using this
  · intro sp rest e2 _
    cases rest with
    | nil => exact headNot_nil _
    | cons d rest =>
      refine headNot_cons.2 (hn d ?_)
      rw [show c :: q = sp ++ d :: rest by simpa using e2]
      simp
  · have := no_lineEnd (v := c :: q) (r := r) hn (Or.inr hr)
    simpa using this

/-- `(!(NL | x) ~ ANY)*` in front of something `x` matches, or of the end of the line. -/
theorem out_stop (g : Good sk K) {x : Expr R} {p : Char → Bool} (hx : LikeCls sk K x .atomic p) (hw : wf x = true)
    {v r : Str} (hv : ∀ c ∈ v, p c = false ∧ isNewlineChar c = false)
    (hr : Visible v r) (hf : LineOver r ∨ ∃ c t, r = c :: t ∧ p c = true) :
    Out sk K (.star ((.not (Base.NL ∥ x)) ⬝ .any)) .atomic v r [] := by
  refine out_until_text (by decide) (fun a c q e => ?_) ?_
  · refine (fails_alt_iff (uniform_eval g.uniform Base.NL rfl _)).2 ⟨fails_NL_in g (fun c hc => (hv c hc).2) hr e, ?_⟩
    exact (hx.fails _).2 (headNot_cons.2 (hv c (by simp [e])).1)
  · rcases hf with hf | ⟨c, t, rfl, hc⟩
    · exact fails_until_over g hw hf
    · have he : ∃ pos stk st ts, eval sk x .atomic ⟨pos, c :: t, stk⟩ = .ok st ts := by
        cases h : eval sk x .atomic ⟨0, c :: t, []⟩ with
        | ok st ts => exact ⟨_, _, st, ts, h⟩
        | diverge => exact absurd h (eval_ne_diverge g.ok _ hw _ _)
        | fail =>
          have := headNot_cons.1 ((hx.fails _).1 ⟨0, [], h⟩)
          rw [hc] at this; cases this
      exact fails_until_ok (alt_ok_right g.ok (by simp [wf, hw]; rfl) he)

end

/-! ## Comments -/

theorem good0 {R : Type} : Good (R := R) noSkip NoGap := ⟨noSkip_ok, noSkip_exact, uniform_noSkip⟩

abbrev K : Str → Str → Prop := Blank [COMMENT]

theorem good : Good skip K := ⟨skipOne_ok rfl, skipOne_exact rfl rfl, uniform_skipOne rfl⟩

theorem mem_marks {w : Str} : w ∈ marks ↔ w = c!"//" ∨ w = c!";" := by simp [marks]

/-- A comment with the blanks in front of it. -/
def IsComment (s : Str) : Prop :=
  ∃ sp w body, s = sp ++ (w ++ body) ∧ (∀ d ∈ sp, isSpTab d = true) ∧ w ∈ marks ∧ ∀ d ∈ body, isNewlineChar d = false

theorem blankChar_false {c : Char} : isSpTab c = false ↔ ¬ IsBlankChar c := by
  rw [← blankChar_iff]; simp

theorem starts_blanks {sp t : Str} (h : ∀ d ∈ sp, isSpTab d = true) : startsComment (sp ++ t) = startsComment t := by
  induction sp with
  | nil => rfl
  | cons c sp ih =>
    have hc : IsBlankChar c := blankChar_iff.1 (h c List.mem_cons_self)
    simp only [List.cons_append, startsComment, hc, if_true]
    exact ih fun d hd => h d (List.mem_cons_of_mem _ hd)

theorem starts_mark {w t : Str} (hw : w ∈ marks) : startsComment (w ++ t) = true := by
  rcases mem_marks.1 hw with rfl | rfl <;> rfl

theorem starts_newline {c : Char} {t : Str} (hc : isNewlineChar c = true) : startsComment (c :: t) = false := by
  rcases newline_iff.1 hc with rfl | rfl <;> rfl

theorem starts_over {r : Str} (h : LineOver r) : startsComment r = false := by
  rcases h with rfl | ⟨sp, c, t, rfl, h1, h2⟩
  · rfl
  · rw [starts_blanks h1, starts_newline h2]

theorem starts_cases {r : Str} (h : startsComment r = true) :
    ∃ sp w t, r = sp ++ (w ++ t) ∧ (∀ d ∈ sp, isSpTab d = true) ∧ w ∈ marks := by
  induction r with
  | nil => cases h
  | cons c t ih =>
    by_cases hc : IsBlankChar c
    · simp only [startsComment, hc, if_true] at h
      obtain ⟨sp, w, u, rfl, h1, h2⟩ := ih h
      exact ⟨c :: sp, w, u, rfl, (by
        intro d hd
        rcases List.mem_cons.1 hd with rfl | hd
        · exact blankChar_iff.2 hc
        · exact h1 d hd), h2⟩
    · simp only [startsComment, hc, if_false, Bool.or_eq_true, Bool.and_eq_true, beq_iff_eq] at h
      rcases h with rfl | ⟨rfl, h⟩
      · exact ⟨[], c!";", t, rfl, by simp, by simp [marks]⟩
      · cases t with
        | nil => cases h
        | cons d t =>
          cases h
          exact ⟨[], c!"//", t, rfl, by simp, by simp [marks]⟩

/-- A text that goes on fails to do so only at the end of the line. -/
theorem over_of_fails {R : Type} {sk : St → Res R} {K : Str → Str → Prop} (g : Good sk K) {r : Str}
    (h : Fails sk ((.not Base.NL) ⬝ .any) .atomic r) : LineOver r := by
  by_cases hr : LineOver r
  · exact hr
  · exfalso
    cases r with
    | nil => exact hr (Or.inl rfl)
    | cons c t =>
      have hf : Fails sk Base.NL .atomic (c :: t) := fails_NL g fun sp rest e hs => by
        cases rest with
        | nil => exact headNot_nil _
        | cons d rest =>
          refine headNot_cons.2 ?_
          cases hd : isNewlineChar d with
          | false => rfl
          | true => exact absurd (Or.inr ⟨sp, d, rest, e, hs, hd⟩) hr
      have o : Out sk K ((.not Base.NL) ⬝ .any) .atomic [c] t [] :=
        ⟨[], [], [c], [], [], rfl, gap_refl (by decide) _, ⟨rfl, rfl, by simpa using hf⟩, ⟨c, rfl, rfl, rfl⟩, rfl⟩
      have e := out_eval g.uniform g.exact _ (by rfl) (by rfl) _ _ _ _ (⟨0, c :: t, []⟩ : St) o rfl
      rw [(uniform_eval g.uniform ((.not Base.NL) ⬝ .any) (by rfl) .atomic).fail_of h ⟨0, c :: t, []⟩ rfl] at e
      cases e

theorem comment_out {s r : Str} {ts : List (Tree Rule)} (h : Out noSkip NoGap COMMENT .atomic s r ts) :
    IsComment s ∧ LineOver r ∧ ts = [] := by
  have h : Out noSkip NoGap ((.star ((.str c!" ") ∥ (.str ['\t']))) ⬝ ((.str c!"//") ∥ (.str c!";")) ⬝
    (.star ((.not NL) ⬝ .any))) .atomic s r ts := h
  obtain ⟨sp, s2, t1, t2, rfl, rfl, h1, h2⟩ := (out_seq_atomic (by decide)).1 h
  obtain ⟨w, body, t3, t4, rfl, rfl, h3, h4⟩ := (out_seq_atomic (by decide)).1 h2
  have hs := ((likeCls_spTab (sk := noSkip) (K := NoGap) .atomic uniform_noSkip).star (by decide)).1 h1
  have hw : w ∈ marks ∧ t3 = [] := by
    rcases h3 with ⟨rfl, rfl⟩ | ⟨⟨rfl, rfl⟩, _⟩ <;> simp [marks]
  have hb := out_star_of (P := fun c => isNewlineChar c = false) (by decide) (fun s r ts ho => by
    obtain ⟨s5, s6, t5, t6, rfl, rfl, h5, h6⟩ := (out_seq_atomic (by decide)).1 ho
    obtain ⟨rfl, rfl, hf⟩ := h5
    obtain ⟨c, rfl, _, rfl⟩ := h6
    refine ⟨rfl, fun d hd => ?_⟩
    rw [List.nil_append, List.mem_singleton] at hd
    subst hd
    cases hc : isNewlineChar d with
    | false => rfl
    | true =>
      obtain ⟨st, us, e⟩ := nl_ok good0 (R := Rule) (a := .atomic) (by decide) (sp := []) (by simp) hc (t := r)
      have := (uniform_eval uniform_noSkip (Base.NL : Expr Rule) (by rfl) .atomic).fail_of hf ⟨0, d :: r, []⟩ rfl
      simp only [List.nil_append] at e
      rw [e] at this
      cases this) h4
  refine ⟨⟨sp, w, body, rfl, hs.1, hw.1, hb.2⟩, over_of_fails good0 (R := Rule) ?_, by simp [hs.2.2, hw.2, hb.1]⟩
  rcases h4 with ⟨_, _, hf⟩ | ⟨_, _, _, _, _, _, _, hf⟩
  · exact hf
  · exact (skip_fails (by decide)).1 hf

/-- A comment and the blanks in front of it, up to the end of the line. -/
theorem comment_build {sp w body r : Str} (h1 : ∀ d ∈ sp, isSpTab d = true) (h2 : w ∈ marks)
    (h3 : ∀ d ∈ body, isNewlineChar d = false) (hv : Visible body r) (hr : LineOver r) :
    Out noSkip NoGap COMMENT .atomic (sp ++ (w ++ body)) r [] := by
  show Out noSkip NoGap ((.star ((.str c!" ") ∥ (.str ['\t']))) ⬝ ((.str c!"//") ∥ (.str c!";")) ⬝
    (.star ((.not NL) ⬝ .any))) .atomic (sp ++ (w ++ body)) r []
  refine (out_seq_atomic (by decide)).2 ⟨sp, w ++ body, [], [], rfl, rfl, ?_, ?_⟩
  · refine ((likeCls_spTab (sk := noSkip) (K := NoGap) .atomic uniform_noSkip).star (by decide)).2 ⟨h1, ?_, rfl⟩
    rcases mem_marks.1 h2 with rfl | rfl <;> exact headNot_cons.2 (by decide)
  · refine (out_seq_atomic (by decide)).2 ⟨w, body, [], [], rfl, rfl, ?_, ?_⟩
    · rcases mem_marks.1 h2 with rfl | rfl
      · exact Or.inl ⟨rfl, rfl⟩
      · exact Or.inr ⟨⟨rfl, rfl⟩, fails_str.2 (by simp)⟩
    · exact out_until_text (by decide) (fun p c q e => fails_NL_in good0 h3 hv e) (fails_untilNL_over good0 hr)

/-- Blanks at the end of a text. -/
theorem trim_end (s : Str) : ∃ b sp, s = b ++ sp ∧ (∀ d ∈ sp, isSpTab d = true) ∧
    ∀ c, b.getLast? = some c → isSpTab c = false := by
  generalize hn : s.length = n
  induction n generalizing s with
  | zero =>
    have : s = [] := by simpa using hn
    subst this
    exact ⟨[], [], rfl, by simp, by simp⟩
  | succ n ih =>
    have hne : s ≠ [] := by rintro rfl; cases hn
    have hs := (List.dropLast_concat_getLast hne).symm
    by_cases hb : isSpTab (s.getLast hne) = true
    · obtain ⟨b, sp, e, h1, h2⟩ := ih s.dropLast (by simp [hn])
      refine ⟨b, sp ++ [s.getLast hne], ?_, ?_, h2⟩
      · rw [← List.append_assoc, ← e, ← hs]
      · intro d hd
        rcases List.mem_append.1 hd with hd | hd
        · exact h1 d hd
        · rw [List.mem_singleton] at hd
          rw [hd]
          exact hb
    · refine ⟨s, [], by simp, by simp, fun c hc => ?_⟩
      rw [List.getLast?_eq_some_getLast hne] at hc
      cases hc
      simpa using hb

/-- Where a comment starts the rule for comments matches. -/
theorem comment_exists {r : Str} (h : startsComment r = true) :
    ∃ s r', r = s ++ r' ∧ Out noSkip NoGap COMMENT .atomic s r' [] := by
  obtain ⟨sp, w, t, rfl, h1, h2⟩ := starts_cases h
  have key : ∃ b r', t = b ++ r' ∧ (∀ d ∈ b, isNewlineChar d = false) ∧ AtLineEnd r' := by
    refine ⟨t.takeWhile (fun c => !isNewlineChar c), t.dropWhile (fun c => !isNewlineChar c), by simp, fun d hd => ?_, ?_⟩
    · have := List.all_eq_true.1 (List.all_takeWhile (p := fun c => !isNewlineChar c) (l := t)) d hd
      simpa using this
    · cases ht : t.dropWhile (fun c => !isNewlineChar c) with
      | nil => exact headNot_nil _
      | cons d u =>
        have := List.head_dropWhile_not (fun c => !isNewlineChar c) (l := t) (by rw [ht]; simp)
        refine headNot_cons.2 ?_
        simpa [ht] using this
  obtain ⟨b, r', rfl, hb, hr⟩ := key
  cases r' with
  | nil => exact ⟨sp ++ (w ++ b), [], by simp, comment_build h1 h2 hb (Or.inr (Or.inl rfl)) (Or.inl rfl)⟩
  | cons c r' =>
    obtain ⟨u, sp', rfl, h3, h4⟩ := trim_end b
    refine ⟨sp ++ (w ++ u), sp' ++ c :: r', by simp, comment_build h1 h2 (fun d hd => hb d (by simp [hd])) (Or.inl h4)
      (Or.inr ⟨sp', c, r', rfl, h3, by simpa using headNot_cons.1 hr⟩)⟩

theorem starts_comment {s r : Str} (h : IsComment s) : startsComment (s ++ r) = true := by
  obtain ⟨sp, w, body, rfl, h1, h2, _⟩ := h
  rw [List.append_assoc, starts_blanks h1, List.append_assoc, starts_mark h2]

theorem comment_fails {r : Str} : Fails noSkip COMMENT .atomic r ↔ startsComment r = false := by
  constructor
  · intro h
    cases hs : startsComment r with
    | false => rfl
    | true =>
      exfalso
      obtain ⟨s, r', rfl, o⟩ := comment_exists hs
      have e := out_eval uniform_noSkip noSkip_exact COMMENT (by rfl) (by rfl) _ _ _ _ (⟨0, s ++ r', []⟩ : St) o rfl
      rw [(uniform_eval uniform_noSkip COMMENT (by rfl) .atomic).fail_of h ⟨0, s ++ r', []⟩ rfl] at e
      cases e
  · intro h
    refine fails_of_not_out noSkip_ok (by rfl) ?_
    intro s r' ts e ho
    have := starts_comment (r := r') (comment_out ho).1
    rw [← e, h] at this
    cases this

/-! ## What is skipped -/

theorem k_nil {r : Str} (h : startsComment r = false) : K [] r :=
  ⟨⟨[], rfl, trivial⟩, by simpa using comment_fails.2 h⟩

theorem k_comment {m r : Str} (h : Out noSkip NoGap COMMENT .atomic m r []) : K m r :=
  ⟨⟨[m], by simp, ⟨⟨COMMENT, by simp, [], by simpa using h⟩, trivial⟩⟩,
    by simpa using comment_fails.2 (starts_over (comment_out h).2.1)⟩

theorem k_cases {m r : Str} (h : K m r) : startsComment r = false ∧ (m = [] ∨ (IsComment m ∧ LineOver r)) := by
  obtain ⟨⟨ps, rfl, hp⟩, hf⟩ := h
  refine ⟨comment_fails.1 (hf COMMENT (by simp)), ?_⟩
  cases ps with
  | nil => exact Or.inl rfl
  | cons p ps =>
    obtain ⟨⟨x, hx, ts, ho⟩, hp⟩ := hp
    rw [List.mem_singleton] at hx
    subst hx
    obtain ⟨h1, h2, _⟩ := comment_out ho
    cases ps with
    | nil => exact Or.inr ⟨by simpa using h1, by simpa using h2⟩
    | cons q ps =>
      obtain ⟨⟨x, hx, ts, ho⟩, hp⟩ := hp
      rw [List.mem_singleton] at hx
      subst hx
      have h3 := starts_comment (r := ps.flatMap (fun p => p) ++ r) (comment_out ho).1
      have h4 := starts_over h2
      rw [show (q :: ps).flatMap (fun p => p) ++ r = q ++ (ps.flatMap (fun p => p) ++ r) by simp, h3] at h4
      cases h4

theorem knil : KNil K := fun _ _ h => k_nil (k_cases h).1

end Verif.Proofs.Topsky
