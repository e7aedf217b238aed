import Verif.Proofs.TopskyFile
import Verif.Proofs.SymbolRuleSound
/-!
# TopSky symbol files: everything that is accepted has the described form

`Txt x Q`: whatever `x` matches satisfies, together with the comment that is skipped behind it, `Q` in front of the text
that follows.
-/

namespace Verif.Proofs.Topsky
open Verif.Peg Verif.Peg.Topsky Verif.Spec Verif.Spec.Topsky
open Verif.Proofs.SymbolRule (Good rulesE rule_text)
open Verif.Spec.Drawing (Drawing)

/-- See above. -/
def Txt (x : Expr Rule) (Q : Str → Str → Prop) : Prop :=
  ∀ s m r ts, Out skip K x .nonAtomic s (m ++ r) ts → K m r → K [] (s ++ (m ++ r)) → Q (s ++ m) r

/-- Nothing or a comment in front of the end of the line. -/
def Gap0 (m r : Str) : Prop := m = [] ∨ (IsComment m ∧ LineOver r)

theorem gap0 {m r : Str} (h : K m r) : Gap0 m r := (k_cases h).2

theorem noGap {m r : Str} (h : K m r) (h0 : K [] (m ++ r)) : m = [] := by
  rcases (k_cases h).2 with rfl | ⟨hc, _⟩
  · rfl
  · have := (k_cases h0).1
    rw [starts_comment hc] at this
    cases this

theorem txt_mono {x : Expr Rule} {P Q : Str → Str → Prop} (h : Txt x P) (hq : ∀ t r, P t r → Q t r) : Txt x Q :=
  fun s m r ts ho hk h0 => hq _ _ (h s m r ts ho hk h0)

theorem txt_rule {q : Rule} {x : Expr Rule} {Q : Str → Str → Prop} (h : Txt x Q) : Txt (.rule q .normal x) Q := by
  rintro s m r ts ⟨kids, ho, _⟩ hk h0
  exact h s m r kids ho hk h0

theorem txt_seq {x y : Expr Rule} {P Q : Str → Str → Prop} (hx : Txt x P) (hy : Txt y Q) :
    Txt (x ⬝ y) fun t r => ∃ t1 t2, t = t1 ++ t2 ∧ P t1 (t2 ++ r) ∧ Q t2 r := by
  rintro s m r ts ⟨s1, m1, s2, t1, t2, rfl, hg, o1, o2, rfl⟩ hk h0
  have hg : K m1 (s2 ++ (m ++ r)) := hg
  refine ⟨s1 ++ m1, s2 ++ m, by simp, ?_, hy s2 m r _ o2 hk (knil _ _ hg)⟩
  have := hx s1 m1 (s2 ++ (m ++ r)) _ o1 hg (by simpa using h0)
  simpa using this

theorem txt_str {w : Str} : Txt (.str w) fun t r => ∃ m, t = w ++ m ∧ Gap0 m r := by
  rintro s m r ts ⟨rfl, rfl⟩ hk _
  exact ⟨m, rfl, gap0 hk⟩

theorem txt_opt {x : Expr Rule} {Q : Str → Str → Prop} (hx : Txt x Q) : Txt (.opt x) fun t r => Q t r ∨ t = [] := by
  rintro s m r ts (ho | ⟨rfl, rfl, _⟩) hk h0
  · exact Or.inl (hx s m r ts ho hk h0)
  · exact Or.inr (by rw [noGap hk (by simpa using h0)]; rfl)

theorem txt_parts {x : Expr Rule} {Q : Str → Str → Prop} (hx : Txt x Q) {m r : Str} (hk : K m r) :
    ∀ (parts : List ((Str × Str) × List Tr)) (s1 : Str) (t1 : List Tr),
      Out skip K x .nonAtomic s1 (partsText parts ++ (m ++ r)) t1 → Parts skip K x parts (m ++ r) →
      K [] (s1 ++ (partsText parts ++ (m ++ r))) →
      ∃ l : List Str, l ≠ [] ∧ s1 ++ (partsText parts ++ m) = l.flatten ∧ InRow id Q l r
  | [], s1, t1, ho, _, h0 => by
    have := hx s1 m r t1 (by simpa [partsText] using ho) hk (by simpa [partsText] using h0)
    exact ⟨[s1 ++ m], by simp, by simp [partsText], by simpa using this, trivial⟩
  | p :: ps, s1, t1, ho, hp, h0 => by
    obtain ⟨⟨g, o⟩, hp⟩ := hp
    have g : K p.1.1 (p.1.2 ++ (partsText ps ++ (m ++ r))) := g
    have h1 := hx s1 p.1.1 (p.1.2 ++ (partsText ps ++ (m ++ r))) t1 (by simpa [partsText] using ho) g
      (by simpa [partsText] using h0)
    obtain ⟨l, _, e, h3⟩ := txt_parts hx hk ps p.1.2 p.2 o hp (knil _ _ g)
    refine ⟨(s1 ++ p.1.1) :: l, by simp, by simp [partsText, ← e], ?_, h3⟩
    have e2 : l.flatMap id ++ r = p.1.2 ++ (partsText ps ++ (m ++ r)) := by
      rw [show l.flatMap id = l.flatten by simp, ← e]; simp
    show Q _ _
    rw [e2]
    exact h1

theorem txt_star {x : Expr Rule} {Q : Str → Str → Prop} (hx : Txt x Q) :
    Txt (.star x) fun t r => ∃ l : List Str, t = l.flatten ∧ InRow id Q l r := by
  rintro s m r ts ho hk h0
  rcases ho with ⟨rfl, rfl, _⟩ | ⟨s1, t1, parts, rfl, rfl, o1, hp, _⟩
  · exact ⟨[], by rw [noGap hk (by simpa using h0)]; rfl, trivial⟩
  · obtain ⟨l, _, e, h⟩ := txt_parts hx hk parts s1 t1 o1 hp (by simpa using h0)
    exact ⟨l, by simpa using e, h⟩

theorem txt_plus {x : Expr Rule} {Q : Str → Str → Prop} (hx : Txt x Q) :
    Txt (.plus x) fun t r => ∃ l : List Str, l ≠ [] ∧ t = l.flatten ∧ InRow id Q l r := by
  refine txt_mono (x := x ⬝ (.star x)) (txt_seq hx (txt_star hx)) ?_
  rintro _ r ⟨t1, _, rfl, h1, l, rfl, h2⟩
  exact ⟨t1 :: l, by simp, rfl, by simpa using h1, h2⟩

/-- Elements in a row that all have a certain form, given that of the text that follows. -/
theorem rows {A : Type} {txt : A → Str} {ok : A → Str → Prop} {P : Str → Str → Prop} {C : Str → Prop}
    (h : ∀ t r, P t r → C r → (∃ a, t = txt a ∧ ok a r) ∧ C (t ++ r)) : ∀ {l : List Str} {r : Str}, InRow id P l r → C r →
      (∃ as : List A, l.flatten = as.flatMap txt ∧ InRow txt ok as r ∧ (l ≠ [] → as ≠ [])) ∧ C (l.flatten ++ r)
  | [], _, _, hr => ⟨⟨[], rfl, trivial, fun h => absurd rfl h⟩, hr⟩
  | t :: l, r, ⟨h1, h2⟩, hr => by
    obtain ⟨⟨as, e, h3, _⟩, h4⟩ := rows h h2 hr
    have h1 : P t (l.flatten ++ r) := by simpa using h1
    obtain ⟨⟨a, rfl, h5⟩, h6⟩ := h t _ h1 h4
    refine ⟨⟨a :: as, by simp [e], ⟨?_, h3⟩, by simp⟩, by simpa using h6⟩
    rw [← e]
    exact h5

/-! ## Line ends -/

/-- Ends of lines, and possibly a comment without one. -/
def Brk (f r : Str) : Prop := ∃ u m, f = u ++ m ∧ AreLines u ∧ Gap0 m r

/-- The same, starting with the end of a line. -/
def Brk1 (f r : Str) : Prop := ∃ sp c f', f = sp ++ c :: f' ∧ AreBlanks sp ∧ IsNewline c ∧ Brk f' r

theorem brk_comment {m f r : Str} (hm : Gap0 m (f ++ r)) (h : Brk1 f r) : Brk (m ++ f) r := by
  obtain ⟨sp, c, _, rfl, h1, h2, u, m', rfl, h3, h4⟩ := h
  rcases hm with rfl | ⟨⟨sp0, w, body, rfl, g1, g2, g3⟩, _⟩
  · exact ⟨sp ++ c :: u, m', by simp, by simpa using AreLines.line sp [] c u h1 (Or.inl rfl) h2 h3, h4⟩
  · refine ⟨sp0 ++ ((w ++ (body ++ sp)) ++ c :: u), m', by simp, ?_, h4⟩
    refine AreLines.line sp0 _ c u (fun d hd => blankChar_iff.1 (g1 d hd)) (Or.inr ⟨w, g2, body ++ sp, rfl, ?_⟩) h2 h3
    intro d hd
    rcases List.mem_append.1 hd with hd | hd
    · exact not_newline_iff.1 (g3 d hd)
    · rcases h1 d hd with rfl | rfl <;> decide

/-- One line end. -/
theorem txt_nlOne : Txt nlOne fun t r => ∃ sp nl m, t = sp ++ (nl ++ m) ∧ AreBlanks sp ∧ (nl = ['\n'] ∨ nl = ['\r', '\n'] ∨ nl = ['\r']) ∧ Gap0 m r := by
  rintro s m r ts ⟨s1, m1, s2, t1, t2, rfl, hg, h1, h2, _⟩ hk h0
  have hg : K m1 (s2 ++ (m ++ r)) := hg
  have hc := (k_cases h0).1
  obtain ⟨a, b⟩ := starOut_blanks h1 (by simpa using hc)
  have em : m1 = [] := by
    rcases (k_cases hg).2 with rfl | ⟨h3, _⟩
    · rfl
    · have b : startsComment (m1 ++ (s2 ++ (m ++ r))) = false := b
      rw [starts_comment h3] at b
      cases b
  subst em
  refine ⟨s1, s2, m, by simp, fun d hd => blankChar_iff.1 (a d hd), ?_, gap0 hk⟩
  rcases (out_newline_iff.1 h2).1 with h | h | ⟨h, _⟩
  · exact Or.inl h
  · exact Or.inr (Or.inl h)
  · exact Or.inr (Or.inr h)

theorem txt_NL : Txt NL Brk1 := by
  refine txt_mono (txt_plus txt_nlOne) ?_
  rintro _ r ⟨l, hne, rfl, hl⟩
  induction l with
  | nil => exact absurd rfl hne
  | cons t l ih =>
    obtain ⟨⟨sp, nl, m, e, h1, h2, h3⟩, hl⟩ := hl
    have e : t = sp ++ (nl ++ m) := e
    subst e
    have h3 : Gap0 m (l.flatten ++ r) := by simpa using h3
    have hb : Brk (m ++ l.flatten) r := by
      cases l with
      | nil => exact ⟨[], m, by simp, .nil, by simpa using h3⟩
      | cons t' l => exact brk_comment h3 (ih (by simp) hl)
    rcases h2 with rfl | rfl | rfl
    · exact ⟨sp, '\n', m ++ l.flatten, by simp, h1, by decide, hb⟩
    · obtain ⟨u, m', e, h4, h5⟩ := hb
      refine ⟨sp, '\r', '\n' :: (m ++ l.flatten), by simp, h1, by decide, '\n' :: u, m', by simp [e], ?_, h5⟩
      simpa using AreLines.line [] [] '\n' u (by simp [AreBlanks]) (Or.inl rfl) (by decide) h4
    · exact ⟨sp, '\r', m ++ l.flatten, by simp, h1, by decide, hb⟩

/-! ## Names -/

/-- `(!x ~ ANY)*`: `x` fails at each character of the text. -/
theorem until_at {x : Expr Rule} {s r : Str} {ts : List Tr} (h : Out skip K (.star ((.not x) ⬝ .any)) .atomic s r ts) :
    (∀ p c q, s = p ++ c :: q → Fails skip x .atomic (c :: (q ++ r))) ∧ Fails skip ((.not x) ⬝ .any) .atomic r := by
  constructor
  · refine out_star_ind h (fun s _ => ∀ p c q, s = p ++ c :: q → Fails skip x .atomic (c :: (q ++ r))) (by simp) ?_
    intro m s ts s' ts' hm ho ih p c q e
    have hm : m = [] := by
      rcases hm with hm | hm
      · exact hm
      · exact hm
    subst hm
    obtain ⟨s5, s6, t5, t6, rfl, rfl, h5, h6⟩ := (out_seq_atomic (by decide)).1 ho
    obtain ⟨rfl, rfl, hf⟩ := h5
    obtain ⟨d, rfl, _, rfl⟩ := h6
    cases p with
    | nil =>
      have e : d :: s' = c :: q := e
      cases e
      simpa using hf
    | cons a p =>
      have e : d :: s' = a :: (p ++ c :: q) := e
      exact ih p c q (List.cons.inj e).2
  · rcases h with ⟨_, _, hf⟩ | ⟨_, _, _, _, _, _, _, hf⟩
    · exact hf
    · exact (skip_fails (by decide)).1 hf

/-- A name fails to go on only at the end of the line and in front of a colon. -/
theorem stop_of_fails {r : Str} (h : Fails skip ((.not (Base.NL ∥ (.str c!":"))) ⬝ .any) .atomic r) : LineOver r ∨ ∃ t, r = ':' :: t := by
  by_cases hr : LineOver r
  · exact Or.inl hr
  · cases r with
    | nil => exact absurd (Or.inl rfl) hr
    | cons c t =>
      by_cases hc : c = ':'
      · exact Or.inr ⟨t, by rw [hc]⟩
      · exfalso
        have hf : Fails skip Base.NL .atomic (c :: t) := fails_NL good fun sp rest e hs => by
          cases rest with
          | nil => exact headNot_nil _
          | cons d rest =>
            refine headNot_cons.2 ?_
            cases hd : isNewlineChar d with
            | false => rfl
            | true => exact absurd (Or.inr ⟨sp, d, rest, e, hs, hd⟩) hr
        have hf2 : Fails skip (Base.NL ∥ (.str c!":")) .atomic (c :: t) :=
          (fails_alt_iff (uniform_eval good.uniform Base.NL rfl _)).2 ⟨hf, fails_str.2 (by
            rintro ⟨u, e⟩
            exact hc (List.cons.inj e).1.symm)⟩
        have o : Out skip K ((.not (Base.NL ∥ (.str c!":"))) ⬝ .any) .atomic [c] t [] :=
          ⟨[], [], [c], [], [], rfl, gap_refl (by decide) _, ⟨rfl, rfl, by simpa using hf2⟩, ⟨c, rfl, rfl, rfl⟩, rfl⟩
        have e := out_eval good.uniform good.exact _ (by rfl) (by rfl) _ _ _ _ (⟨0, c :: t, []⟩ : St) o rfl
        rw [(uniform_eval good.uniform ((.not (Base.NL ∥ (.str c!":"))) ⬝ .any) (by rfl) .atomic).fail_of h ⟨0, c :: t, []⟩ rfl] at e
        cases e

theorem nl_not_fails {sp t : Str} {c : Char} (hs : ∀ d ∈ sp, isSpTab d = true) (hc : isNewlineChar c = true) :
    ¬ Fails skip (Base.NL ∥ (.str c!":")) .atomic (sp ++ c :: t) := by
  intro h
  obtain ⟨st, ts, e⟩ := nl_ok good (R := Rule) (a := .atomic) (by decide) hs hc (t := t)
  have := (uniform_eval good.uniform (Base.NL : Expr Rule) (by rfl) .atomic).fail_of
    ((fails_alt_iff (uniform_eval good.uniform Base.NL rfl _)).1 h).1 ⟨0, sp ++ c :: t, []⟩ rfl
  rw [e] at this
  cases this

/-- A keyword, a name and the end of the line. -/
theorem txt_head {w : Str} {y : Expr Rule} {Q : Str → Str → Prop} (hy : Txt y Q) (hv : ∀ t r, Q t r → ¬ LineOver (t ++ r)) :
    Txt ((.str w) ⬝ colon_delimited_text ⬝ NL ⬝ y) fun t r =>
      ∃ name gap body, t = w ++ (name ++ (gap ++ body)) ∧ IsName name ∧ NoTrail name ∧ HeadEnds name gap ∧ Q body r := by
  rintro s m r ts ⟨s1, m1, s2, t1, t2, rfl, hg, ⟨rfl, rfl⟩, ⟨s3, m3, s4, t3, t4, rfl, hg3, ⟨kids, o3, _⟩, o4, rfl⟩, rfl⟩ hk h0
  have hg : K m1 (s3 ++ m3 ++ s4 ++ (m ++ r)) := hg
  have hg3 : K m3 (s4 ++ (m ++ r)) := hg3
  have o3 : Out skip K (.star ((.not (Base.NL ∥ (.str c!":"))) ⬝ .any)) .atomic s3 (m3 ++ (s4 ++ (m ++ r))) kids := o3
  obtain ⟨b, body, e, ⟨sp, c, _, rfl, b1, b2, u, m', rfl, b3, b4⟩, hq⟩ := txt_seq txt_NL hy s4 m r t4 o4 hk (knil _ _ hg3)
  have em' : m' = [] := b4.elim id fun h => absurd h.2 (hv _ _ hq)
  subst em'
  rw [List.append_nil] at e
  have e4 : s4 ++ (m ++ r) = sp ++ c :: (u ++ (body ++ r)) := by
    rw [← List.append_assoc, e]; simp
  have over : LineOver (s4 ++ (m ++ r)) := Or.inr ⟨sp, c, _, e4, fun d hd => blankChar_iff.2 (b1 d hd), newline_iff.2 b2⟩
  obtain ⟨a1, a2⟩ := until_at o3
  have em3 : m3 = [] := by
    rcases gap0 hg3 with h | ⟨h, _⟩
    · exact h
    · exfalso
      rcases stop_of_fails a2 with ho | ⟨t, ht⟩
      · have := starts_over ho
        rw [starts_comment h] at this
        cases this
      · have := starts_comment (r := s4 ++ (m ++ r)) h
        rw [ht] at this
        revert this
        simp [startsComment, IsBlankChar]
  subst em3
  rw [List.nil_append] at a1
  have chars : ∀ c ∈ s3, c ≠ ':' ∧ ¬ IsNewline c := by
    intro d hd
    obtain ⟨p, q, rfl⟩ := List.append_of_mem hd
    have hf := a1 p d q rfl
    constructor
    · rintro rfl
      exact fails_str.1 ((fails_alt_iff (uniform_eval good.uniform Base.NL rfl _)).1 hf).2 ⟨_, rfl⟩
    · intro hn
      exact nl_not_fails (sp := []) (by simp) (newline_iff.2 hn) hf
  have trail : NoTrail s3 := by
    intro d hd hb
    obtain ⟨p, rfl⟩ : ∃ p, s3 = p ++ [d] := by
      rcases List.eq_nil_or_concat s3 with h | ⟨p, x, h⟩
      · rw [h] at hd; cases hd
      · rw [h] at hd
        simp at hd
        exact ⟨p, by rw [h, hd]; simp⟩
    have hf := a1 p d [] rfl
    rw [List.nil_append, e4] at hf
    have := nl_not_fails (sp := d :: sp) (c := c) (t := u ++ (body ++ r)) (by
      intro x hx
      rcases List.mem_cons.1 hx with rfl | hx
      · exact blankChar_iff.2 hb
      · exact blankChar_iff.2 (b1 x hx)) (newline_iff.2 b2)
    exact this (by simpa using hf)
  have lines : AreLines (sp ++ c :: u) := by simpa using AreLines.line sp [] c u b1 (Or.inl rfl) b2 b3
  rcases gap0 hg with em1 | ⟨hm1, ho⟩
  · subst em1
    have start := (k_cases hg).1
    refine ⟨s3, sp ++ c :: u, body, ?_, ⟨chars, ?_⟩, trail, Or.inl (Or.inl ⟨sp, c, u, rfl, b1, b2, b3⟩), hq⟩
    · have e' : s4 ++ m = sp ++ c :: (u ++ body) := by rw [e]; simp
      simp [e']
    · cases hs : startsComment s3 with
      | false => rfl
      | true =>
        obtain ⟨sp', w', t', rfl, h1, h2⟩ := starts_cases hs
        have : startsComment (sp' ++ (w' ++ t') ++ [] ++ s4 ++ (m ++ r)) = true := by
          simp only [List.append_nil, List.append_assoc]
          rw [starts_blanks h1, starts_mark h2]
        rw [start] at this
        cases this
  · -- the comment is skipped and there is no name
    have es : s3 = [] := by
      cases s3 with
      | nil => rfl
      | cons d s3 =>
        exfalso
        have hf := a1 [] d s3 rfl
        have ho : LineOver (d :: (s3 ++ (s4 ++ (m ++ r)))) := by simpa using ho
        rcases ho with h | ⟨sp', c', t', e', h1, h2⟩
        · cases h
        · rw [e'] at hf
          exact nl_not_fails h1 h2 hf
    subst es
    have hb := brk_comment (m := m1) (f := sp ++ c :: u) (r := body ++ r) (by
      refine Or.inr ⟨hm1, ?_⟩
      simpa [e4] using over) ⟨sp, c, u, rfl, b1, b2, u, [], by simp, b3, Or.inl rfl⟩
    obtain ⟨u', m', e', h1, h2⟩ := hb
    have em' : m' = [] := h2.elim id fun h => absurd h.2 (hv _ _ hq)
    subst em'
    rw [List.append_nil] at e'
    refine ⟨[], m1 ++ (sp ++ c :: u), body, ?_, ⟨by simp, rfl⟩, by simp [NoTrail], Or.inr ⟨rfl, by rw [e']; exact h1, by simp⟩, hq⟩
    have e'' : s4 ++ m = sp ++ c :: (u ++ body) := by rw [e]; simp
    simp [e'']

/-! ## Symbols -/

/-- The end of the file or something visible follows. -/
def Beyond (r : Str) : Prop := r = [] ∨ ¬ LineOver r

theorem not_over {c : Char} {t : Str} (h : visible c = true) : ¬ LineOver (c :: t) := by
  simp only [visible, Bool.and_eq_true, Bool.not_eq_true', bne_iff_ne, ne_eq] at h
  rintro (h' | ⟨sp, d, u, e, h1, h2⟩)
  · cases h'
  · cases sp with
    | nil =>
      cases e
      rw [h.1.1.2] at h2; cases h2
    | cons a sp =>
      cases e
      have := h1 c List.mem_cons_self
      rw [h.1.1.1] at this; cases this

theorem ends_of_brk {f r : Str} (h : Brk f r) (hr : Beyond r) : RuleEnds f r := by
  obtain ⟨u, m, rfl, h1, h2⟩ := h
  rcases h2 with rfl | ⟨⟨sp, w, body, rfl, g1, g2, g3⟩, ho⟩
  · exact Or.inl (by simpa using h1)
  · rcases hr with rfl | hr
    · refine Or.inr ⟨rfl, u, _, rfl, h1, sp, w ++ body, rfl, fun d hd => blankChar_iff.1 (g1 d hd), Or.inr ⟨w, g2, body, rfl, fun d hd =>
        not_newline_iff.1 (g3 d hd)⟩, ?_⟩
      rcases mem_marks.1 g2 with rfl | rfl <;> simp
    · exact absurd ho hr

theorem txt_symbolrule : Txt symbolrule fun t r => ∃ (d : Drawing) (v f : Str), t = v ++ f ∧ d.IsText v ∧ Brk f r := by
  rw [symbolrule_eq]
  have hd : Txt (rulesE drawNames) fun t r => ∃ (d : Drawing) (v m : Str), t = v ++ m ∧ d.IsText v ∧ Gap0 m r := by
    intro s m r ts ho hk _
    obtain ⟨d, hd⟩ := rule_text good drawNames ho
    exact ⟨d, s, m, rfl, hd, gap0 hk⟩
  refine txt_mono (txt_seq hd (txt_opt txt_NL)) ?_
  rintro _ r ⟨_, t2, rfl, ⟨d, v, m, rfl, hv, hm⟩, h2⟩
  refine ⟨d, v, m ++ t2, by simp, hv, ?_⟩
  rcases h2 with h2 | rfl
  · exact brk_comment hm h2
  · exact ⟨[], m, by simp, .nil, by simpa using hm⟩

theorem txt_rules : Txt (.plus symbolrule) fun t r => ¬ LineOver (t ++ r) ∧ (Beyond r → ∃ rules : List (Drawing × Str × Str),
    t = rules.flatMap (fun x => x.2.1 ++ x.2.2) ∧ rules ≠ [] ∧ InRow (fun x => x.2.1 ++ x.2.2) (fun x r => x.1.IsText x.2.1 ∧ RuleEnds x.2.2 r) rules r) := by
  refine txt_mono (txt_plus txt_symbolrule) ?_
  rintro _ r ⟨l, hne, rfl, hl⟩
  have head : ∀ {d : Drawing} {v x : Str}, d.IsText v → ¬ LineOver (v ++ x) := by
    intro d v x hv
    obtain ⟨_, t, _, rfl⟩ := hv
    cases d <;> exact not_over (by decide)
  constructor
  · cases l with
    | nil => exact absurd rfl hne
    | cons t l =>
      obtain ⟨⟨d, v, f, e, hv, _⟩, _⟩ := hl
      have e : t = v ++ f := e
      subst e
      simpa using head (x := f ++ (l.flatten ++ r)) hv
  · intro hr
    obtain ⟨⟨rules, e, h1, h2⟩, _⟩ := rows (txt := fun x : Drawing × Str × Str => x.2.1 ++ x.2.2)
      (ok := fun x r => x.1.IsText x.2.1 ∧ RuleEnds x.2.2 r) (C := Beyond) (fun t r ⟨d, v, f, e, hv, hb⟩ hr =>
        ⟨⟨(d, v, f), e, hv, ends_of_brk hb hr⟩, Or.inr (by rw [e, List.append_assoc]; exact head hv)⟩) hl hr
    exact ⟨rules, e, h2 hne, h1⟩

theorem txt_symbol {q : Rule} {w : Str} : Txt (.rule q .normal ((.str w) ⬝ colon_delimited_text ⬝ NL ⬝ .plus symbolrule)) fun t r =>
    ∃ rest, t = w ++ rest ∧ (Beyond r → ∃ s : Symbol, t = w ++ s.text ∧ s.Valid r) := by
  refine txt_rule (txt_mono (txt_head txt_rules fun t r h => h.1) ?_)
  rintro _ r ⟨name, gap, body, rfl, h1, h2, h3, _, h4⟩
  refine ⟨_, rfl, fun hr => ?_⟩
  obtain ⟨rules, rfl, h5, h6⟩ := h4 hr
  exact ⟨⟨name, gap, rules⟩, rfl, h1, h2, h3, h5, h6⟩

/-- What is accepted has the described form. -/
theorem symbols_accepted {content : Str} {ts : List Tr}
    (h : Out skip K (.soi ⬝ (.opt NL) ⬝ (.plus symbol) ⬝ (.eoi .EOI)) .nonAtomic content [] ts) :
    ∃ f : SymbolFile, f.Valid ∧ f.text = content := by
  obtain ⟨_, m, s1, _, t1, rfl, g0, ⟨rfl, _⟩, o1, _⟩ := h
  have g0 : K m (s1 ++ []) := g0
  have heoi : Txt (.eoi Rule.EOI) fun t r => t = [] ∧ r = [] := by
    rintro s m r ts ⟨rfl, hr, _⟩ hk h0
    have : m ++ r = [] := hr
    simpa using this
  have c := txt_seq (txt_opt txt_NL) (txt_seq (txt_plus (txt_symbol (q := .symbol) (w := c!"SYMBOL:"))) heoi)
  obtain ⟨lead, _, e, hl, body, _, rfl, ⟨l, hne, rfl, hrow⟩, rfl, _⟩ := c s1 [] [] t1 o1 (k_nil rfl) (by simpa using knil _ _ g0)
  obtain ⟨⟨symbols, e2, h1, h2⟩, hb⟩ := rows (txt := fun s : Symbol => c!"SYMBOL:" ++ s.text)
    (ok := Symbol.Valid) (C := Beyond) (fun t r ⟨rest, e, h⟩ hr => ⟨h hr, Or.inr (by rw [e, List.append_assoc]; exact not_over (by decide))⟩)
    hrow (Or.inl (by simp))
  have hv : ¬ LineOver (l.flatten ++ []) := by
    rcases hb with hb | hb
    · exfalso
      have hb : symbols.flatMap (fun s : Symbol => c!"SYMBOL:" ++ s.text) = [] := by
        rw [← e2]; simpa using hb
      cases symbols with
      | nil => exact h2 hne rfl
      | cons s ss => cases hb
    · simpa using hb
  have e : s1 = lead ++ l.flatten := by simpa using e
  subst e
  have hm : Gap0 m (lead ++ (l.flatten ++ [])) := by simpa using gap0 g0
  have hlead : AreLines (m ++ lead) := by
    rcases hl with hl | rfl
    · obtain ⟨u, m', e, h3, h4⟩ := brk_comment hm (by simpa using hl)
      have : m' = [] := h4.elim id fun h => absurd h.2 hv
      rw [e, this, List.append_nil]
      exact h3
    · have : m = [] := hm.elim id fun h => absurd h.2 hv
      rw [this]
      exact .nil
  exact ⟨⟨m ++ lead, symbols⟩, ⟨hlead, h2 hne, by simpa using h1⟩, by simp [SymbolFile.text, e2]⟩

/-- A text that has not the described form is rejected. -/
theorem symbols_rejected {F : Type} [F64 F] [Parse.SymbolRule.Close F] (content : Str)
    (h : ∀ f : SymbolFile, f.Valid → f.text ≠ content) : Parse.Topsky.parseSymbols (F := F) content = .error .parseError := by
  rcases run_tok Peg.Topsky.symbols rfl good.ok rfl rfl content with hr | ⟨kids, _, ho⟩
  · simp only [Parse.Topsky.parseSymbols]
    rw [hr]; rfl
  · obtain ⟨f, hv, ht⟩ := symbols_accepted (content := content) ho
    exact absurd ht (h f hv)

end Verif.Proofs.Topsky
