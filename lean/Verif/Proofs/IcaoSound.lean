import Verif.Proofs.IcaoFile
/-!
# Which texts are tables with tabs

What the matches of the grammars say about the text: the converse of `Verif.Proofs.IcaoTable`.
-/

namespace Verif.Proofs.Icao
open Verif.Peg Verif.Peg.TabSkip Verif.Spec Verif.Spec.Icao
open Verif.Spec.Isec (IsComment IsBlank IsSpaces)

section Generic
variable {R : Type} {sk : St → Res R} {K : Str → Str → Prop} {pw : Char → Bool}

theorem newline_of {c : Char} (h : isNewlineChar c = true) : IsNewline c := by
  simpa [isNewlineChar, IsNewline] using h

theorem newline_char {c : Char} (h : IsNewline c) : isNewlineChar c = true := by
  rcases h with rfl | rfl <;> decide

theorem spTab_isSpaces {b : Str} (h : ∀ c ∈ b, isSpTab c = true) : IsSpaces b := fun c hc => by
  simpa [isSpTab] using h c hc

/-- In front of a character that is no line end there is no comment. -/
theorem gap_spaces (h : TabSkip sk K pw commentMarks) {m r : Str} {c : Char} (hk : K m (c :: r)) (hc : isNewlineChar c = false) :
    ∀ d ∈ m, pw d = true := by
  obtain ⟨sp, cm, rfl, h1, ⟨rfl, _⟩ | ⟨_, h2⟩⟩ := (h.iff _ _).1 hk
  · simpa using h1
  · have := headNot_cons.1 h2
    simp [hc] at this

theorem gap_blank (h : TabSkip sk K pw commentMarks) {m r : Str} (hk : K m r) : IsBlank m := by
  obtain ⟨sp, cm, rfl, h1, h2⟩ := (h.iff _ _).1 hk
  refine ⟨sp, cm, rfl, spTab_isSpaces fun c hc => h.sub c (h1 c hc), isComment_text.2 ?_⟩
  rcases h2 with h2 | h2
  · exact Or.inl h2.1
  · exact Or.inr h2.1

/-- Blank text at a line end is empty. -/
theorem blank_nil {b t : Str} (hb : IsBlank b) (h : AtLineEnd (b ++ t)) : b = [] := by
  obtain ⟨sp, cm, rfl, h4, h5⟩ := hb
  have h7 := atLineEnd_not apart_spTab h
  cases sp with
  | cons c sp =>
    have := headNot_cons.1 (show HeadNot isSpTab (c :: (sp ++ cm ++ t)) by simpa using h7.1)
    rw [isSpaces_spTab h4 c List.mem_cons_self] at this
    cases this
  | nil =>
    rcases isComment_text.1 h5 with rfl | ⟨w, hw, body, rfl, _⟩
    · rfl
    · exact absurd ⟨w, hw, by simp⟩ h7.2

/-- A gap in front of blank text is part of it. -/
theorem gap_append (h : TabSkip sk K pw commentMarks) {m b t : Str} (hk : K m (b ++ t)) (hb : IsBlank b) : IsBlank (m ++ b) := by
  obtain ⟨sp, cm, rfl, h1, ⟨rfl, _⟩ | ⟨h2, h3⟩⟩ := (h.iff _ _).1 hk
  · rw [List.append_nil]
    exact blank_append (spTab_isSpaces fun c hc => h.sub c (h1 c hc)) hb
  · rw [blank_nil hb h3, List.append_nil]
    exact gap_blank h hk

/-- A gap in front of a place where nothing is skipped. -/
theorem gap_nil_of (h : TabSkip sk K pw commentMarks) {m r : Str} (hk : K m r) (hp : Plain pw commentMarks (m ++ r)) : m = [] := by
  obtain ⟨sp, cm, rfl, h1, h2⟩ := (h.iff _ _).1 hk
  cases sp with
  | cons c sp =>
    have := headNot_cons.1 (show HeadNot pw (c :: (sp ++ cm ++ r)) by simpa using hp.1)
    rw [h1 c List.mem_cons_self] at this
    cases this
  | nil =>
    rcases h2 with ⟨rfl, _⟩ | ⟨⟨w, hw, body, rfl, _⟩, _⟩
    · rfl
    · exact absurd ⟨w, hw, by simp⟩ hp.2

/-! ## Lines without data -/

/-- What the kinds of lines must satisfy. -/
structure Kinds {D : Type} (K : Str → Str → Prop) (pw : Char → Bool) (rest : Str → Prop) (line last : D → Str → Prop) : Prop where
  rest_nil : rest []
  rest_gap : ∀ m b, K m b → rest b → rest (m ++ b)
  line_gap : ∀ d s b, (∀ c ∈ b, pw c = true) → line d s → line d (b ++ s)
  last_gap : ∀ d s b, (∀ c ∈ b, pw c = true) → last d s → last d (b ++ s)
  line_head : ∀ d s, line d s → ∃ c t, s = c :: t ∧ isNewlineChar c = false
  last_head : ∀ d s, last d s → ∃ c t, s = c :: t ∧ isNewlineChar c = false

section Lines
variable {D : Type} {rest : Str → Prop} {line last : D → Str → Prop}

/-- A gap in front of a file. -/
theorem file_gap (h : TabSkip sk K pw commentMarks) (hd : Kinds K pw rest line last) {m r : Str} {ds : List D} (hk : K m r)
    (hf : IsFile rest line last r ds) : IsFile rest line last (m ++ r) ds := by
  have hsp : ∀ {d : D} {s u : Str}, (∃ c t, s = c :: t ∧ isNewlineChar c = false) → K m (s ++ u) → ∀ c ∈ m, pw c = true := by
    rintro d s u ⟨c, t, rfl, hc⟩ hk
    exact gap_spaces h hk hc
  cases hf with
  | blanks b hb => exact .blanks _ (hd.rest_gap _ _ hk hb)
  | blank b c t ds hb hc hf =>
    rw [← List.append_assoc]
    exact .blank _ c t ds (gap_append h hk hb) hc hf
  | line d s c t ds hl hc hf =>
    rw [← List.append_assoc]
    exact .line d _ c t ds (hd.line_gap d s m (hsp (d := d) (hd.line_head d s hl) hk) hl) hc hf
  | last d s hl => exact .last d _ (hd.last_gap d r m (hsp (d := d) (u := []) (hd.last_head d r hl) (by simpa using hk)) hl)

/-- A line without data in front of a file. -/
theorem file_line {b nl t : Str} {ds : List D} (hb : IsBlank b) (hl : LineEnd nl t) (hf : IsFile rest line last t ds) :
    ∃ c u, b ++ nl ++ t = b ++ c :: u ∧ IsNewline c ∧ IsFile rest line last u ds := by
  rcases hl with rfl | rfl | ⟨rfl, _⟩
  · exact ⟨'\n', t, by simp, Or.inl rfl, hf⟩
  · exact ⟨'\r', '\n' :: t, by simp, Or.inr rfl, .blank [] '\n' t ds ⟨[], [], rfl, by simp [IsSpaces], Or.inl rfl⟩ (Or.inl rfl) hf⟩
  · exact ⟨'\r', t, by simp, Or.inr rfl, hf⟩

theorem sound_nlOne (h : TabSkip sk K pw commentMarks) {s r : Str} {ts : List (Tree R)} (ho : Out sk K (nlOne : Expr R) .nonAtomic s r ts) :
    ∃ b nl, s = b ++ nl ∧ IsBlank b ∧ LineEnd nl r := by
  obtain ⟨s1, m, s2, t1, t2, rfl, hg, h1, h2, _⟩ := ho
  have hg : K m (s2 ++ r) := hg
  have hl := (out_newline_iff.1 h2).1
  have hs : ∀ c ∈ s1, isSpTab c = true := by
    refine out_star_ind h1 (fun s _ => ∀ c ∈ s, isSpTab c = true) (by simp) ?_
    intro m s ts s' ts' hm ho hq
    obtain ⟨c, rfl, hc, _⟩ := ((likeCls_spTab (sk := sk) (K := K) .nonAtomic h.uniform).out _ _ _).1 ho
    have hn : isNewlineChar c = false := by
      cases hn : isNewlineChar c with
      | false => rfl
      | true => rw [apart_spTab.1 c hn] at hc; cases hc
    have hm : ∀ d ∈ m, isSpTab d = true := by
      rcases hm with rfl | hm
      · simp
      · exact fun d hd => h.sub d (gap_spaces h (show K m (c :: _) by simpa using hm) hn d hd)
    intro d hd
    simp only [List.append_assoc, List.mem_append, List.mem_singleton] at hd
    rcases hd with hd | rfl | hd
    · exact hm d hd
    · exact hc
    · exact hq d hd
  exact ⟨s1 ++ m, s2, rfl, blank_append (spTab_isSpaces hs) (gap_blank h hg), hl⟩

theorem sound_NL (h : TabSkip sk K pw commentMarks) (hd : Kinds K pw rest line last) {s r : Str} {ts : List (Tree R)} {ds : List D}
    (ho : Out sk K (Base.NL : Expr R) .nonAtomic s r ts) (hf : IsFile rest line last r ds) :
    ∃ b c t, s ++ r = b ++ c :: t ∧ IsBlank b ∧ IsNewline c ∧ IsFile rest line last t ds := by
  obtain ⟨s1, t1, m, s2, t2, rfl, rfl, h1, hg, h2⟩ := out_plus_ind ho (fun s _ => IsFile rest line last (s ++ r) ds) hf (by
    intro m s ts s' ts' hg ho hq
    obtain ⟨b, nl, rfl, hb, hl⟩ := sound_nlOne h ho
    have hb' : IsBlank (m ++ b) := by
      rcases hg with rfl | hg
      · exact hb
      · exact gap_append h (t := nl ++ (s' ++ r)) (by simpa using hg) hb
    obtain ⟨c, u, e, hc, hu⟩ := file_line hb' hl hq
    have := IsFile.blank (rest := rest) (line := line) (last := last) (m ++ b) c u ds hb' hc hu
    rw [← e] at this
    simpa using this)
  obtain ⟨b, nl, rfl, hb, hl⟩ := sound_nlOne h h1
  obtain ⟨c, u, e, hc, hu⟩ := file_line hb hl (file_gap h hd hg h2)
  exact ⟨b, c, u, by rw [← e]; simp, hb, hc, hu⟩

/-! ## The end of an item -/

/-- `NL` matches at a line end. -/
theorem nl_matches (h : TabSkip sk K pw commentMarks) {c : Char} {t : Str} (hc : IsNewline c) : ¬ Fails sk (Base.NL : Expr R) .nonAtomic (c :: t) := by
  rintro hf
  have key : ∀ nl r, LineEnd nl r → c :: t = nl ++ r → False := by
    intro nl r hl e
    obtain ⟨m, s, e1, k, o, hm⟩ := out_line (R := R) h (sp := []) (cm := []) (by simp) (Or.inl rfl) hl
    rw [hm rfl rfl] at e1
    have e1 : nl = s := by simpa using e1
    subst e1
    have o1 := out_eval h.uniform h.exact nlOne (by rfl) (by rfl) .nonAtomic _ _ _ ⟨0, c :: t, []⟩ o e
    obtain ⟨st, ts, h2⟩ := plus_ok h.ok (x := nlOne) (a := .nonAtomic) (by rfl) ⟨_, _, o1⟩
    have h3 := (uniform_eval h.uniform (Base.NL : Expr R) rfl .nonAtomic).fail_of hf ⟨0, c :: t, []⟩ rfl
    rw [show eval sk (Base.NL : Expr R) .nonAtomic ⟨0, c :: t, []⟩ = _ from h2] at h3
    cases h3
  rcases hc with rfl | rfl
  · exact key ['\n'] t (Or.inl rfl) rfl
  · by_cases ht : t.head? = some '\n'
    · cases t with
      | nil => cases ht
      | cons d t => cases ht; exact key ['\r', '\n'] t (Or.inr (Or.inl rfl)) rfl
    · exact key ['\r'] t (Or.inr (Or.inr ⟨rfl, ht⟩)) rfl

/-- Unless tabs are skipped the text does not start with one. -/
def NoTab (pw : Char → Bool) (r : Str) : Prop := pw '\t' = false → r.head? ≠ some '\t'

/-- A text of one class in front of another character. -/
theorem class_split {p : Char → Bool} {a b r t : Str} {c : Char} (ha : ∀ d ∈ a, p d = true) (hr : HeadNot p r) (hb : ∀ d ∈ b, p d = true)
    (hc : p c = false) (e : a ++ r = b ++ c :: t) : a = b ∧ r = c :: t := by
  induction a generalizing b with
  | nil =>
    cases b with
    | nil => exact ⟨rfl, e⟩
    | cons d b =>
      have e : r = d :: (b ++ c :: t) := e
      rw [e] at hr
      have hr := headNot_cons.1 hr
      rw [hb d (by simp)] at hr
      cases hr
  | cons x a ih =>
    cases b with
    | nil =>
      have : x = c := (List.cons.inj e).1
      rw [this] at ha
      rw [ha c (by simp)] at hc
      cases hc
    | cons d b =>
      obtain ⟨e1, e2⟩ := List.cons.inj e
      obtain ⟨e3, e4⟩ := ih (b := b) (fun y hy => ha y (by simp [hy])) (fun y hy => hb y (by simp [hy])) e2
      exact ⟨by rw [e1, e3], e4⟩

/-- Comments start with neither blanks nor line ends. -/
theorem comment_head {cm r : Str} (h : CommentText commentMarks cm) : ∃ c t, cm ++ r = c :: t ∧ isSpTab c = false ∧ isNewlineChar c = false := by
  obtain ⟨w, hw, body, rfl, _⟩ := h
  obtain ⟨c, t, rfl, h1, h2⟩ := apart_spTab.2 w hw
  exact ⟨c, t ++ body ++ r, by simp, h1, h2⟩

theorem space_spTab {c : Char} (h : isSpace c = true) : isSpTab c = true := by
  have : c = ' ' := by simpa using h
  subst this; decide

/-- Behind a field, without a line end. -/
theorem stop_end (h : TabSkip sk K isSpace commentMarks) {m r : Str} (hk : K m r) (hs : TabStop (m ++ r)) (ht : r.head? ≠ some '\t')
    (hf : Fails sk (Base.NL : Expr R) .nonAtomic r) : m = [] ∧ r = [] := by
  obtain ⟨sp, cm, rfl, h1, ⟨rfl, h2⟩ | ⟨h2, h3⟩⟩ := (h.iff _ _).1 hk
  · rw [List.append_nil] at hs ⊢
    rcases hs with hs | ⟨sp2, c, t, e, h3, hc⟩ | ⟨sp2, t, e, h3⟩
    · exact List.append_eq_nil_iff.1 hs
    · have hr : HeadNot isSpTab r := by
        intro d hd
        simp only [isSpTab, Bool.or_eq_false_iff, beq_eq_false_iff_ne]
        refine ⟨?_, ?_⟩
        · rintro rfl
          exact absurd (h2.1 ' ' hd) (by decide)
        · rintro rfl
          exact ht hd
      have := class_split (fun d hd => space_spTab (h1 d hd)) hr h3 (apart_spTab.1 c (newline_char hc)) e
      rw [this.2] at hf
      exact absurd hf (nl_matches h hc)
    · have := class_split h1 h2.1 (fun d hd => by simp [h3 d hd]) (by decide) e
      rw [this.2] at ht
      exact absurd rfl ht
  · exfalso
    obtain ⟨x, y, e0, h4, h5⟩ := comment_head (r := r) h2
    rw [List.append_assoc, e0] at hs
    rcases hs with hs | ⟨sp2, c, t, e, h6, hc⟩ | ⟨sp2, t, e, h6⟩
    · exact absurd (List.append_eq_nil_iff.1 hs).2 (by simp)
    · have := class_split (fun d hd => space_spTab (h1 d hd)) (headNot_cons.2 h4) h6 (apart_spTab.1 c (newline_char hc)) e
      rw [(List.cons.inj this.2).1, newline_char hc] at h5
      cases h5
    · have hx : isSpace x = false := by
        simp only [isSpTab, Bool.or_eq_false_iff] at h4
        exact h4.1
      have := class_split h1 (headNot_cons.2 hx) (fun d hd => by simp [h6 d hd]) (by decide) e
      rw [(List.cons.inj this.2).1] at h4
      exact absurd h4 (by decide)

/-! ## Fields -/

theorem out_until_inv {x : Expr R} {s r : Str} {ts : List (Tree R)} (h : Out sk K (.star ((.not x) ⬝ .any)) .atomic s r ts) :
    (∀ p c q, s = p ++ c :: q → Fails sk x .atomic (c :: (q ++ r))) ∧ Fails sk ((.not x) ⬝ .any) .atomic r := by
  constructor
  · refine out_star_ind h (fun s _ => ∀ p c q, s = p ++ c :: q → Fails sk x .atomic (c :: (q ++ r))) (by simp) ?_
    intro m s ts s' ts' hm ho hq p c q e
    have hm : m = [] := by
      rcases hm with hm | hm
      · exact hm
      · exact hm
    subst hm
    obtain ⟨s1, s2, _, _, rfl, _, ⟨rfl, _, hf⟩, ⟨d, rfl, _⟩⟩ := (out_seq_atomic (by decide)).1 ho
    cases p with
    | nil =>
      have e : d :: s' = c :: q := e
      obtain ⟨rfl, rfl⟩ := List.cons.inj e
      exact hf
    | cons y p =>
      have e : d :: s' = y :: (p ++ c :: q) := e
      exact hq p c q (List.cons.inj e).2
  · rcases h with ⟨rfl, rfl, h⟩ | ⟨s1, t1, parts, _, _, _, _, pos, stk, h⟩
    · exact h
    · exact ⟨pos, stk, h⟩

theorem not_fails_of_ok {x : Expr R} {a : Atom} {r : Str} (hu : Uniform sk) (hp : plain x = true)
    (h : ∃ pos stk st ts, eval sk x a ⟨pos, r, stk⟩ = .ok st ts) : ¬ Fails sk x a r := by
  obtain ⟨pos, stk, st, ts, h⟩ := h
  intro hf
  rw [(uniform_eval hu x hp a).fail_of hf ⟨pos, r, stk⟩ rfl] at h
  cases h

theorem sound_field (h : TabSkip sk K pw commentMarks) {q tq : R} {f r : Str} {ts : List (Tree R)} (ho : Out sk K (fieldE q tq) .nonAtomic f r ts) :
    (∀ c ∈ f, c ≠ '\t' ∧ ¬ IsNewline c) ∧ (r ≠ [] → f.getLast? ≠ some ' ') ∧ TabStop r := by
  obtain ⟨_, ⟨_, ho, _⟩, _⟩ := ho
  have ho : Out sk K (Base.tab_delimited_text : Expr R) .atomic f r _ := ho
  obtain ⟨h1, h2⟩ := out_until_inv ho
  have stop : TabStop r := by
    by_cases hs : TabStop r
    · exact hs
    exfalso
    have hf : Fails sk (Base.NL ∥ spTabExpr : Expr R) .atomic r := by
      refine (fails_alt_iff (uniform_eval h.uniform Base.NL rfl _)).2 ⟨fails_NL h ?_, fails_spTab h ?_⟩
      · intro sp rest e h3 c hc
        cases hn : isNewlineChar c with
        | false => rfl
        | true =>
          cases rest with
          | nil => cases hc
          | cons d t =>
            cases hc
            exact absurd (Or.inr (Or.inl ⟨sp, c, t, e, h3, newline_of hn⟩)) hs
      · intro sp rest e h3 hc
        cases rest with
        | nil => cases hc
        | cons d t =>
          cases hc
          exact hs (Or.inr (Or.inr ⟨sp, t, e, h3⟩))
    cases r with
    | nil => exact hs (Or.inl rfl)
    | cons c t =>
      refine not_fails_of_ok (x := (.not (Base.NL ∥ spTabExpr)) ⬝ .any) (a := .atomic) h.uniform rfl ?_ h2
      refine ⟨0, [], _, _, out_eval h.uniform h.exact _ (by rfl) (by rfl) .atomic [c] t [] ⟨0, c :: t, []⟩ ?_ rfl⟩
      exact (out_seq_atomic (by decide)).2 ⟨[], [c], [], [], rfl, rfl, ⟨rfl, rfl, hf⟩, ⟨c, rfl, rfl, rfl⟩⟩
  have hc : ∀ p c q, f = p ++ c :: q → Fails sk (Base.NL : Expr R) .atomic (c :: (q ++ r)) ∧ Fails sk (spTabExpr : Expr R) .atomic (c :: (q ++ r)) :=
    fun p c q e => (fails_alt_iff (uniform_eval h.uniform Base.NL rfl _)).1 (h1 p c q e)
  refine ⟨?_, ?_, stop⟩
  · intro c hm
    obtain ⟨p, q, e⟩ := List.append_of_mem hm
    obtain ⟨f1, f2⟩ := hc p c q e
    refine ⟨?_, fun hn => ?_⟩
    · rintro rfl
      exact not_fails_of_ok h.uniform rfl (spTab_ok h (sp := []) (t := q ++ r) (by simp)) f2
    · exact not_fails_of_ok h.uniform rfl (nl_ok h (sp := []) (t := q ++ r) (by simp) hn) f1
  · intro hr hl
    obtain ⟨p, e⟩ := List.getLast?_eq_some_iff.1 hl
    obtain ⟨f1, f2⟩ := hc p ' ' [] e
    rcases stop with rfl | ⟨sp, c, t, rfl, h3, hn⟩ | ⟨sp, t, rfl, h3⟩
    · exact hr rfl
    · refine not_fails_of_ok h.uniform rfl (nl_ok h (sp := ' ' :: sp) (t := t) ?_ hn) f1
      intro d hd
      rcases List.mem_cons.1 hd with rfl | hd
      · decide
      · exact h3 d hd
    · refine not_fails_of_ok h.uniform rfl (spTab_ok h (sp := ' ' :: sp) (t := t) ?_) f2
      intro d hd
      rcases List.mem_cons.1 hd with rfl | hd
      · rfl
      · exact h3 d hd

theorem spaces_of_pw {b : Str} (h : ∀ c ∈ b, isSpace c = true) : Spaces b := fun c hc => by simpa using h c hc

/-- The field behind a gap. -/
theorem isField_of {f r : Str} (hv : ∀ c ∈ f, c ≠ '\t' ∧ ¬ IsNewline c) (hp : Plain isSpace commentMarks (f ++ r)) : IsField f := by
  refine ⟨hv, ?_, ?_⟩
  · intro hh
    cases f with
    | nil => cases hh
    | cons c f =>
      cases hh
      exact absurd (headNot_cons.1 (show HeadNot isSpace (' ' :: (f ++ r)) from hp.1)) (by decide)
  · intro hs
    refine hp.2 (commentStart_iff.2 ?_)
    rcases hs with hs | hs
    · exact Or.inl (hs.trans (List.prefix_append _ _))
    · exact Or.inr (hs.trans (List.prefix_append _ _))

/-- A field between a gap and a tab. -/
theorem sound_inner (h : TabSkip sk K isSpace commentMarks) {q tq : R} {m0 f m1 r : Str} {ts : List (Tree R)} (k0 : K m0 (f ++ (m1 ++ '\t' :: r)))
    (ho : Out sk K (fieldE q tq) .nonAtomic f (m1 ++ '\t' :: r) ts) (k1 : K m1 ('\t' :: r)) : Inner f (m0 ++ f ++ m1 ++ ['\t']) := by
  obtain ⟨h1, h2, _⟩ := sound_field h ho
  have s1 : Spaces m1 := spaces_of_pw (gap_spaces h k1 (by decide))
  refine ⟨m0, m1, rfl, spaces_of_pw ?_, s1, isField_of h1 (h.plain k0), h2 (by simp)⟩
  cases f with
  | nil =>
    cases m1 with
    | nil => exact gap_spaces h k0 (by decide)
    | cons c m1 =>
      have := s1 c (by simp)
      subst this
      exact gap_spaces h k0 (by decide)
  | cons c f => exact gap_spaces h k0 (not_newline_iff.2 (h1 c (by simp)).2)

/-- The last field, with a line end or at the end of the file. -/
theorem sound_final (h : TabSkip sk K isSpace commentMarks) (hd : Kinds K isSpace rest line last) {q tq : R} {m0 f m1 u r : Str} {ts us : List (Tree R)}
    {ds : List D} (k0 : K m0 (f ++ (m1 ++ (u ++ r)))) (ho : Out sk K (fieldE q tq) .nonAtomic f (m1 ++ (u ++ r)) ts) (k1 : K m1 (u ++ r))
    (hn : Out sk K (.opt (Base.NL : Expr R)) .nonAtomic u r us) (hf : IsFile rest line last r ds) (ht : r.head? ≠ some '\t') :
    (∃ n c t, m0 ++ f ++ m1 ++ u ++ r = n ++ c :: t ∧ Final f n ∧ IsNewline c ∧ IsFile rest line last t ds) ∨
    (AtEnd f (m0 ++ f) ∧ m1 = [] ∧ u = [] ∧ r = []) := by
  obtain ⟨h1, h2, h3⟩ := sound_field h ho
  have hF := isField_of h1 (h.plain k0)
  have hm0 : f ≠ [] → Spaces m0 := by
    intro hne
    cases f with
    | nil => exact absurd rfl hne
    | cons c f => exact spaces_of_pw (gap_spaces h k0 (not_newline_iff.2 (h1 c (by simp)).2))
  rcases hn with hn | ⟨rfl, _, hn⟩
  · left
    obtain ⟨b, c, t, e, hb, hc, ht⟩ := sound_NL h hd hn hf
    have hb' : IsBlank (m1 ++ b) := gap_append h (t := c :: t) (by rw [← e]; exact k1) hb
    refine ⟨m0 ++ f ++ (m1 ++ b), c, t, by simp [e], ?_, hc, ht⟩
    have hne : m1 ++ (u ++ r) ≠ [] := by rw [e]; simp
    by_cases hf : f = []
    · subst hf
      have hb2 : IsBlank (m0 ++ (m1 ++ b)) := gap_append h (t := c :: t) (by rw [e] at k0; simpa using k0) hb'
      exact ⟨[], m0 ++ (m1 ++ b), by simp, by simp [Spaces], hF, h2 hne, Or.inr (Or.inr ⟨rfl, hb2⟩)⟩
    · refine ⟨m0, m1 ++ b, rfl, hm0 hf, hF, h2 hne, ?_⟩
      rw [e] at h3
      obtain ⟨sp, cm, e2, h4, h5⟩ := hb'
      rw [← List.append_assoc, e2] at h3
      rcases isComment_text.1 h5 with rfl | h5'
      · left
        rw [e2, List.append_nil]
        exact h4
      · obtain ⟨x, y, e0, h6, h7⟩ := comment_head (r := c :: t) h5'
        rw [List.append_assoc, e0] at h3
        rcases h3 with h3 | ⟨sp2, d, t2, e3, h8, hd2⟩ | ⟨sp2, t2, e3, h8⟩
        · exact absurd (List.append_eq_nil_iff.1 h3).2 (by simp)
        · have := class_split (isSpaces_spTab h4) (headNot_cons.2 h6) h8 (apart_spTab.1 d (newline_char hd2)) e3
          rw [(List.cons.inj this.2).1, newline_char hd2] at h7
          cases h7
        · right; left
          rcases List.append_eq_append_iff.1 e3 with ⟨w, e4, e5⟩ | ⟨w, e4, e5⟩
          · -- the tab is behind the blanks
            cases w with
            | nil => rw [List.nil_append] at e5; rw [(List.cons.inj e5).1] at h6; exact absurd h6 (by decide)
            | cons z w =>
              rw [(List.cons.inj e5).1] at h6
              rw [h8 z (by rw [e4]; simp)] at h6
              exact absurd h6 (by decide)
          · cases w with
            | nil => rw [List.nil_append] at e5; rw [← (List.cons.inj e5).1] at h6; exact absurd h6 (by decide)
            | cons z w =>
              have hz : '\t' = z := (List.cons.inj e5).1
              subst hz
              refine ⟨sp2, w ++ cm, by rw [e2, e4]; simp, h8, w, cm, rfl, ?_, h5⟩
              intro d hd
              exact h4 d (by rw [e4]; simp [hd])
  · right
    obtain ⟨rfl, rfl⟩ := stop_end h k1 h3 ht hn
    refine ⟨?_, rfl, rfl, rfl⟩
    by_cases hf : f = []
    · subst hf
      obtain ⟨sp, cm, rfl, h4, h5⟩ := (h.iff _ _).1 k0
      refine ⟨sp, cm, by simp, spaces_of_pw h4, hF, ?_⟩
      rcases h5 with h5 | h5
      · exact Or.inl h5.1
      · rcases isComment_text.2 (Or.inr h5.1) with h6 | h6
        · exact Or.inl h6
        · exact Or.inr ⟨rfl, h6⟩
    · exact ⟨m0, [], by simp, hm0 hf, hF, Or.inl rfl⟩

/-! ## Files -/

theorem file_nil (hd : Kinds K pw rest line last) {ds : List D} (hf : IsFile rest line last [] ds) : ds = [] := by
  generalize hr : ([] : Str) = r at hf
  cases hf with
  | blanks => rfl
  | blank b c t ds => exact absurd hr (by simp)
  | line d s c t ds => exact absurd hr (by simp)
  | last d s hl =>
    obtain ⟨c, t, e, _⟩ := hd.last_head _ _ hl
    rw [e] at hr
    cases hr

/-- What a match of an item says. -/
def SoundItem (sk : St → Res R) (K : Str → Str → Prop) (pw : Char → Bool) (x : Expr R) (rest : Str → Prop) (line last : D → Str → Prop) : Prop :=
  ∀ s r ts ds, Out sk K x .nonAtomic s r ts → Plain pw commentMarks (s ++ r) → IsFile rest line last r ds → NoTab pw r →
    (∃ d, IsFile rest line last (s ++ r) (d :: ds)) ∧ NoTab pw (s ++ r)

theorem noTab_gap (h : TabSkip sk K pw commentMarks) {m r : Str} (hk : K m r) (hr : NoTab pw r) : NoTab pw (m ++ r) := by
  intro ht
  obtain ⟨sp, cm, rfl, h1, h2⟩ := (h.iff _ _).1 hk
  cases sp with
  | cons c sp =>
    intro e
    cases e
    rw [h1 '\t' (by simp)] at ht
    cases ht
  | nil =>
    rcases h2 with ⟨rfl, _⟩ | ⟨h2, _⟩
    · exact hr ht
    · obtain ⟨c, t, e, h3, _⟩ := comment_head (r := r) h2
      rw [List.nil_append, e]
      intro e
      cases e
      exact absurd h3 (by decide)

theorem sound_star (h : TabSkip sk K pw commentMarks) (hd : Kinds K pw rest line last) {x : Expr R} (hx : SoundItem sk K pw x rest line last)
    {s r : Str} {ts : List (Tree R)} (ho : Out sk K (.star x) .nonAtomic s r ts) (hp : Plain pw commentMarks (s ++ r)) {ds : List D}
    (hf : IsFile rest line last r ds) (ht : NoTab pw r) : (∃ ds', IsFile rest line last (s ++ r) ds') ∧ NoTab pw (s ++ r) := by
  rcases ho with ⟨rfl, _, _⟩ | ⟨s1, t1, parts, rfl, hts, h2, hr, _⟩
  · exact ⟨⟨ds, hf⟩, ht⟩
  · have : (∃ ds', IsFile rest line last (parts.flatMap (fun p => p.1.1 ++ p.1.2) ++ r) ds') ∧ NoTab pw (parts.flatMap (fun p => p.1.1 ++ p.1.2) ++ r) := by
      clear h2 hp hts
      induction parts with
      | nil => exact ⟨⟨ds, hf⟩, ht⟩
      | cons p ps ih =>
        obtain ⟨⟨k, o⟩, hr⟩ := hr
        obtain ⟨⟨ds', h3⟩, h4⟩ := ih hr
        have k : K p.1.1 (p.1.2 ++ (ps.flatMap (fun p => p.1.1 ++ p.1.2) ++ r)) := k
        obtain ⟨⟨d, h5⟩, h6⟩ := hx _ _ _ _ o (h.plain k) h3 h4
        rw [List.flatMap_cons, List.append_assoc, List.append_assoc]
        exact ⟨⟨_, file_gap h hd k h5⟩, noTab_gap h k h6⟩
    obtain ⟨⟨ds', h3⟩, h4⟩ := this
    obtain ⟨⟨d, h5⟩, h6⟩ := hx _ _ _ _ h2 (by simpa using hp) h3 h4
    rw [List.append_assoc]
    exact ⟨⟨_, h5⟩, h6⟩

theorem sound_plus (h : TabSkip sk K pw commentMarks) (hd : Kinds K pw rest line last) {x : Expr R} (hx : SoundItem sk K pw x rest line last)
    {s r : Str} {ts : List (Tree R)} (ho : Out sk K (.plus x) .nonAtomic s r ts) (hp : Plain pw commentMarks (s ++ r)) {ds : List D}
    (hf : IsFile rest line last r ds) (ht : NoTab pw r) : ∃ ds', ds' ≠ [] ∧ IsFile rest line last (s ++ r) ds' := by
  obtain ⟨s1, m, s2, t1, t2, rfl, hg, h1, h2, _⟩ := ho
  obtain ⟨⟨ds', h3⟩, h4⟩ := sound_star h hd hx h2 (h.plain hg) hf ht
  obtain ⟨⟨d, h5⟩, _⟩ := hx _ _ _ _ h1 (by simpa using hp) (file_gap h hd hg h3) (noTab_gap h hg h4)
  exact ⟨d :: ds', by simp, by simpa using h5⟩

/-- The whole file. -/
theorem sound_file (h : TabSkip sk K pw commentMarks) (hd : Kinds K pw rest line last) {rep : Expr R} {q e : R} {content : Str} {ts : List (Tree R)}
    {P : List D → Prop}
    (hrep : ∀ s r ts, Out sk K rep .nonAtomic s r ts → Plain pw commentMarks (s ++ r) → IsFile rest line last r ([] : List D) → NoTab pw r →
      ∃ ds : List D, P ds ∧ IsFile rest line last (s ++ r) ds)
    (ho : Out sk K (.rule q .normal (.soi ⬝ (.opt Base.NL) ⬝ rep ⬝ (.eoi e))) .nonAtomic content [] ts) :
    ∃ ds : List D, P ds ∧ IsFile rest line last content ds := by
  obtain ⟨kids, ⟨_, m1, u1, t1, t2, rfl, hg1, ⟨rfl, rfl⟩, ⟨nl, m2, u2, t3, t4, rfl, hg2, h2,
    ⟨wt, m3, u3, t5, t6, rfl, hg3, h3, ⟨rfl, _, rfl⟩, rfl⟩, rfl⟩, rfl⟩, _⟩ := ho
  have hg1 : K m1 (nl ++ m2 ++ (wt ++ m3 ++ []) ++ []) := hg1
  have hg2 : K m2 (wt ++ m3 ++ [] ++ []) := hg2
  have hg3 : K m3 [] := hg3
  have f3 : IsFile rest line last m3 ([] : List D) := .blanks _ (by simpa using hd.rest_gap _ _ hg3 hd.rest_nil)
  obtain ⟨ds, hP, h4⟩ := hrep wt m3 _ (by simpa using h3) (by simpa using h.plain hg2) f3 (by simpa using noTab_gap h hg3 (fun _ => by simp))
  have h5 : IsFile rest line last (m2 ++ (wt ++ m3)) ds := file_gap h hd (by simpa using hg2) h4
  have h6 : IsFile rest line last (nl ++ (m2 ++ (wt ++ m3))) ds := by
    rcases h2 with h2 | ⟨rfl, _, _⟩
    · obtain ⟨b, c, t, e, hb, hc, ht⟩ := sound_NL h hd h2 (by simpa using h5)
      have := IsFile.blank (rest := rest) (line := line) (last := last) b c t ds hb hc ht
      rw [← e] at this
      simpa using this
    · exact h5
  exact ⟨ds, hP, by simpa using file_gap h hd (by simpa using hg1) h6⟩

end Lines

/-- What is not skipped is no comment. -/
theorem not_comment {s r : Str} {ts : List (Tree R)} (ho : Out sk K (commentE : Expr R) .nonAtomic s r ts) (hp : Plain pw commentMarks (s ++ r)) : False := by
  have ho : Out sk K (((.str c!";") ∥ (.str c!"//")) ⬝ (.star ((.not .newline) ⬝ .any)) : Expr R) .atomic s r ts := ho
  obtain ⟨s1, s2, _, _, rfl, _, h1, _⟩ := (out_seq_atomic (by decide)).1 ho
  refine hp.2 ?_
  rcases h1 with ⟨rfl, _⟩ | ⟨⟨rfl, _⟩, _⟩
  · exact ⟨c!";", by simp [commentMarks], by simp⟩
  · exact ⟨c!"//", by simp [commentMarks], by simp⟩

theorem spaces_append {a b : Str} (ha : Spaces a) (hb : Spaces b) : Spaces (a ++ b) := fun c hc => by
  rcases List.mem_append.1 hc with hc | hc
  · exact ha c hc
  · exact hb c hc

theorem rest_isBlank {tr : Str} (h : IsRest tr) : IsBlank tr := by
  obtain ⟨sp, cm, rfl, h1, h2⟩ := h
  exact ⟨sp, cm, rfl, spaces_isSpaces h1, h2⟩

theorem rest_of_gap {K : Str → Str → Prop} (h : TabSkip sk K isSpace commentMarks) {m b : Str} (hk : K m b) (hb : IsRest b) : IsRest (m ++ b) := by
  obtain ⟨sp, cm, rfl, h1, ⟨rfl, _⟩ | ⟨h2, h3⟩⟩ := (h.iff _ _).1 hk
  · obtain ⟨sp2, cm2, rfl, h4, h5⟩ := hb
    exact ⟨sp ++ sp2, cm2, by simp, spaces_append (spaces_of_pw h1) h4, h5⟩
  · have : b = [] := blank_nil (t := []) (rest_isBlank hb) (by simpa using h3)
    subst this
    exact ⟨sp, cm, by simp, spaces_of_pw h1, isComment_text.2 (Or.inr h2)⟩

theorem head_of_starts {s : Str} {p : Char → Bool} {b d r : Str} (hp : ∀ c ∈ c!" \t\n\r;/", p c = false) (e : s = b ++ d ++ r) (hb : Spaces b)
    (hd : d ≠ []) (hd2 : ∀ c ∈ d, p c = true) : ∃ c t, s = c :: t ∧ isNewlineChar c = false := by
  subst e
  cases b with
  | cons c b =>
    have := hb c (by simp)
    subst this
    exact ⟨' ', _, rfl, by decide⟩
  | nil =>
    cases d with
    | nil => exact absurd rfl hd
    | cons c d =>
      refine ⟨c, d ++ r, rfl, ?_⟩
      cases hn : isNewlineChar c with
      | false => rfl
      | true =>
        have := hd2 c (by simp)
        rcases newline_of hn with rfl | rfl <;> rw [hp _ (by decide)] at this <;> cases this

end Generic

namespace Airlines
open Verif.Peg.IcaoAirlines Verif.Parse.Icao

theorem upper_not : ∀ c ∈ c!" \t\n\r;/", isAsciiUpper c = false := by decide

theorem text_gap {country : Str → Str → Prop} {d : Spec.Icao.Airline} {s b : Str} (hb : Spaces b) (h : AirlineText country d s) :
    AirlineText country d (b ++ s) := by
  obtain ⟨b0, b1, n, c, k, rfl, h0, h1⟩ := h
  exact ⟨b ++ b0, b1, n, c, k, by simp, spaces_append hb h0, h1⟩

theorem text_head {country : Str → Str → Prop} {d : Spec.Icao.Airline} {s : Str} (h : AirlineText country d s) : ∃ c t, s = c :: t ∧ isNewlineChar c = false := by
  obtain ⟨b0, b1, n, c, k, e, h0, h1, ⟨h2, h3⟩, _⟩ := h
  refine head_of_starts (p := isAsciiUpper) (r := b1 ++ ['\t'] ++ n ++ c ++ k) upper_not (by rw [e]; simp) h0 ?_ h3
  intro e
  rw [e] at h2
  exact absurd h2 (by decide)

theorem kinds : Kinds K isSpace IsRest (AirlineText Final) (AirlineText AtEnd) where
  rest_nil := ⟨[], [], rfl, by simp [Spaces], Or.inl rfl⟩
  rest_gap := fun _ _ => rest_of_gap tabSkip
  line_gap := fun _ _ _ hb => text_gap (spaces_of_pw hb)
  last_gap := fun _ _ _ hb => text_gap (spaces_of_pw hb)
  line_head := fun _ _ => text_head
  last_head := fun _ _ => text_head

theorem sound_designator {s r : Str} {ts : List (Tree Rule)} (h : Out skip K designator .nonAtomic s r ts) : s.length = 3 ∧ ∀ c ∈ s, isAsciiUpper c = true := by
  obtain ⟨_, h, _⟩ := h
  obtain ⟨s1, s2, _, _, rfl, _, ⟨x, rfl, hx, _⟩, h2⟩ := (out_seq_atomic (by decide)).1 h
  obtain ⟨s3, s4, _, _, rfl, _, ⟨y, rfl, hy, _⟩, ⟨z, rfl, hz, _⟩⟩ := (out_seq_atomic (by decide)).1 h2
  simp [hx, hy, hz]

theorem sound_item : SoundItem skip K isSpace item IsRest (AirlineText Final) (AirlineText AtEnd) := by
  intro s r ts ds ho hp hf ht
  rcases ho with ho | ⟨ho, _⟩
  · exact (not_comment ho hp).elim
  obtain ⟨_, ⟨d, m1, _, _, _, rfl, k1, o1, ⟨_, m2, _, _, _, rfl, k2, ⟨rfl, _⟩, ⟨n, m3, _, _, _, rfl, k3, o3, ⟨_, m4, _, _, _, rfl, k4, ⟨rfl, _⟩,
    ⟨c, m5, _, _, _, rfl, k5, o5, ⟨_, m6, _, _, _, rfl, k6, ⟨rfl, _⟩, ⟨k, m7, u, _, _, rfl, k7, o7, o8, _⟩, _⟩, _⟩, _⟩, _⟩, _⟩, _⟩, _⟩ := ho
  have hd := sound_designator o1
  have ht := ht (by decide)
  have o3 : Out skip K (fieldE Rule.name .tab_delimited_text) .nonAtomic n _ _ := o3
  have o5 : Out skip K (fieldE Rule.callsign .tab_delimited_text) .nonAtomic c _ _ := o5
  have i1 : Inner n (m2 ++ n ++ m3 ++ ['\t']) := sound_inner tabSkip (r := m4 ++ (c ++ m5 ++ (['\t'] ++ m6 ++ (k ++ m7 ++ u))) ++ r) (by simpa using k2) (by simpa using o3) (by simpa using k3)
  have i2 : Inner c (m4 ++ c ++ m5 ++ ['\t']) := sound_inner tabSkip (r := m6 ++ (k ++ m7 ++ u) ++ r) (by simpa using k4) (by simpa using o5) (by simpa using k5)
  have s1 : Spaces m1 := spaces_of_pw (gap_spaces tabSkip (c := '\t') (show K m1 ('\t' :: _) by simpa using k1) (by decide))
  refine ⟨⟨⟨d, n, c, k⟩, ?_⟩, ?_⟩
  · rcases sound_final tabSkip kinds (by simpa using k6) o7 k7 o8 hf ht with ⟨w, x, t, e, h1, h2, h3⟩ | ⟨h1, rfl, rfl, rfl⟩
    · have := IsFile.line (rest := IsRest) (line := AirlineText Final) (last := AirlineText AtEnd) ⟨d, n, c, k⟩
        (d ++ m1 ++ ['\t'] ++ (m2 ++ n ++ m3 ++ ['\t']) ++ (m4 ++ c ++ m5 ++ ['\t']) ++ w) x t ds
        ⟨[], m1, _, _, _, by simp, by simp [Spaces], s1, hd, i1, i2, h1⟩ h2 h3
      have e2 : m6 ++ (k ++ (m7 ++ (u ++ r))) = w ++ x :: t := by rw [← e]; simp
      have e3 : (d ++ m1 ++ ['\t'] ++ (m2 ++ n ++ m3 ++ ['\t']) ++ (m4 ++ c ++ m5 ++ ['\t']) ++ w) ++ x :: t =
          d ++ m1 ++ ['\t'] ++ (m2 ++ n ++ m3 ++ ['\t']) ++ (m4 ++ c ++ m5 ++ ['\t']) ++ (m6 ++ (k ++ (m7 ++ (u ++ r)))) := by rw [e2]; simp
      rw [e3] at this
      simpa using this
    · have hds := file_nil kinds hf
      subst hds
      have := IsFile.last (rest := IsRest) (line := AirlineText Final) (last := AirlineText AtEnd) ⟨d, n, c, k⟩
        (d ++ m1 ++ ['\t'] ++ (m2 ++ n ++ m3 ++ ['\t']) ++ (m4 ++ c ++ m5 ++ ['\t']) ++ (m6 ++ k))
        ⟨[], m1, _, _, _, by simp, by simp [Spaces], s1, hd, i1, i2, h1⟩
      simpa using this
  · intro _
    obtain ⟨h1, h2⟩ := hd
    match d, h1, h2 with
    | x :: d', _, h2 =>
      intro e
      have hx : x = '\t' := by simpa using e
      have := h2 x (by simp)
      rw [hx] at this
      exact absurd this (by decide)

theorem sound {content : Str} {m : Map Str Parse.Icao.Airline} (h : parseAirlines content = .ok m) :
    ∃ ds, ds ≠ [] ∧ IsFile IsRest (AirlineText Final) (AirlineText AtEnd) content ds := by
  rcases run_cases (e := airlines) tabSkip.ok rfl content with he | ⟨ts, s, rest, he, rfl, ho⟩
  · rw [parseAirlines, he] at h; cases h
  · have hr : rest = [] := by
      obtain ⟨_, ⟨_, _, _, _, _, _, _, _, ⟨_, _, _, _, _, _, _, _, ⟨_, _, _, _, _, _, _, _, ⟨_, h, _⟩, _⟩, _⟩, _⟩, _⟩ := ho
      exact h
    subst hr
    rw [List.append_nil]
    exact sound_file (P := fun ds => ds ≠ []) tabSkip kinds (fun s r ts ho hp hf ht => sound_plus tabSkip kinds sound_item ho hp hf ht) ho

end Airlines

theorem head_not_tab [UnicodeTables] {d x : Str} (h1 : d ≠ []) (h2 : ∀ c ∈ d, des c = true) : (d ++ x).head? ≠ some '\t' := by
  cases d with
  | nil => exact absurd rfl h1
  | cons c d =>
    intro e
    cases e
    have := h2 '\t' (by simp)
    rw [des_not (by decide)] at this
    cases this

namespace Airports
open Verif.Peg.IcaoAirports Verif.Parse.Icao
variable [UnicodeTables]

theorem text_gap {country : Str → Str → Prop} {d : Spec.Icao.Airport} {s b : Str} (hb : Spaces b) (h : AirportText country d s) :
    AirportText country d (b ++ s) := by
  obtain ⟨b0, b1, n, k, rfl, h0, h1⟩ := h
  exact ⟨b ++ b0, b1, n, k, by simp, spaces_append hb h0, h1⟩

theorem text_head {country : Str → Str → Prop} {d : Spec.Icao.Airport} {s : Str} (h : AirportText country d s) : ∃ c t, s = c :: t ∧ isNewlineChar c = false := by
  obtain ⟨b0, b1, n, k, e, h0, h1, h2, _⟩ := h
  rw [isDesignator_iff] at h2
  exact head_of_starts (p := des) (r := b1 ++ ['\t'] ++ n ++ k) (fun _ => des_not) (by rw [e]; simp) h0 h2.1 h2.2

theorem kinds : Kinds K isSpace IsRest (AirportText Final) (AirportText AtEnd) where
  rest_nil := ⟨[], [], rfl, by simp [Spaces], Or.inl rfl⟩
  rest_gap := fun _ _ => rest_of_gap tabSkip
  line_gap := fun _ _ _ hb => text_gap (spaces_of_pw hb)
  last_gap := fun _ _ _ hb => text_gap (spaces_of_pw hb)
  line_head := fun _ _ => text_head
  last_head := fun _ _ => text_head

theorem sound_designator {s r : Str} {ts : List (Tree Rule)} (h : Out skip K designator .nonAtomic s r ts) : IsDesignator s := by
  obtain ⟨_, h, _⟩ := h
  obtain ⟨h1, h2, _⟩ := ((likeDes (K := K) tabSkip.uniform .atomic).plus (by decide)).1 h
  exact isDesignator_iff.2 ⟨h1, h2⟩

theorem sound_item : SoundItem skip K isSpace item IsRest (AirportText Final) (AirportText AtEnd) := by
  intro s r ts ds ho hp hf ht
  rcases ho with ho | ⟨ho, _⟩
  · exact (not_comment ho hp).elim
  obtain ⟨_, ⟨d, m1, _, _, _, rfl, k1, o1, ⟨_, m2, _, _, _, rfl, k2, ⟨rfl, _⟩, ⟨n, m3, _, _, _, rfl, k3, o3,
    ⟨_, m6, _, _, _, rfl, k6, ⟨rfl, _⟩, ⟨k, m7, u, _, _, rfl, k7, o7, o8, _⟩, _⟩, _⟩, _⟩, _⟩, _⟩ := ho
  have hd := sound_designator o1
  have ht := ht (by decide)
  have o3 : Out skip K (fieldE Rule.name .tab_delimited_text) .nonAtomic n _ _ := o3
  have i1 : Inner n (m2 ++ n ++ m3 ++ ['\t']) := sound_inner tabSkip (r := m6 ++ (k ++ m7 ++ u) ++ r) (by simpa using k2) (by simpa using o3) (by simpa using k3)
  have s1 : Spaces m1 := spaces_of_pw (gap_spaces tabSkip (c := '\t') (show K m1 ('\t' :: _) by simpa using k1) (by decide))
  refine ⟨⟨⟨d, n, k⟩, ?_⟩, ?_⟩
  · rcases sound_final tabSkip kinds (by simpa using k6) o7 k7 o8 hf ht with ⟨w, x, t, e, h1, h2, h3⟩ | ⟨h1, rfl, rfl, rfl⟩
    · have := IsFile.line (rest := IsRest) (line := AirportText Final) (last := AirportText AtEnd) ⟨d, n, k⟩
        (d ++ m1 ++ ['\t'] ++ (m2 ++ n ++ m3 ++ ['\t']) ++ w) x t ds
        ⟨[], m1, _, _, by simp, by simp [Spaces], s1, hd, i1, h1⟩ h2 h3
      have e2 : m6 ++ (k ++ (m7 ++ (u ++ r))) = w ++ x :: t := by rw [← e]; simp
      have e3 : (d ++ m1 ++ ['\t'] ++ (m2 ++ n ++ m3 ++ ['\t']) ++ w) ++ x :: t =
          d ++ m1 ++ ['\t'] ++ (m2 ++ n ++ m3 ++ ['\t']) ++ (m6 ++ (k ++ (m7 ++ (u ++ r)))) := by rw [e2]; simp
      rw [e3] at this
      simpa using this
    · have hds := file_nil kinds hf
      subst hds
      have := IsFile.last (rest := IsRest) (line := AirportText Final) (last := AirportText AtEnd) ⟨d, n, k⟩
        (d ++ m1 ++ ['\t'] ++ (m2 ++ n ++ m3 ++ ['\t']) ++ (m6 ++ k))
        ⟨[], m1, _, _, by simp, by simp [Spaces], s1, hd, i1, h1⟩
      simpa using this
  · intro _
    rw [isDesignator_iff] at hd
    simpa using head_not_tab (x := m1 ++ (['\t'] ++ m2 ++ (n ++ m3 ++ (['\t'] ++ m6 ++ (k ++ m7 ++ u)))) ++ r) hd.1 hd.2

theorem sound {content : Str} {m : Map Str IcaoAirport} (h : parseAirports content = .ok m) :
    ∃ ds, ds ≠ [] ∧ IsFile IsRest (AirportText Final) (AirportText AtEnd) content ds := by
  rcases run_cases (e := aircraft) tabSkip.ok rfl content with he | ⟨ts, s, rest, he, rfl, ho⟩
  · rw [parseAirports, he] at h; cases h
  · have hr : rest = [] := by
      obtain ⟨_, ⟨_, _, _, _, _, _, _, _, ⟨_, _, _, _, _, _, _, _, ⟨_, _, _, _, _, _, _, _, ⟨_, h, _⟩, _⟩, _⟩, _⟩, _⟩ := ho
      exact h
    subst hr
    rw [List.append_nil]
    exact sound_file (P := fun ds => ds ≠ []) tabSkip kinds (fun s r ts ho hp hf ht => sound_plus tabSkip kinds sound_item ho hp hf ht) ho

end Airports

namespace Aircraft
open Verif.Peg.IcaoAircraft Verif.Parse.Icao
variable [UnicodeTables]

abbrev line : Option Spec.Icao.Aircraft → Str → Prop := AircraftLine IsBlank Final
abbrev last : Option Spec.Icao.Aircraft → Str → Prop := AircraftLine IsRest AtEnd

theorem text_gap {rest : Str → Prop} {name : Str → Str → Prop} {d : Option Spec.Icao.Aircraft} {s b : Str} (hb : Spaces b) (h : AircraftLine rest name d s) :
    AircraftLine rest name d (b ++ s) := by
  cases d with
  | some a =>
    obtain ⟨b0, b1, b2, b3, b4, b5, b6, m, n, rfl, h0, h1⟩ := h
    exact ⟨b ++ b0, b1, b2, b3, b4, b5, b6, m, n, by simp, spaces_append hb h0, h1⟩
  | none =>
    obtain ⟨b0, t, tr, rfl, h0, h1⟩ := h
    exact ⟨b ++ b0, t, tr, by simp, spaces_append hb h0, h1⟩

theorem text_head {rest : Str → Prop} {name : Str → Str → Prop} {d : Option Spec.Icao.Aircraft} {s : Str} (h : AircraftLine rest name d s) :
    ∃ c t, s = c :: t ∧ isNewlineChar c = false := by
  cases d with
  | some a =>
    obtain ⟨b0, b1, b2, b3, b4, b5, b6, m, n, e, h0, _, _, _, _, _, _, ⟨h2, _⟩, _⟩ := h
    rw [isDesignator_iff] at h2
    exact head_of_starts (p := des) (r := b1 ++ ['\t'] ++ b2 ++ [a.wtc] ++ b3 ++ [a.kind] ++ b4 ++ [a.engines] ++ b5 ++ [a.engine] ++ b6 ++ ['\t'] ++ m ++ n)
      (fun _ => des_not) (by rw [e]; simp) h0 h2.1 h2.2
  | none =>
    obtain ⟨b0, t, tr, rfl, h0, h1, h2, _⟩ := h
    cases b0 with
    | cons c b =>
      have := h0 c (by simp)
      subst this
      exact ⟨' ', _, rfl, by decide⟩
    | nil =>
      cases t with
      | nil => exact absurd rfl h2
      | cons c t => exact ⟨c, t ++ tr, rfl, not_newline_iff.2 (h1.1 c (by simp)).2⟩

theorem kinds : Kinds K isSpace IsRest line last where
  rest_nil := ⟨[], [], rfl, by simp [Spaces], Or.inl rfl⟩
  rest_gap := fun _ _ => rest_of_gap tabSkip
  line_gap := fun _ _ _ hb => text_gap (spaces_of_pw hb)
  last_gap := fun _ _ _ hb => text_gap (spaces_of_pw hb)
  line_head := fun _ _ => text_head
  last_head := fun _ _ => text_head

theorem sound_designator {s r : Str} {ts : List (Tree Rule)} (h : Out skip K designator .nonAtomic s r ts) : IsDesignator s ∧ s.length ≤ 4 := by
  obtain ⟨_, h, _⟩ := h
  have like := likeDes (R := Rule) (K := K) tabSkip.uniform .atomic
  have ho : ∀ {s r : Str} {ts : List (Tree Rule)}, Out skip K (.opt ((.cls UnicodeTables.letter) ∥ (.cls isAsciiDigit))) .atomic s r ts →
      (∀ c ∈ s, des c = true) ∧ s.length ≤ 1 := by
    rintro s r ts (h | ⟨rfl, _⟩)
    · obtain ⟨c, rfl, hc, _⟩ := (like.out _ _ _).1 h
      simpa using hc
    · simp
  obtain ⟨y1, z1, _, _, rfl, _, p1, o2⟩ := (out_seq_atomic (by decide)).1 h
  obtain ⟨y2, z2, _, _, rfl, _, p2, o3⟩ := (out_seq_atomic (by decide)).1 o2
  obtain ⟨y3, y4, _, _, rfl, _, p3, p4⟩ := (out_seq_atomic (by decide)).1 o3
  obtain ⟨c, rfl, hc, _⟩ := (like.out _ _ _).1 p1
  obtain ⟨q2, l2⟩ := ho p2
  obtain ⟨q3, l3⟩ := ho p3
  obtain ⟨q4, l4⟩ := ho p4
  refine ⟨isDesignator_iff.2 ⟨by simp, ?_⟩, by simp; omega⟩
  intro d hd
  simp only [List.mem_append, List.mem_singleton] at hd
  rcases hd with rfl | hd | hd | hd
  · exact hc
  · exact q2 d hd
  · exact q3 d hd
  · exact q4 d hd

theorem kind_letter {s r : Str} {ts : List (Tree Rule)} (h : Out skip K aircrafttype .nonAtomic s r ts) : ∃ c, s = [c] ∧ c ∈ c!"LSAGHT-" := by
  obtain ⟨_, h, _⟩ := h
  obtain ⟨c, rfl, hc, _⟩ := (((likeCls_char 'L' .atomic).alt ((likeCls_char 'S' .atomic).alt ((likeCls_char 'A' .atomic).alt ((likeCls_char 'G' .atomic).alt
    ((likeCls_char 'H' .atomic).alt ((likeCls_char 'T' .atomic).alt (likeCls_char '-' .atomic) (un rfl)) (un rfl)) (un rfl)) (un rfl)) (un rfl)) (un rfl) :
    LikeCls skip K _ .atomic _).out _ _ _).1 h
  exact ⟨c, rfl, by simpa using hc⟩

theorem engines_letter {s r : Str} {ts : List (Tree Rule)} (h : Out skip K num_engines .nonAtomic s r ts) :
    ∃ c, s = [c] ∧ (UnicodeTables.number c = true ∨ c ∈ c!"C-") := by
  obtain ⟨_, h, _⟩ := h
  obtain ⟨c, rfl, hc, _⟩ := (((likeCls_cls UnicodeTables.number .atomic).alt ((likeCls_char 'C' .atomic).alt (likeCls_char '-' .atomic) (un rfl)) (un rfl) :
    LikeCls skip K _ .atomic _).out _ _ _).1 h
  exact ⟨c, rfl, by simpa using hc⟩

theorem engine_letter {s r : Str} {ts : List (Tree Rule)} (h : Out skip K enginetype .nonAtomic s r ts) : ∃ c, s = [c] ∧ c ∈ c!"PTJER-" := by
  obtain ⟨_, h, _⟩ := h
  obtain ⟨c, rfl, hc, _⟩ := (((likeCls_char 'P' .atomic).alt ((likeCls_char 'T' .atomic).alt ((likeCls_char 'J' .atomic).alt ((likeCls_char 'E' .atomic).alt
    ((likeCls_char 'R' .atomic).alt (likeCls_char '-' .atomic) (un rfl)) (un rfl)) (un rfl)) (un rfl)) (un rfl) : LikeCls skip K _ .atomic _).out _ _ _).1 h
  exact ⟨c, rfl, by simpa using hc⟩

/-! ### Continued names -/

/-- The text of a continuation, in front of `x`. -/
structure Cont (a x : Str) : Prop where
  ne : a ≠ []
  chars : ∀ c ∈ a, c ≠ '\t' ∧ ¬ IsNewline c
  head : a.head? ≠ some ' '
  last : a.getLast? ≠ some ' '
  comment : ∀ p q, a = p ++ q → q ≠ [] → ¬ StartsComment (q ++ x)

theorem cont_one {c : Char} {x : Str} (h1 : c ≠ '\t') (h2 : ¬ IsNewline c) (hp : Plain isSpace commentMarks (c :: x)) : Cont [c] x where
  ne := by simp
  chars := by simpa using ⟨h1, h2⟩
  head := by have := headNot_cons.1 hp.1; simpa using this
  last := by have := headNot_cons.1 hp.1; simpa using this
  comment := by
    intro p q e hq
    have : q = [c] := by
      cases p with
      | nil => exact e.symm
      | cons d p => simp at e; exact absurd e.2.2 hq
    subst this
    have := hp.2
    rwa [commentStart_iff] at this

theorem cont_cons {c : Char} {g a x : Str} (h1 : c ≠ '\t') (h2 : ¬ IsNewline c) (hg : Spaces g) (ha : Cont a x)
    (hp : Plain isSpace commentMarks (c :: (g ++ a ++ x))) : Cont (c :: (g ++ a)) x where
  ne := by simp
  chars := by
    intro d hd
    simp only [List.mem_cons, List.mem_append] at hd
    rcases hd with rfl | hd | hd
    · exact ⟨h1, h2⟩
    · rw [hg d hd]
      exact ⟨by decide, by rintro (h | h) <;> exact absurd h (by decide)⟩
    · exact ha.chars d hd
  head := by have := headNot_cons.1 hp.1; simpa using this
  last := by
    have hne := ha.ne
    rw [← List.cons_append, List.getLast?_append]
    have hl := ha.last
    cases h : a.getLast? with
    | none => exact absurd (List.getLast?_eq_none_iff.1 h) hne
    | some d => rw [h] at hl; simpa using hl
  comment := by
    intro p q e hq
    cases p with
    | nil =>
      have : q = c :: (g ++ a) := e.symm
      subst this
      have := hp.2
      rwa [commentStart_iff] at this
    | cons d p =>
      have e : g ++ a = p ++ q := (List.cons.inj e).2
      rcases List.append_eq_append_iff.1 e with ⟨w, _, e2⟩ | ⟨w, e1, e2⟩
      · exact ha.comment w q e2 hq
      · cases w with
        | nil => exact ha.comment [] q e2.symm hq
        | cons y w =>
          have := hg y (by rw [e1]; simp)
          subst this
          rw [e2]
          rintro (h | h) <;> simp [List.cons_prefix_cons] at h

theorem more_inv {s r : Str} {ts : List (Tree Rule)} (h : Out skip K more .nonAtomic s r ts) (hp : Plain isSpace commentMarks (s ++ r)) :
    ∃ c, s = [c] ∧ c ≠ '\t' ∧ ¬ IsNewline c := by
  obtain ⟨s1, m, s2, t1, t2, rfl, k, ⟨rfl, _, hf⟩, ⟨c, rfl, _⟩, _⟩ := h
  have k : K m (c :: r) := k
  have hm : m = [] := gap_nil_of tabSkip k (by simpa using hp)
  subst hm
  have hf := (fails_alt_iff (uniform_eval tabSkip.uniform _ rfl _)).1 hf
  rw [fails_str, fails_newline] at hf
  refine ⟨c, rfl, ?_, ?_⟩
  · rintro rfl
    exact hf.1 (by simp)
  · intro hn
    have := headNot_cons.1 (show HeadNot isNewlineChar (c :: r) from by simpa using hf.2)
    rw [newline_char hn] at this
    cases this

theorem star_more {s r : Str} {ts : List (Tree Rule)} (h : Out skip K (.star more) .nonAtomic s r ts) (hp : Plain isSpace commentMarks (s ++ r)) :
    s = [] ∨ Cont s r := by
  rcases h with ⟨rfl, _, _⟩ | ⟨s1, t1, parts, rfl, hts, h2, hr, _⟩
  · exact Or.inl rfl
  · right
    have key : parts = [] ∨ ∃ g a, parts.flatMap (fun p => p.1.1 ++ p.1.2) = g ++ a ∧ Spaces g ∧ Cont a r := by
      clear h2 hp hts
      induction parts with
      | nil => exact Or.inl rfl
      | cons p ps ih =>
        right
        obtain ⟨⟨k, o⟩, hr⟩ := hr
        have k : K p.1.1 (p.1.2 ++ (ps.flatMap (fun p => p.1.1 ++ p.1.2) ++ r)) := k
        have pl := tabSkip.plain k
        obtain ⟨c, e, h3, h4⟩ := more_inv o pl
        rw [e] at k pl
        have hsp : Spaces p.1.1 := spaces_of_pw (gap_spaces tabSkip (show K p.1.1 (c :: _) from k) (not_newline_iff.2 h4))
        rw [List.flatMap_cons, e]
        rcases ih hr with rfl | ⟨g, a, e2, h5, h6⟩
        · exact ⟨p.1.1, [c], by simp, hsp, cont_one h3 h4 (by simpa using pl)⟩
        · rw [e2] at pl ⊢
          exact ⟨p.1.1, c :: (g ++ a), by simp, hsp, cont_cons h3 h4 h5 h6 (by simpa using pl)⟩
    obtain ⟨c, rfl, h3, h4⟩ := more_inv h2 (by simpa using hp)
    rcases key with rfl | ⟨g, a, e2, h5, h6⟩
    · exact cont_one h3 h4 (by simpa using hp)
    · rw [e2] at hp ⊢
      exact cont_cons (g := g) (a := a) h3 h4 h5 h6 (by simpa using hp)

/-- What is read for a continuation with the gap behind it. -/
theorem plus_more {s m r : Str} {ts : List (Tree Rule)} (h : Out skip K (.plus more) .nonAtomic s (m ++ r) ts) (hp : Plain isSpace commentMarks (s ++ (m ++ r)))
    (hk : K m r) : ∃ a tr, s ++ m = a ++ tr ∧ K tr r ∧ Cont a (tr ++ r) ∧ Fails skip more .nonAtomic r := by
  obtain ⟨s1, g, s2, t1, t2, rfl, k, h1, h2, _⟩ := h
  have k : K g (s2 ++ (m ++ r)) := k
  obtain ⟨c, rfl, h3, h4⟩ := more_inv h1 (by simpa using hp)
  have pl := tabSkip.plain k
  rcases star_more h2 pl with rfl | h5
  · have hm : m = [] := gap_nil_of tabSkip hk (by simpa using pl)
    subst hm
    refine ⟨[c], g, by simp, by simpa using k, cont_one h3 h4 (by simpa using hp), ?_⟩
    rcases h2 with ⟨_, _, h2⟩ | ⟨s1, t1, parts, e, _, h2, _⟩
    · simpa using h2
    · have e0 := (List.append_eq_nil_iff.1 e.symm)
      obtain ⟨d, e1, _⟩ := more_inv h2 (by
        rw [← List.append_assoc, ← e]
        exact pl)
      rw [e0.1] at e1
      cases e1
  · have hsp : Spaces g := by
      cases s2 with
      | nil => exact absurd rfl h5.ne
      | cons d s2 => exact spaces_of_pw (gap_spaces tabSkip (show K g (d :: _) from k) (not_newline_iff.2 (h5.chars d (by simp)).2))
    refine ⟨c :: (g ++ s2), m, by simp, hk, cont_cons h3 h4 hsp h5 (by simpa using hp), ?_⟩
    rcases h2 with ⟨e, _⟩ | ⟨s1, t1, parts, e, _, h2, _, pos, stk, h6⟩
    · exact absurd e h5.ne
    · rw [skipIf_exact tabSkip.exact (a := .nonAtomic) (m := m) (r := r) (st := ⟨pos, m ++ r, stk⟩) hk rfl] at h6
      exact ⟨_, _, h6⟩

omit [UnicodeTables] in
theorem starts_mono {q x y : Str} (h : StartsComment (q ++ x)) : StartsComment (q ++ (x ++ y)) := by
  rw [← List.append_assoc]
  rcases h with h | h
  · exact Or.inl (h.trans (List.prefix_append _ _))
  · exact Or.inr (h.trans (List.prefix_append _ _))

theorem cont_more {rest : Str → Prop} {a tr x : Str} (h : Cont a (tr ++ x)) (ht : rest tr) : IsMore rest (a ++ tr) := by
  have hc : ∀ p q, a = p ++ q → q ≠ [] → ¬ StartsComment (q ++ tr) := fun p q e hq hs => h.comment p q e hq (starts_mono hs)
  refine ⟨[], a, tr, rfl, by simp [Spaces], ⟨h.chars, h.head, ?_⟩, h.ne, h.last, ht, hc⟩
  intro hs
  exact hc [] a rfl h.ne (starts_mono (x := []) (by simpa using hs))

theorem sound_more {s r : Str} {ts : List (Tree Rule)} {ds : List (Option Spec.Icao.Aircraft)} (ho : Out skip K continued_name .nonAtomic s r ts)
    (hp : Plain isSpace commentMarks (s ++ r)) (hf : IsFile IsRest line last r ds) (ht : r.head? ≠ some '\t') :
    IsFile IsRest line last (s ++ r) (none :: ds) ∧ (s ++ r).head? ≠ some '\t' := by
  obtain ⟨_, ⟨p, m, u, _, _, rfl, k, o1, o2, _⟩, _⟩ := ho
  have k : K m (u ++ r) := k
  obtain ⟨a, tr, e, k2, hc, hfail⟩ := plus_more o1 (by simpa using hp) k
  have e2 : p ++ m ++ u ++ r = a ++ (tr ++ (u ++ r)) := by rw [e]; simp
  refine ⟨?_, ?_⟩
  · rw [e2]
    rcases o2 with o2 | ⟨rfl, _, o2⟩
    · obtain ⟨b, c, t, e3, hb, hn, hf2⟩ := sound_NL tabSkip kinds o2 hf
      rw [e3] at hc k2 ⊢
      have := IsFile.line (rest := IsRest) (line := line) (last := last) none (a ++ (tr ++ b)) c t ds
        (cont_more (x := c :: t) (by simpa using hc) (gap_append tabSkip k2 hb)) hn hf2
      simpa using this
    · have hr : r = [] := by
        cases r with
        | nil => rfl
        | cons c r =>
          have hcn : ¬ IsNewline c := fun hn => nl_matches tabSkip hn o2
          have hct : c ≠ '\t' := by simpa using ht
          have om := out_more hct hcn (by simpa using tabSkip.plain k)
          exact absurd hfail (not_fails_of_ok tabSkip.uniform rfl
            ⟨0, [], _, _, out_eval tabSkip.uniform tabSkip.exact _ (by rfl) (by rfl) .nonAtomic [c] r [] ⟨0, c :: r, []⟩ om rfl⟩)
      subst hr
      have hds := file_nil kinds hf
      subst hds
      have hrest : IsRest tr := by
        have := rest_of_gap tabSkip (b := []) (by simpa using k2) ⟨[], [], rfl, by simp [Spaces], Or.inl rfl⟩
        simpa using this
      have := IsFile.last (rest := IsRest) (line := line) (last := last) none (a ++ tr) (cont_more (x := []) (by simpa using hc) hrest)
      simpa using this
  · rw [e2]
    cases a with
    | nil => exact absurd rfl hc.ne
    | cons c a =>
      have := (hc.chars c (by simp)).1
      simpa using this

theorem sound_def {s r : Str} {ts : List (Tree Rule)} {ds : List (Option Spec.Icao.Aircraft)} (ho : Out skip K definition .nonAtomic s r ts)
    (hf : IsFile IsRest line last r ds) (ht : r.head? ≠ some '\t') :
    (∃ d, IsFile IsRest line last (s ++ r) (d :: ds)) ∧ (s ++ r).head? ≠ some '\t' := by
  obtain ⟨_, ⟨d, m1, _, _, _, rfl, k1, o1, ⟨_, m2, _, _, _, rfl, k2, ⟨rfl, _⟩, ⟨_, m3, _, _, _, rfl, k3, o3, ⟨_, m4, _, _, _, rfl, k4, o4,
    ⟨_, m5, _, _, _, rfl, k5, o5, ⟨_, m6, _, _, _, rfl, k6, o6, ⟨_, m7, _, _, _, rfl, k7, ⟨rfl, _⟩, ⟨n, m8, _, _, _, rfl, k8, o8,
    ⟨_, m9, _, _, _, rfl, k9, ⟨rfl, _⟩, ⟨k, m10, u, _, _, rfl, k10, o10, o11, _⟩, _⟩, _⟩, _⟩, _⟩, _⟩, _⟩, _⟩, _⟩, _⟩, _⟩ := ho
  have hd := sound_designator o1
  obtain ⟨c1, rfl, l1⟩ := wtc_letter o3
  obtain ⟨c2, rfl, l2⟩ := kind_letter o4
  obtain ⟨c3, rfl, l3⟩ := engines_letter o5
  obtain ⟨c4, rfl, l4⟩ := engine_letter o6
  have o8 : Out skip K (fieldE Rule.manufacturer .tab_delimited_text) .nonAtomic n _ _ := o8
  have nl : ∀ {c : Char} {l : Str}, c ∈ l → (∀ d ∈ l, isNewlineChar d = false) → isNewlineChar c = false := fun h h2 => h2 _ h
  have i1 : Inner n (m7 ++ n ++ m8 ++ ['\t']) := sound_inner tabSkip (r := m9 ++ (k ++ m10 ++ u) ++ r) (by simpa using k7) (by simpa using o8) (by simpa using k8)
  have s1 : Spaces m1 := spaces_of_pw (gap_spaces tabSkip (c := '\t') (show K m1 ('\t' :: _) by simpa using k1) (by decide))
  have s2 : Spaces m2 := spaces_of_pw (gap_spaces tabSkip (c := c1) (show K m2 (c1 :: _) by simpa using k2) (nl l1 (by decide)))
  have s3 : Spaces m3 := spaces_of_pw (gap_spaces tabSkip (c := c2) (show K m3 (c2 :: _) by simpa using k3) (nl l2 (by decide)))
  have s4 : Spaces m4 := spaces_of_pw (gap_spaces tabSkip (c := c3) (show K m4 (c3 :: _) by simpa using k4) (by
    rcases l3 with l3 | l3
    · cases hn : isNewlineChar c3 with
      | false => rfl
      | true =>
        rcases newline_of hn with rfl | rfl <;> rw [UnicodeTables.number_ascii _ (by decide)] at l3 <;> exact absurd l3 (by decide)
    · exact nl l3 (by decide)))
  have s5 : Spaces m5 := spaces_of_pw (gap_spaces tabSkip (c := c4) (show K m5 (c4 :: _) by simpa using k5) (nl l4 (by decide)))
  have s6 : Spaces m6 := spaces_of_pw (gap_spaces tabSkip (c := '\t') (show K m6 ('\t' :: _) by simpa using k6) (by decide))
  have text : ∀ (name : Str → Str → Prop) (w : Str), name k w → AircraftText name ⟨d, c1, c2, c3, c4, n, k⟩
      (d ++ m1 ++ ['\t'] ++ m2 ++ [c1] ++ m3 ++ [c2] ++ m4 ++ [c3] ++ m5 ++ [c4] ++ m6 ++ ['\t'] ++ (m7 ++ n ++ m8 ++ ['\t']) ++ w) :=
    fun name w hw => ⟨[], m1, m2, m3, m4, m5, m6, _, w, by simp, by simp [Spaces], s1, s2, s3, s4, s5, s6, hd, l1, l2, l3, l4, i1, hw⟩
  refine ⟨⟨some ⟨d, c1, c2, c3, c4, n, k⟩, ?_⟩, ?_⟩
  · rcases sound_final tabSkip kinds (by simpa using k9) o10 k10 o11 hf ht with ⟨w, x, t, e, h1, h2, h3⟩ | ⟨h1, rfl, rfl, rfl⟩
    · have := IsFile.line (rest := IsRest) (line := line) (last := last) (some ⟨d, c1, c2, c3, c4, n, k⟩) _ x t ds (text Final w h1) h2 h3
      have e2 : m9 ++ (k ++ (m10 ++ (u ++ r))) = w ++ x :: t := by rw [← e]; simp
      rw [List.append_assoc, ← e2] at this
      simpa using this
    · have hds := file_nil kinds hf
      subst hds
      have := IsFile.last (rest := IsRest) (line := line) (last := last) (some ⟨d, c1, c2, c3, c4, n, k⟩) _ (text AtEnd (m9 ++ k) h1)
      simpa using this
  · have hd1 := isDesignator_iff.1 hd.1
    rw [List.append_assoc, List.append_assoc]
    exact head_not_tab hd1.1 hd1.2

theorem sound_item : SoundItem skip K isSpace item IsRest line last := by
  intro s r ts ds ho hp hf ht
  rcases ho with ho | ⟨ho | ⟨ho, _⟩, _⟩
  · exact (not_comment ho hp).elim
  · obtain ⟨h1, h2⟩ := sound_def ho hf (ht (by decide))
    exact ⟨h1, fun _ => h2⟩
  · obtain ⟨h1, h2⟩ := sound_more ho hp hf (ht (by decide))
    exact ⟨⟨_, h1⟩, fun _ => h2⟩

theorem sound {content : Str} {m : AircraftMap} (h : parseAircraft content = .ok m) :
    ∃ ds, ds ≠ [] ∧ IsFile IsRest (AircraftLine IsBlank Final) (AircraftLine IsRest AtEnd) content ds := by
  rcases run_cases (e := aircraft) tabSkip.ok rfl content with he | ⟨ts, s, rest, he, rfl, ho⟩
  · rw [parseAircraft, he] at h; cases h
  · have hr : rest = [] := by
      obtain ⟨_, ⟨_, _, _, _, _, _, _, _, ⟨_, _, _, _, _, _, _, _, ⟨_, _, _, _, _, _, _, _, ⟨_, h, _⟩, _⟩, _⟩, _⟩, _⟩ := ho
      exact h
    subst hr
    rw [List.append_nil]
    exact sound_file (P := fun ds => ds ≠ []) tabSkip kinds (fun s r ts ho hp hf ht => sound_plus tabSkip kinds sound_item ho hp hf ht) ho

end Aircraft

namespace Navdata
open Verif.Peg.NavdataAirports Verif.Parse.Icao
variable [UnicodeTables]

theorem spaces_app {a b : Str} (ha : IsSpaces a) (hb : IsSpaces b) : IsSpaces (a ++ b) := fun c hc => by
  rcases List.mem_append.1 hc with hc | hc
  · exact ha c hc
  · exact hb c hc

theorem text_gap {d : Spec.Icao.Navdata} {s b : Str} (hb : IsSpaces b) (h : NavdataText d s) : NavdataText d (b ++ s) := by
  obtain ⟨b0, b1, b2, b3, rfl, h0, h1⟩ := h
  exact ⟨b ++ b0, b1, b2, b3, by simp, spaces_app hb h0, h1⟩

theorem text_head {d : Spec.Icao.Navdata} {s : Str} (h : NavdataText d s) : ∃ c t, s = c :: t ∧ isNewlineChar c = false := by
  obtain ⟨b0, b1, b2, b3, rfl, h0, _, _, _, _, _, _, hd, _⟩ := h
  rw [isDesignator_iff] at hd
  cases b0 with
  | cons c b => exact ⟨c, _, rfl, by rcases h0 c (by simp) with rfl | rfl <;> decide⟩
  | nil =>
    obtain ⟨h1, h2⟩ := hd
    revert h1 h2
    cases d.designator with
    | nil => intro h; exact absurd rfl h
    | cons c t =>
      intro _ h2
      refine ⟨c, _, rfl, ?_⟩
      cases hn : isNewlineChar c with
      | false => rfl
      | true =>
        have := h2 c (by simp)
        rcases newline_of hn with rfl | rfl <;> rw [des_not (by decide)] at this <;> cases this

theorem kinds : Kinds K isSpTab IsBlank NavdataText NavdataText where
  rest_nil := ⟨[], [], rfl, by simp [IsSpaces], Or.inl rfl⟩
  rest_gap := fun _ _ hk hb => gap_append tabSkip (t := []) (by simpa using hk) hb
  line_gap := fun _ _ _ hb => text_gap (spTab_isSpaces hb)
  last_gap := fun _ _ _ hb => text_gap (spTab_isSpaces hb)
  line_head := fun _ _ => text_head
  last_head := fun _ _ => text_head

theorem run_split {p : Char → Bool} (s : Str) : ∃ a b, s = a ++ b ∧ (∀ c ∈ a, p c = true) ∧ HeadNot p b := by
  induction s with
  | nil => exact ⟨[], [], rfl, by simp, headNot_nil _⟩
  | cons c s ih =>
    by_cases hc : p c = true
    · obtain ⟨a, b, rfl, h1, h2⟩ := ih
      exact ⟨c :: a, b, rfl, by simpa [hc] using h1, h2⟩
    · exact ⟨[], c :: s, rfl, by simp, headNot_cons.2 (by simpa using hc)⟩

theorem sound_decimal {s r : Str} {ts : List (Tree Rule)} (h : Out skip K decimal .nonAtomic s r ts) : IsDecimal s ∧ Stops s r := by
  obtain ⟨_, h, _⟩ := h
  have h : Out skip K (Base.decimal : Expr Rule) .atomic s r _ := h
  have ha : Atom.atomic ≠ .nonAtomic := by decide
  refine ⟨(Peg.out_decimal ha h).2, ?_⟩
  obtain ⟨s1, s2, _, _, rfl, _, _, h2⟩ := (out_seq_atomic ha).1 h
  rcases h2 with h2 | ⟨h2, hf⟩
  · obtain ⟨d, x, _, _, rfl, _, h3, h4⟩ := (out_seq_atomic ha).1 h2
    obtain ⟨y, f, _, _, rfl, _, ⟨rfl, _⟩, h5⟩ := (out_seq_atomic ha).1 h4
    obtain ⟨_, _, h6, _⟩ := ((likeCls_cls isAsciiDigit .atomic).plus ha).1 h5
    exact ⟨h6, fun hn => absurd (by simp) hn⟩
  · obtain ⟨h3, h4, h5, _⟩ := ((likeCls_cls isAsciiDigit .atomic).plus ha).1 h2
    refine ⟨h5, fun _ c t e => ?_⟩
    cases hc : isAsciiDigit c with
    | false => rfl
    | true =>
      exfalso
      obtain ⟨a, b, e2, h6, h7⟩ := run_split (p := isAsciiDigit) t
      subst e e2
      have o : Out skip K ((.star (.cls isAsciiDigit)) ⬝ (.str c!".") ⬝ (.plus (.cls isAsciiDigit)) : Expr Rule) .atomic (s2 ++ ('.' :: (c :: a))) b [] := by
        refine (out_seq_atomic ha).2 ⟨s2, '.' :: c :: a, [], [], rfl, rfl, ((likeCls_cls isAsciiDigit .atomic).star ha).2 ⟨h4, headNot_cons.2 (by decide), rfl⟩, ?_⟩
        refine (out_seq_atomic ha).2 ⟨['.'], c :: a, [], [], rfl, rfl, out_str0, ((likeCls_cls isAsciiDigit .atomic).plus ha).2 ⟨by simp, ?_, h7, rfl⟩⟩
        intro d hd
        rcases List.mem_cons.1 hd with rfl | hd
        · exact hc
        · exact h6 d hd
      exact not_fails_of_ok tabSkip.uniform rfl
        ⟨0, [], _, _, out_eval tabSkip.uniform tabSkip.exact _ (by rfl) (by rfl) .atomic _ b [] ⟨0, s2 ++ '.' :: c :: (a ++ b), []⟩ o (by simp)⟩ hf

theorem stops_of {s x y : Str} (h : Stops s (x ++ y)) (hx : x ≠ []) : Stops s x := by
  cases x with
  | nil => exact absurd rfl hx
  | cons c x => exact ⟨h.1, fun hn d t e => h.2 hn d (t ++ y) (by rw [e]; rfl)⟩

theorem decimal_nn {s : Str} (h : IsDecimal s) : ∃ c t, s = c :: t ∧ isNewlineChar c = false := by
  obtain ⟨c, t, rfl, hc⟩ := Ese.decimal_head h
  refine ⟨c, t, rfl, ?_⟩
  cases hn : isNewlineChar c with
  | false => rfl
  | true => rcases newline_of hn with rfl | rfl <;> exact absurd hc (by decide)

theorem sound_item : SoundItem skip K isSpTab item IsBlank NavdataText NavdataText := by
  intro s r ts ds ho hp hf _
  rcases ho with ho | ⟨ho, _⟩
  · exact (not_comment ho hp).elim
  refine ⟨?_, fun h => absurd h (by decide)⟩
  obtain ⟨_, ⟨d, m1, _, _, _, rfl, k1, ⟨_, o1, _⟩, ⟨x, m2, _, _, _, rfl, k2, o2, ⟨y, m3, _, _, _, rfl, k3, o3,
    ⟨n, m4, u, _, _, rfl, k4, ⟨_, o4, _⟩, o5, _⟩, _⟩, _⟩, _⟩, _⟩ := ho
  obtain ⟨d1, d2, d3, _⟩ := ((likeDes (K := K) tabSkip.uniform .atomic).plus (by decide)).1 o1
  obtain ⟨n1, n2, n3, _⟩ := ((likeCls_notNewline (by decide)).plus (by decide)).1 o4
  obtain ⟨hx, px⟩ := sound_decimal o2
  obtain ⟨hy, py⟩ := sound_decimal o3
  have k1 : K m1 (x ++ m2 ++ (y ++ m3 ++ (n ++ m4 ++ u)) ++ r) := k1
  have k2 : K m2 (y ++ m3 ++ (n ++ m4 ++ u) ++ r) := k2
  have k3 : K m3 (n ++ m4 ++ u ++ r) := k3
  have k4 : K m4 (u ++ r) := k4
  have hv : ∀ c ∈ n, ¬ IsNewline c := fun c hc => by
    have := n2 c hc
    simpa [isNewlineChar, IsNewline] using this
  have b1 : IsSpaces m1 := by
    obtain ⟨c, t, rfl, hc⟩ := decimal_nn hx
    exact spTab_isSpaces (gap_spaces tabSkip (c := c) (by simpa using k1) hc)
  have b2 : IsSpaces m2 := by
    obtain ⟨c, t, rfl, hc⟩ := decimal_nn hy
    exact spTab_isSpaces (gap_spaces tabSkip (c := c) (by simpa using k2) hc)
  have b3 : IsSpaces m3 := by
    cases n with
    | nil => exact absurd rfl n1
    | cons c n => exact spTab_isSpaces (gap_spaces tabSkip (c := c) (by simpa using k3) (not_newline_iff.2 (hv c (by simp))))
  have pl := tabSkip.plain k3
  have text : NavdataText ⟨d, x, y, n⟩ (d ++ m1 ++ x ++ m2 ++ y ++ m3 ++ n) := by
    refine ⟨[], m1, m2, m3, by simp, by simp [IsSpaces], b1, ?_, b2, ?_, b3, ?_, isDesignator_iff.2 ⟨d1, d2⟩, hx, hy, n1, hv, ?_, ?_⟩
    · rintro rfl c hc
      have := d3 c (by
        obtain ⟨c', t, rfl, _⟩ := decimal_nn hx
        simpa using hc)
      simp only [Bool.or_eq_false_iff] at this
      exact this.2
    · exact stops_of (y := m3 ++ (n ++ m4 ++ u) ++ r) (by simpa using px) (by simp [(decimal_ne hy).1])
    · exact stops_of (y := m4 ++ u ++ r) (by simpa using py) (by simp [n1])
    · intro c hc hb
      cases n with
      | nil => cases hc
      | cons c' n =>
        cases hc
        have := headNot_cons.1 (show HeadNot isSpTab (c :: (n ++ m4 ++ u ++ r)) by simpa using pl.1)
        rcases hb with rfl | rfl <;> exact absurd this (by decide)
    · intro hs
      refine pl.2 (commentStart_iff.2 ?_)
      simp only [List.append_assoc]
      rcases hs with hs | hs
      · exact Or.inl (hs.trans (List.prefix_append _ _))
      · exact Or.inr (hs.trans (List.prefix_append _ _))
  refine ⟨⟨d, x, y, n⟩, ?_⟩
  have n3 : AtLineEnd (m4 ++ (u ++ r)) := n3
  have hm4 : m4 = [] := blank_nil (gap_blank tabSkip k4) n3
  subst hm4
  rcases o5 with o5 | ⟨rfl, _, o5⟩
  · obtain ⟨b, c, t, e, hb, hc, hf2⟩ := sound_NL tabSkip kinds o5 hf
    have hb0 : b = [] := blank_nil (t := c :: t) hb (by rw [← e]; exact n3)
    subst hb0
    have := IsFile.line (rest := IsBlank) (line := NavdataText) (last := NavdataText) ⟨d, x, y, n⟩ _ c t ds text hc hf2
    have e : u ++ r = c :: t := e
    rw [← e] at this
    simpa using this
  · have hr : r = [] := by
      cases r with
      | nil => rfl
      | cons c r =>
        have hc : isNewlineChar c = true := by
          have := headNot_cons.1 (show HeadNot (fun c => !isNewlineChar c) (c :: r) from n3)
          simpa using this
        exact absurd o5 (nl_matches tabSkip (newline_of hc))
    subst hr
    have hds := file_nil kinds hf
    subst hds
    have := IsFile.last (rest := IsBlank) (line := NavdataText) (last := NavdataText) ⟨d, x, y, n⟩ _ text
    simpa using this

theorem sound {F : Type} [F64 F] {content : Str} {m : Map Str (NavdataAirport F)} (h : parseNavdataAirports content = .ok m) :
    ∃ ds, IsFile IsBlank NavdataText NavdataText content ds := by
  rcases run_cases (e := airports) tabSkip.ok rfl content with he | ⟨ts, s, rest, he, rfl, ho⟩
  · rw [parseNavdataAirports, he] at h; cases h
  · have hr : rest = [] := by
      obtain ⟨_, ⟨_, _, _, _, _, _, _, _, ⟨_, _, _, _, _, _, _, _, ⟨_, _, _, _, _, _, _, _, ⟨_, h, _⟩, _⟩, _⟩, _⟩, _⟩ := ho
      exact h
    subst hr
    rw [List.append_nil]
    obtain ⟨ds, _, h2⟩ := sound_file (P := fun _ => True) tabSkip kinds (fun s r ts ho hp hf ht => by
      obtain ⟨⟨ds, h1⟩, _⟩ := sound_star tabSkip kinds sound_item ho hp hf ht
      exact ⟨ds, trivial, h1⟩) ho
    exact ⟨ds, h2⟩

end Navdata

end Verif.Proofs.Icao
