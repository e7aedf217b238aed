import Verif.Peg.Chars
/-!
# What the implicit skip of the line-based grammars consumes
-/

namespace Verif.Peg
variable {R : Type}

/-- The text is empty or starts with a line end. -/
def AtLineEnd (r : Str) : Prop := HeadNot (fun c => !isNewlineChar c) r

/-- The rest starts with a comment marker. -/
def CommentStart (starts : List Str) (r : Str) : Prop := ∃ w ∈ starts, w <+: r

/-- A marker and the rest of the line. -/
def CommentText (starts : List Str) (s : Str) : Prop :=
  ∃ w ∈ starts, ∃ body, s = w ++ body ∧ ∀ c ∈ body, isNewlineChar c = false

/-- A comment rule: a marker and everything up to the line end. -/
structure LikeComment (x : Expr R) (starts : List Str) : Prop where
  out : ∀ s r ts, Out noSkip NoGap x .atomic s r ts ↔
    CommentText starts s ∧ AtLineEnd r ∧ ts = []
  fails : ∀ r, Fails noSkip x .atomic r ↔ ¬ CommentStart starts r

/-- Blanks, then possibly a comment that runs to the line end. -/
def BlankText (pw : Char → Bool) (starts : List Str) (m r : Str) : Prop :=
  ∃ sp cm, m = sp ++ cm ∧ (∀ c ∈ sp, pw c = true) ∧
    ((cm = [] ∧ HeadNot pw r ∧ ¬ CommentStart starts r) ∨ (CommentText starts cm ∧ AtLineEnd r))

theorem out_seq_atomic {sk : St → Res R} {K : Str → Str → Prop} {x y : Expr R} {a : Atom}
    (ha : a ≠ .nonAtomic) {s r : Str} {ts : List (Tree R)} :
    Out sk K (x ⬝ y) a s r ts ↔ ∃ s1 s2 t1 t2, s = s1 ++ s2 ∧ ts = t1 ++ t2 ∧
      Out sk K x a s1 (s2 ++ r) t1 ∧ Out sk K y a s2 r t2 := by
  constructor
  · rintro ⟨s1, m, s2, t1, t2, rfl, hg, h1, h2, rfl⟩
    rw [gap_nil ha hg] at h1 ⊢
    exact ⟨s1, s2, t1, t2, by simp, rfl, h1, h2⟩
  · rintro ⟨s1, s2, t1, t2, rfl, rfl, h1, h2⟩
    exact ⟨s1, [], s2, t1, t2, by simp, gap_refl ha _, h1, h2, rfl⟩

theorem fails_seq_iff {sk : St → Res R} {K : Str → Str → Prop} {x y : Expr R} {a : Atom}
    (hs : SkipOK K sk) (hy : ∀ st, ∃ st' ts, eval sk y a st = .ok st' ts)
    {r : Str} : Fails sk (x ⬝ y) a r ↔ Fails sk x a r := by
  refine ⟨?_, fails_seq_left⟩
  rintro ⟨pos, stk, h⟩
  refine ⟨pos, stk, ?_⟩
  simp only [eval] at h
  cases h1 : eval sk x a ⟨pos, r, stk⟩ with
  | fail => rfl
  | diverge => simp [h1] at h
  | ok st1 t1 =>
    obtain ⟨st2, h2, _⟩ := skipIf_spec hs a st1
    obtain ⟨st3, t3, h3⟩ := hy st2
    simp [h1, h2, h3] at h

theorem eval_star_ok {sk : St → Res R} {K : Str → Str → Prop} (hs : SkipOK K sk) {x : Expr R}
    (hw : wf (.star x) = true) (a : Atom) (st : St) : ∃ st' ts, eval sk (.star x) a st = .ok st' ts := by
  have h := eval_ne_diverge hs (.star x) hw a st
  cases h1 : eval sk (.star x) a st with
  | ok st' ts => exact ⟨st', ts, rfl⟩
  | diverge => exact absurd h1 h
  | fail =>
    simp only [eval] at h1
    split at h1
    · cases h1
    · cases h1
    · next st1 ts1 _ =>
      generalize hm : many _ _ st1 = q at h1
      cases q with
      | fail => exact absurd hm (many_ne_fail _ _ _)
      | diverge => simp at h1
      | ok _ _ => simp at h1

/-- The comment of most grammars: `;` or `//`. -/
abbrev commentMarks : List Str := [[';'], ['/', '/']]

theorem likeComment_std : LikeComment (R := R)
    (.quiet (((.str c!";") ∥ (.str c!"//")) ⬝ (.star ((.not .newline) ⬝ .any)))) commentMarks := by
  refine ⟨fun s r ts => ?_, fun r => ?_⟩
  · show Out noSkip NoGap (((.str c!";") ∥ (.str c!"//")) ⬝ (.star ((.not .newline) ⬝ .any))) .atomic s r ts ↔ _
    rw [out_seq_atomic (by simp)]
    simp only [(likeCls_notNewline (sk := noSkip) (K := NoGap) (a := .atomic) (by simp)).star (by simp)]
    constructor
    · rintro ⟨s1, s2, t1, t2, rfl, rfl, h1, h2, h3, rfl⟩
      have : (s1 = c!";" ∨ s1 = c!"//") ∧ t1 = [] := by
        rcases h1 with ⟨rfl, rfl⟩ | ⟨⟨rfl, rfl⟩, _⟩ <;> simp
      obtain ⟨hs1, rfl⟩ := this
      refine ⟨⟨s1, ?_, s2, rfl, fun c hc => by simpa using h2 c hc⟩, h3, rfl⟩
      rcases hs1 with rfl | rfl <;> simp [commentMarks]
    · rintro ⟨⟨w, hw, body, rfl, hb⟩, h3, rfl⟩
      refine ⟨w, body, [], [], rfl, rfl, ?_, fun c hc => by simp [hb c hc], h3, rfl⟩
      simp only [commentMarks, List.mem_cons, List.not_mem_nil, or_false] at hw
      rcases hw with rfl | rfl
      · exact Or.inl ⟨rfl, rfl⟩
      · exact Or.inr ⟨⟨rfl, rfl⟩, fails_str.2 (by simp)⟩
  · show Fails noSkip (((.str c!";") ∥ (.str c!"//")) ⬝ (.star ((.not .newline) ⬝ .any))) .atomic r ↔ _
    rw [fails_seq_iff noSkip_ok (eval_star_ok noSkip_ok rfl _),
      fails_alt_iff (uniform_eval uniform_noSkip _ rfl _), fails_str, fails_str]
    simp [CommentStart, commentMarks]

theorem likeComment_semi : LikeComment (R := R)
    (.quiet ((.str c!";") ⬝ (.star ((.not .newline) ⬝ .any)))) [[';']] := by
  refine ⟨fun s r ts => ?_, fun r => ?_⟩
  · show Out noSkip NoGap ((.str c!";") ⬝ (.star ((.not .newline) ⬝ .any))) .atomic s r ts ↔ _
    rw [out_seq_atomic (by simp)]
    simp only [(likeCls_notNewline (sk := noSkip) (K := NoGap) (a := .atomic) (by simp)).star (by simp)]
    constructor
    · rintro ⟨s1, s2, t1, t2, rfl, rfl, ⟨rfl, rfl⟩, h2, h3, rfl⟩
      exact ⟨⟨_, by simp, s2, rfl, fun c hc => by simpa using h2 c hc⟩, h3, rfl⟩
    · rintro ⟨⟨w, hw, body, rfl, hb⟩, h3, rfl⟩
      rw [List.mem_singleton] at hw
      exact ⟨w, body, [], [], rfl, rfl, ⟨hw, rfl⟩, fun c hc => by simp [hb c hc], h3, rfl⟩
  · show Fails noSkip ((.str c!";") ⬝ (.star ((.not .newline) ⬝ .any))) .atomic r ↔ _
    rw [fails_seq_iff noSkip_ok (eval_star_ok noSkip_ok rfl _),
      fails_str]
    simp [CommentStart]

/-- Markers that blanks and line ends cannot be confused with. -/
def Apart (pw : Char → Bool) (starts : List Str) : Prop :=
  (∀ c, isNewlineChar c = true → pw c = false) ∧
    ∀ w ∈ starts, ∃ c t, w = c :: t ∧ pw c = false ∧ isNewlineChar c = false

theorem atLineEnd_not {pw : Char → Bool} {starts : List Str} (ha : Apart pw starts) {r : Str}
    (h : AtLineEnd r) : HeadNot pw r ∧ ¬ CommentStart starts r := by
  cases r with
  | nil =>
    refine ⟨headNot_nil _, ?_⟩
    rintro ⟨w, hw, hp⟩
    obtain ⟨c, t, rfl, _⟩ := ha.2 w hw
    simp at hp
  | cons d r =>
    have hd : isNewlineChar d = true := by simpa using headNot_cons.1 h
    refine ⟨headNot_cons.2 (ha.1 d hd), ?_⟩
    rintro ⟨w, hw, hp⟩
    obtain ⟨c, t, rfl, _, hc⟩ := ha.2 w hw
    rw [List.cons_prefix_cons] at hp
    rw [hp.1, hd] at hc
    cases hc

theorem blank_iff {ws cm : Expr R} {pw : Char → Bool} {starts : List Str}
    (hw : LikeCls noSkip NoGap ws .atomic pw) (hc : LikeComment cm starts) (ha : Apart pw starts)
    (m r : Str) : Blank [ws, cm] m r ↔ BlankText pw starts m r := by
  have hpc : ∀ p r, Piece [ws, cm] p r ↔ (∃ c, p = [c] ∧ pw c = true) ∨
      (CommentText starts p ∧ AtLineEnd r) := by
    intro p r
    constructor
    · rintro ⟨x, hx, ts, ho⟩
      simp only [List.mem_cons, List.not_mem_nil, or_false] at hx
      rcases hx with rfl | rfl
      · obtain ⟨c, h1, h2, _⟩ := (hw.out _ _ _).1 ho
        exact Or.inl ⟨c, h1, h2⟩
      · obtain ⟨h1, h2, _⟩ := (hc.out _ _ _).1 ho
        exact Or.inr ⟨h1, h2⟩
    · rintro (⟨c, h1, h2⟩ | ⟨h1, h2⟩)
      · exact ⟨ws, by simp, [], (hw.out _ _ _).2 ⟨c, h1, h2, rfl⟩⟩
      · exact ⟨cm, by simp, [], (hc.out _ _ _).2 ⟨h1, h2, rfl⟩⟩
  have hfl : (∀ x ∈ [ws, cm], Fails noSkip x .atomic r) ↔ HeadNot pw r ∧ ¬ CommentStart starts r := by
    simp [hw.fails, hc.fails]
  unfold Blank
  rw [hfl]
  constructor
  · rintro ⟨⟨ps, rfl, hp⟩, h1, h2⟩
    induction ps with
    | nil => exact ⟨[], [], rfl, by simp, Or.inl ⟨rfl, h1, h2⟩⟩
    | cons p ps ih =>
      obtain ⟨sp, c, e, h3, h4⟩ := ih hp.2
      rcases (hpc _ _).1 hp.1 with ⟨d, rfl, hd⟩ | ⟨h5, h6⟩
      · refine ⟨d :: sp, c, by simp [e], ?_, h4⟩
        intro x hx
        rcases List.mem_cons.1 hx with rfl | hx
        · exact hd
        · exact h3 x hx
      · have h7 := atLineEnd_not ha h6
        have hsp : sp = [] := by
          cases sp with
          | nil => rfl
          | cons x sp =>
            rw [e] at h7
            have := headNot_cons.1 (show HeadNot pw (x :: (sp ++ c ++ r)) by simpa using h7.1)
            rw [h3 x List.mem_cons_self] at this
            cases this
        subst hsp
        have hcc : c = [] := by
          rcases h4 with ⟨h, _⟩ | ⟨⟨w, hw, body, rfl, _⟩, _⟩
          · exact h
          · exfalso
            apply h7.2
            rw [e]
            exact ⟨w, hw, by simp⟩
        subst hcc
        refine ⟨[], p, by simp [e], by simp, Or.inr ⟨h5, ?_⟩⟩
        rw [e] at h6
        simpa using h6
  · rintro ⟨sp, c, rfl, h1, h2⟩
    have hr : HeadNot pw r ∧ ¬ CommentStart starts r := by
      rcases h2 with ⟨_, h⟩ | ⟨_, h⟩
      · exact h
      · exact atLineEnd_not ha h
    refine ⟨?_, hr⟩
    show Pieces _ _ _
    refine Pieces.append ?_ ?_
    · refine ⟨sp.map fun c => [c], by simp [List.flatMap_map], ?_⟩
      induction sp with
      | nil => trivial
      | cons d sp ih =>
        exact ⟨(hpc _ _).2 (Or.inl ⟨d, rfl, h1 d List.mem_cons_self⟩),
          ih fun x hx => h1 x (List.mem_cons_of_mem _ hx)⟩
    · rcases h2 with ⟨rfl, _⟩ | ⟨h2, h3⟩
      · exact ⟨[], rfl, trivial⟩
      · exact ⟨[c], by simp, (hpc _ _).2 (Or.inr ⟨h2, by simpa using h3⟩), trivial⟩

/-- Blanks and tabs. -/
abbrev isSpTab (c : Char) : Bool := c == ' ' || c == '\t'

theorem likeCls_spTab {sk : St → Res R} {K : Str → Str → Prop} (a : Atom) (hu : Uniform sk) :
    LikeCls sk K ((.str c!" ") ∥ (.str ['\t'])) a isSpTab :=
  (likeCls_char ' ' a).alt (likeCls_char '\t' a) (uniform_eval hu _ rfl a)

theorem LikeCls.quiet {sk : St → Res R} {K : Str → Str → Prop} {x : Expr R} {a : Atom}
    {p : Char → Bool} (h : LikeCls sk K x .atomic p) : LikeCls sk K (.quiet x) a p :=
  ⟨fun s r ts => h.out s r ts, fun r => h.fails r⟩

theorem apart_spTab : Apart isSpTab commentMarks := by
  refine ⟨?_, ?_⟩
  · intro c h
    simp only [isNewlineChar, Bool.or_eq_true, decide_eq_true_eq] at h
    rcases h with rfl | rfl <;> decide
  · intro w hw
    simp only [commentMarks, List.mem_cons, List.not_mem_nil, or_false] at hw
    rcases hw with rfl | rfl
    · exact ⟨';', [], rfl, by decide, by decide⟩
    · exact ⟨'/', ['/'], rfl, by decide, by decide⟩

/-- Where a blank matches no comment does. -/
theorem disjoint_of {ws cm : Expr R} {pw : Char → Bool} {starts : List Str}
    (hw : LikeCls noSkip NoGap ws .atomic pw) (hc : LikeComment cm starts) (ha : Apart pw starts)
    (hcu : plain cm = true) : ∀ st st1 t1, eval noSkip ws .atomic st = .ok st1 t1 →
      eval noSkip cm .atomic st = .fail := by
  intro st st1 t1 h
  obtain ⟨s, h1, h2⟩ := eval_out noSkip_ok ws _ _ _ _ h
  obtain ⟨c, rfl, hp, _⟩ := (hw.out _ _ _).1 h2
  refine (uniform_eval uniform_noSkip cm hcu .atomic).fail_of ((hc.fails st.rest).2 ?_) st rfl
  rintro ⟨w, hwm, hpre⟩
  obtain ⟨d, t, rfl, hd, _⟩ := ha.2 w hwm
  rw [h1, List.singleton_append, List.cons_prefix_cons] at hpre
  rw [hpre.1, hp] at hd
  cases hd

/-- Blanks only. -/
theorem blank1_iff {ws : Expr R} {pw : Char → Bool} (hw : LikeCls noSkip NoGap ws .atomic pw)
    (m r : Str) : Blank [ws] m r ↔ (∀ c ∈ m, pw c = true) ∧ HeadNot pw r := by
  have hpc : ∀ p r, Piece [ws] p r ↔ ∃ c, p = [c] ∧ pw c = true := by
    intro p r
    constructor
    · rintro ⟨x, hx, ts, ho⟩
      rw [List.mem_singleton.1 hx] at ho
      obtain ⟨c, h1, h2, _⟩ := (hw.out _ _ _).1 ho
      exact ⟨c, h1, h2⟩
    · rintro ⟨c, h1, h2⟩
      exact ⟨ws, by simp, [], (hw.out _ _ _).2 ⟨c, h1, h2, rfl⟩⟩
  have hfl : (∀ x ∈ [ws], Fails noSkip x .atomic r) ↔ HeadNot pw r := by simp [hw.fails]
  unfold Blank
  rw [hfl]
  refine and_congr_left fun _ => ⟨?_, ?_⟩
  · rintro ⟨ps, rfl, hp⟩
    induction ps with
    | nil => simp
    | cons p ps ih =>
      obtain ⟨c, rfl, hc⟩ := (hpc _ _).1 hp.1
      intro x hx
      rcases List.mem_append.1 (by simpa using hx : x ∈ [c] ++ ps.flatMap fun p => p) with h | h
      · rw [List.mem_singleton.1 h]; exact hc
      · exact ih hp.2 x h
  · intro h
    refine ⟨m.map fun c => [c], by simp [List.flatMap_map], ?_⟩
    induction m with
    | nil => trivial
    | cons d sp ih =>
      exact ⟨(hpc _ _).2 ⟨d, rfl, h d List.mem_cons_self⟩, ih fun x hx => h x (List.mem_cons_of_mem _ hx)⟩

end Verif.Peg
