import Verif.Peg.Blank
/-!
# Sequences without gaps

In front of a character that starts neither blank text nor a line end, a skip that only knows comments
consumes nothing.
-/

namespace Verif.Peg
variable {R : Type} {sk : St → Res R} {K : Str → Str → Prop}

/-- The text starts with a character that is no line end and starts no comment. -/
def Solid (r : Str) : Prop := ∃ c t, r = c :: t ∧ isNewlineChar c = false ∧ c ≠ ';' ∧ c ≠ '/'

/-- No gap in front of a solid text. -/
def Tight (K : Str → Str → Prop) : Prop := ∀ m r, Solid r → (K m r ↔ m = [])

/-- Wherever the expression matches, the text is solid. -/
def SolidE (sk : St → Res R) (K : Str → Str → Prop) (x : Expr R) : Prop :=
  ∀ s r ts, Out sk K x .nonAtomic s r ts → Solid (s ++ r)

theorem solid_cons {c : Char} {t : Str} (h1 : isNewlineChar c = false) (h2 : c ≠ ';') (h3 : c ≠ '/') :
    Solid (c :: t) := ⟨c, t, rfl, h1, h2, h3⟩

theorem solid_append {s r : Str} (h : Solid s) : Solid (s ++ r) := by
  obtain ⟨c, t, rfl, h⟩ := h
  exact ⟨c, t ++ r, rfl, h⟩

theorem solidE_str {c : Char} {t : Str} (h1 : isNewlineChar c = false) (h2 : c ≠ ';') (h3 : c ≠ '/') :
    SolidE sk K (.str (c :: t)) := by
  rintro s r ts ⟨rfl, rfl⟩
  exact solid_cons h1 h2 h3

theorem solidE_seq {x y : Expr R} (h : SolidE sk K x) : SolidE sk K (x ⬝ y) := by
  rintro s r ts ⟨s1, m, s2, t1, t2, rfl, hg, h1, h2, rfl⟩
  simpa using h _ _ _ h1

theorem solidE_alt {x y : Expr R} (hx : SolidE sk K x) (hy : SolidE sk K y) : SolidE sk K (x ∥ y) := by
  rintro s r ts (h | ⟨h, _⟩)
  · exact hx _ _ _ h
  · exact hy _ _ _ h

theorem solidE_rule {q : R} {x : Expr R} (hx : SolidE sk K x) : SolidE sk K (.rule q .normal x) := by
  rintro s r ts ⟨kids, h, _⟩
  exact hx _ _ _ h

/-- A part that may be empty in front of a solid one. -/
theorem solidE_skip {x y : Expr R} (hk : Tight K)
    (hx : ∀ s r ts, Out sk K x .nonAtomic s r ts → s = [] ∨ Solid s) (hy : SolidE sk K y) :
    SolidE sk K (x ⬝ y) := by
  rintro s r ts ⟨s1, m, s2, t1, t2, rfl, hg, h1, h2, rfl⟩
  have h3 := hy _ _ _ h2
  rw [show m = [] from (hk _ _ h3).1 hg]
  rcases hx _ _ _ h1 with rfl | h
  · simpa using h3
  · simpa using solid_append (r := s2 ++ r) h

theorem seq_solid (hk : Tight K) {x y : Expr R} (hy : SolidE sk K y) {s r : Str} {ts : List (Tree R)} :
    Out sk K (x ⬝ y) .nonAtomic s r ts ↔ ∃ s1 s2 t1 t2, s = s1 ++ s2 ∧ ts = t1 ++ t2 ∧
      Out sk K x .nonAtomic s1 (s2 ++ r) t1 ∧ Out sk K y .nonAtomic s2 r t2 := by
  constructor
  · rintro ⟨s1, m, s2, t1, t2, rfl, hg, h1, h2, rfl⟩
    have h3 : m = [] := (hk _ _ (hy _ _ _ h2)).1 hg
    subst h3
    exact ⟨s1, s2, t1, t2, by simp, rfl, by simpa using h1, h2⟩
  · rintro ⟨s1, s2, t1, t2, rfl, rfl, h1, h2⟩
    exact ⟨s1, [], s2, t1, t2, by simp, (hk _ _ (hy _ _ _ h2)).2 rfl, by simpa using h1, h2, rfl⟩

/-- A run of characters that are all solid, in front of solid text. -/
theorem plus_solid (hk : Tight K) (hse : SkipExact K sk) {x : Expr R} {p : Char → Bool}
    (hx : LikeCls sk K x .nonAtomic p)
    (hp : ∀ c, p c = true → isNewlineChar c = false ∧ c ≠ ';' ∧ c ≠ '/') {s r : Str}
    (hr : Solid r) {ts : List (Tree R)} :
    Out sk K (.plus x) .nonAtomic s r ts ↔ s ≠ [] ∧ (∀ c ∈ s, p c = true) ∧ HeadNot p r ∧ ts = [] := by
  have hsolid : ∀ c t, p c = true → Solid (c :: t) := fun c t h => solid_cons (hp c h).1 (hp c h).2.1 (hp c h).2.2
  have hend : (∃ pos stk, ((skipIf sk .nonAtomic ⟨pos, r, stk⟩).bind fun s1 _ => eval sk x .nonAtomic s1) = .fail) ↔
      HeadNot p r := by
    have hsk : ∀ pos stk, skipIf sk .nonAtomic ⟨pos, r, stk⟩ = .ok ⟨pos, r, stk⟩ [] := by
      intro pos stk
      have := skipIf_exact hse (a := .nonAtomic) (m := []) (r := r) (st := ⟨pos, r, stk⟩) ((hk _ _ hr).2 rfl) rfl
      rw [this]; rfl
    constructor
    · rintro ⟨pos, stk, h⟩
      rw [hsk] at h
      exact (hx.fails r).1 ⟨pos, stk, h⟩
    · intro h
      obtain ⟨pos, stk, h⟩ := (hx.fails r).2 h
      exact ⟨pos, stk, by rw [hsk]; exact h⟩
  constructor
  · rintro ⟨s1, m, s2, t1, t2, rfl, hg, h1, h2, rfl⟩
    obtain ⟨c, rfl, hc, rfl⟩ := (hx.out _ _ _).1 h1
    rcases h2 with ⟨rfl, rfl, hf⟩ | ⟨s3, t3, parts, rfl, rfl, h3, h4, h5⟩
    · have : m = [] := (hk _ _ (by simpa using hr)).1 hg
      subst this
      exact ⟨by simp, by simpa using hc, (hx.fails r).1 hf, rfl⟩
    · obtain ⟨d, rfl, hd, rfl⟩ := (hx.out _ _ _).1 h3
      have : m = [] := (hk _ _ (by simpa using hsolid d _ hd)).1 hg
      subst this
      have hparts : (∀ c ∈ parts.flatMap (fun p => p.1.1 ++ p.1.2), p c = true) ∧ parts.flatMap (·.2) = [] := by
        clear h3 hg h1 h5
        induction parts with
        | nil => simp
        | cons q qs ih =>
          obtain ⟨⟨hg, ho⟩, h4⟩ := h4
          obtain ⟨e, he, hpe, ht⟩ := (hx.out _ _ _).1 ho
          have : q.1.1 = [] := by
            rw [he] at hg
            exact (hk _ _ (hsolid e _ hpe)).1 hg
          obtain ⟨ih1, ih2⟩ := ih h4
          refine ⟨?_, ?_⟩
          · intro c' hc'
            rw [List.flatMap_cons, this, he] at hc'
            simp only [List.nil_append, List.singleton_append, List.mem_cons] at hc'
            rcases hc' with rfl | hc'
            · exact hpe
            · exact ih1 c' hc'
          · rw [List.flatMap_cons, ht, ih2]; rfl
      refine ⟨by simp, ?_, hend.1 h5, by simpa using hparts.2⟩
      intro c' hc'
      simp only [List.append_nil, List.singleton_append, List.mem_cons] at hc'
      rcases hc' with rfl | rfl | hc'
      · exact hc
      · exact hd
      · exact hparts.1 c' hc'
  · rintro ⟨h1, h2, h3, rfl⟩
    cases s with
    | nil => exact absurd rfl h1
    | cons c s =>
      refine ⟨[c], [], s, [], [], by simp, ?_, (hx.out _ _ _).2 ⟨c, rfl, h2 c List.mem_cons_self, rfl⟩, ?_, rfl⟩
      · refine (hk _ _ ?_).2 rfl
        cases s with
        | nil => exact hr
        | cons d s => exact hsolid d _ (h2 d (by simp))
      · cases s with
        | nil => exact Or.inl ⟨rfl, rfl, (hx.fails r).2 h3⟩
        | cons d s =>
          refine Or.inr ⟨[d], [], s.map fun e => (([], [e]), []), ?_, ?_,
            (hx.out _ _ _).2 ⟨d, rfl, h2 d (by simp), rfl⟩, ?_, hend.2 h3⟩
          · simp [List.flatMap_map]
          · simp [List.flatMap_map]
          · have hs : ∀ e ∈ s, p e = true := fun e he => h2 e (by simp [he])
            clear h2 h1
            induction s with
            | nil => trivial
            | cons e s ih =>
              refine ⟨⟨?_, (hx.out _ _ _).2 ⟨e, rfl, hs e (by simp), rfl⟩⟩, ih fun e he => hs e (by simp [he])⟩
              exact (hk _ _ (hsolid e _ (hs e (by simp)))).2 rfl

/-- What the skip of a grammar with comments only consumes. -/
theorem comment1_iff {cm : Expr R} {starts : List Str} (hc : LikeComment cm starts)
    (hn : ∀ w ∈ starts, ∃ c t, w = c :: t ∧ isNewlineChar c = false) (m r : Str) :
    Blank [cm] m r ↔ (m = [] ∧ ¬ ∃ w ∈ starts, w <+: r) ∨ (CommentText starts m ∧ AtLineEnd r) := by
  have hpc : ∀ p r, Piece [cm] p r ↔ CommentText starts p ∧ AtLineEnd r := by
    intro p r
    constructor
    · rintro ⟨x, hx, ts, ho⟩
      rw [List.mem_singleton.1 hx] at ho
      obtain ⟨h1, h2, _⟩ := (hc.out _ _ _).1 ho
      exact ⟨h1, h2⟩
    · rintro ⟨h1, h2⟩
      exact ⟨cm, by simp, [], (hc.out _ _ _).2 ⟨h1, h2, rfl⟩⟩
  have hfl : (∀ x ∈ [cm], Fails noSkip x .atomic r) ↔ ¬ ∃ w ∈ starts, w <+: r := by simp [hc.fails, CommentStart]
  have hle : ∀ t, AtLineEnd t → ¬ ∃ w ∈ starts, w <+: t := by
    rintro t ht ⟨w, hw, hp⟩
    obtain ⟨c, u, rfl, hcn⟩ := hn w hw
    cases t with
    | nil => simp at hp
    | cons d t =>
      rw [List.cons_prefix_cons] at hp
      have := headNot_cons.1 ht
      rw [← hp.1, hcn] at this
      cases this
  unfold Blank
  rw [hfl]
  constructor
  · rintro ⟨⟨ps, rfl, hp⟩, hf⟩
    cases ps with
    | nil => exact Or.inl ⟨rfl, hf⟩
    | cons p ps =>
      obtain ⟨h1, h2⟩ := (hpc _ _).1 hp.1
      cases ps with
      | nil => exact Or.inr ⟨by simpa using h1, by simpa using h2⟩
      | cons q qs =>
        exfalso
        obtain ⟨w, hw, body, rfl, _⟩ := ((hpc _ _).1 hp.2.1).1
        exact hle _ h2 ⟨w, hw, by simp⟩
  · rintro (⟨rfl, h⟩ | ⟨h1, h2⟩)
    · exact ⟨⟨[], rfl, trivial⟩, h⟩
    · exact ⟨⟨[m], by simp, ⟨(hpc _ _).2 ⟨h1, by simpa using h2⟩, trivial⟩⟩, hle r h2⟩

/-- An expression that matches nowhere at `r` fails there. -/
theorem fails_of_not_out (hs : SkipOK K sk) {x : Expr R} (hw : wf x = true) {a : Atom} {r : Str}
    (h : ∀ s r' ts, r = s ++ r' → ¬ Out sk K x a s r' ts) : Fails sk x a r := by
  refine ⟨0, [], ?_⟩
  cases he : eval sk x a ⟨0, r, []⟩ with
  | fail => rfl
  | diverge => exact absurd he (eval_ne_diverge hs x hw _ _)
  | ok st ts =>
    obtain ⟨s, h1, h2⟩ := eval_out hs x _ _ _ _ he
    exact absurd h2 (h _ _ _ h1)

end Verif.Peg
