import Verif.Peg.Sound
import Verif.Grammar.Base
import Verif.Base.Num
/-!
# Texts of the shared token rules
-/

namespace Verif.Peg
variable {R : Type} {sk : St → Res R} {K : Str → Str → Prop}

@[simp] theorem gap_nonAtomic {m r : Str} : Gap K .nonAtomic m r ↔ K m r := Iff.rfl

@[simp] theorem inside_normal (a : Atom) : inside .normal a = a := rfl

theorem gap_nil {a : Atom} (ha : a ≠ .nonAtomic) {m r : Str} (h : Gap K a m r) : m = [] := by
  cases a <;> first | exact absurd rfl ha | exact h

/-- Induction over the parts of a repetition.  There is no gap in front of the first part. -/
theorem out_star_ind {x : Expr R} {a : Atom} {s r : Str} {ts : List (Tree R)}
    (h : Out sk K (.star x) a s r ts) (Q : Str → List (Tree R) → Prop) (h0 : Q [] [])
    (h1 : ∀ m s ts s' ts', (m = [] ∨ Gap K a m (s ++ (s' ++ r))) → Out sk K x a s (s' ++ r) ts →
      Q s' ts' → Q (m ++ s ++ s') (ts ++ ts')) : Q s ts := by
  rcases h with ⟨rfl, rfl, _⟩ | ⟨s1, t1, parts, rfl, rfl, h2, hp, _⟩
  · exact h0
  · have : Q (parts.flatMap fun p => p.1.1 ++ p.1.2) (parts.flatMap (·.2)) := by
      clear h2
      induction parts with
      | nil => exact h0
      | cons p ps ih =>
        rw [List.flatMap_cons, List.flatMap_cons]
        exact h1 _ _ _ _ _ (Or.inr hp.1.1) hp.1.2 (ih hp.2)
    have := h1 [] s1 _ _ _ (Or.inl rfl) h2 this
    simpa using this

/-- A repetition with at least one part. -/
theorem out_plus_ind {x : Expr R} {a : Atom} {s r : Str} {ts : List (Tree R)}
    (h : Out sk K (.plus x) a s r ts) (Q : Str → List (Tree R) → Prop) (h0 : Q [] [])
    (h1 : ∀ m s ts s' ts', (m = [] ∨ Gap K a m (s ++ (s' ++ r))) → Out sk K x a s (s' ++ r) ts →
      Q s' ts' → Q (m ++ s ++ s') (ts ++ ts')) :
    ∃ s1 t1 m s2 t2, s = s1 ++ m ++ s2 ∧ ts = t1 ++ t2 ∧ Out sk K x a s1 (m ++ (s2 ++ r)) t1 ∧
      Gap K a m (s2 ++ r) ∧ Q s2 t2 := by
  obtain ⟨s1, m, s2, t1, t2, rfl, hg, h2, h3, rfl⟩ := h
  exact ⟨s1, t1, m, s2, t2, rfl, rfl, h2, hg, out_star_ind h3 Q h0 h1⟩

/-- A repetition of token-free pieces made of characters with `P`. -/
theorem out_star_of {x : Expr R} {a : Atom} {P : Char → Prop} (ha : a ≠ .nonAtomic)
    (hx : ∀ s r ts, Out sk K x a s r ts → ts = [] ∧ ∀ c ∈ s, P c) {s r : Str} {ts : List (Tree R)}
    (h : Out sk K (.star x) a s r ts) : ts = [] ∧ ∀ c ∈ s, P c := by
  rcases h with ⟨rfl, rfl, _⟩ | ⟨s1, t1, parts, rfl, rfl, h1, hp, _⟩
  · simp
  · obtain ⟨h2, h3⟩ := hx _ _ _ h1
    have hp := reps_forall hp
    refine ⟨?_, ?_⟩
    · simp only [h2, List.nil_append, List.flatMap_eq_nil_iff]
      intro p hpm
      obtain ⟨r', hr⟩ := hp p hpm
      exact (hx _ _ _ hr.2).1
    · intro c hc
      rcases List.mem_append.1 hc with hc | hc
      · exact h3 c hc
      · obtain ⟨p, hpm, hc⟩ := List.mem_flatMap.1 hc
        obtain ⟨r', hg, ho⟩ := hp p hpm
        rw [gap_nil ha hg, List.nil_append] at hc
        exact (hx _ _ _ ho).2 c hc

theorem out_plus_of {x : Expr R} {a : Atom} {P : Char → Prop} (ha : a ≠ .nonAtomic)
    (hx : ∀ s r ts, Out sk K x a s r ts → ts = [] ∧ s ≠ [] ∧ ∀ c ∈ s, P c) {s r : Str}
    {ts : List (Tree R)} (h : Out sk K (.plus x) a s r ts) : ts = [] ∧ s ≠ [] ∧ ∀ c ∈ s, P c := by
  obtain ⟨s1, m, s2, t1, t2, rfl, hg, h1, h2, rfl⟩ := h
  obtain ⟨e1, n1, p1⟩ := hx _ _ _ h1
  obtain ⟨e2, p2⟩ := out_star_of ha (fun s r ts h => ⟨(hx s r ts h).1, (hx s r ts h).2.2⟩) h2
  rw [gap_nil ha hg, e1, e2]
  refine ⟨rfl, by simp [n1], ?_⟩
  intro c hc
  rcases List.mem_append.1 hc with hc | hc
  · exact p1 c (by simpa using hc)
  · exact p2 c hc

theorem out_cls {p : Char → Bool} {a : Atom} {s r : Str} {ts : List (Tree R)}
    (h : Out sk K (.cls p) a s r ts) : ts = [] ∧ s ≠ [] ∧ ∀ c ∈ s, p c = true := by
  obtain ⟨c, rfl, h2, rfl⟩ := h
  exact ⟨rfl, by simp, by simpa using h2⟩

theorem out_digits {a : Atom} (ha : a ≠ .nonAtomic) {s r : Str} {ts : List (Tree R)}
    (h : Out sk K (.plus (.cls isAsciiDigit)) a s r ts) : ts = [] ∧ IsDigits s := by
  obtain ⟨h1, h2, h3⟩ := out_plus_of ha (fun s r ts => out_cls) h
  exact ⟨h1, h2, h3⟩

theorem out_sign {a : Atom} {s r : Str} {ts : List (Tree R)}
    (h : Out sk K (.opt ((.str c!"-") ∥ (.str c!"+"))) a s r ts) : ts = [] ∧ IsSign s := by
  rcases h with (⟨rfl, rfl⟩ | ⟨⟨rfl, rfl⟩, _⟩) | ⟨rfl, rfl, _⟩ <;> simp [IsSign]

theorem out_integer {a : Atom} (ha : a ≠ .nonAtomic) {s r : Str} {ts : List (Tree R)}
    (h : Out sk K Base.integer a s r ts) : ts = [] ∧ IsInteger s := by
  obtain ⟨s1, m, s2, t1, t2, rfl, hg, h1, h2, rfl⟩ := h
  obtain ⟨e1, p1⟩ := out_sign h1
  obtain ⟨e2, p2⟩ := out_digits ha h2
  rw [gap_nil ha hg, e1, e2]
  exact ⟨rfl, s1, s2, by simp, p1, p2⟩

theorem out_pos_integer {a : Atom} (ha : a ≠ .nonAtomic) {s r : Str} {ts : List (Tree R)}
    (h : Out sk K Base.pos_integer a s r ts) : ts = [] ∧ IsInteger s ∧ s.head? ≠ some '-' := by
  obtain ⟨s1, m, s2, t1, t2, rfl, hg, h1, h2, rfl⟩ := h
  obtain ⟨e2, p2⟩ := out_digits ha h2
  rw [gap_nil ha hg, e2]
  rcases h1 with ⟨rfl, rfl⟩ | ⟨rfl, rfl, _⟩
  · exact ⟨rfl, ⟨['+'], s2, by simp, Or.inr (Or.inr rfl), p2⟩, by simp⟩
  · refine ⟨rfl, ⟨[], s2, by simp, Or.inl rfl, p2⟩, ?_⟩
    intro he
    have := p2.2 '-' (List.mem_of_mem_head? (by simpa using he))
    revert this; decide

theorem out_decimal {a : Atom} (ha : a ≠ .nonAtomic) {s r : Str} {ts : List (Tree R)}
    (h : Out sk K Base.decimal a s r ts) : ts = [] ∧ IsDecimal s := by
  obtain ⟨s1, m, s2, t1, t2, rfl, hg, h1, h2, rfl⟩ := h
  obtain ⟨e1, p1⟩ := out_sign h1
  rw [gap_nil ha hg, e1]
  rcases h2 with ⟨d, m1, u, t3, t4, rfl, hg1, h3, ⟨_, m2, f, t5, t6, rfl, hg2, ⟨rfl, rfl⟩, h5, rfl⟩, rfl⟩
    | ⟨h2, _⟩
  · obtain ⟨e3, p3⟩ := out_star_of ha (fun s r ts h => ⟨(out_cls h).1, (out_cls h).2.2⟩) h3
    obtain ⟨e5, p5⟩ := out_digits ha h5
    rw [gap_nil ha hg1, gap_nil ha hg2, e3, e5]
    exact ⟨rfl, s1, d, '.' :: f, by simp, p1, p3, Or.inr ⟨f, rfl, p5⟩⟩
  · obtain ⟨e2, p2⟩ := out_digits ha h2
    rw [e2]
    exact ⟨rfl, s1, s2, [], by simp, p1, p2.2, Or.inl ⟨rfl, p2.1⟩⟩

/-- `(!x ~ ANY)*` emits nothing. -/
theorem out_until {x : Expr R} {a : Atom} (ha : a ≠ .nonAtomic) {s r : Str} {ts : List (Tree R)}
    (h : Out sk K (.star ((.not x) ⬝ .any)) a s r ts) : ts = [] := by
  refine (out_star_of ha (P := fun _ => True) (fun s r ts h => ⟨?_, fun _ _ => trivial⟩) h).1
  obtain ⟨s1, m, s2, t1, t2, rfl, hg, ⟨_, e1, _⟩, ⟨c, _, _, e2⟩, rfl⟩ := h
  rw [e1, e2]; rfl

/-- `(!x ~ ANY)*` where `x` matches whenever the next character satisfies `p`: none does in the
text. -/
theorem out_until_not {x : Expr R} {a : Atom} (ha : a ≠ .nonAtomic) {p : Char → Bool}
    (hx : ∀ c r pos stk, p c = true → eval sk x a ⟨pos, c :: r, stk⟩ ≠ .fail) {s r : Str}
    {ts : List (Tree R)} (h : Out sk K (.star ((.not x) ⬝ .any)) a s r ts) :
    ∀ c ∈ s, p c = false := by
  refine (out_star_of ha (P := fun c => p c = false) (fun s r ts h => ⟨?_, ?_⟩) h).2
  · obtain ⟨s1, m, s2, t1, t2, rfl, hg, ⟨_, e1, _⟩, ⟨c, _, _, e2⟩, rfl⟩ := h
    rw [e1, e2]; rfl
  · obtain ⟨s1, m, s2, t1, t2, rfl, hg, ⟨e0, e1, pos, stk, hf⟩, ⟨c, e3, _, e2⟩, rfl⟩ := h
    intro d hd
    rw [gap_nil ha hg, e3] at hf
    rw [gap_nil ha hg, e0, e3] at hd
    simp only [List.append_nil, List.nil_append, List.mem_singleton] at hd
    subst hd
    cases hp : p d with
    | false => rfl
    | true => exact absurd hf (hx d _ pos stk hp)

/-- A line end character. -/
def isNewlineChar (c : Char) : Bool := c = '\n' || c = '\r'

theorem eval_newline {a : Atom} (c : Char) (r : Str) (pos : Nat) (stk : List Str)
    (h : isNewlineChar c = true) : eval sk .newline a ⟨pos, c :: r, stk⟩ ≠ .fail := by
  simp only [isNewlineChar, Bool.or_eq_true, decide_eq_true_eq] at h
  rcases h with rfl | rfl
  · simp [Expr.newline, eval, List.isPrefixOf]
  · simp only [Expr.newline, eval, List.isPrefixOf]
    cases r with
    | nil => simp
    | cons d r =>
      simp only [List.isPrefixOf]
      by_cases hd : '\n' = d
      · subst hd; simp
      · simp [hd]

/-- The end of the input is where an entry rule ends. -/
def endsEoi : Expr R → Bool
  | .eoi _ => true
  | .seq _ y => endsEoi y
  | .rule _ _ x => endsEoi x
  | _ => false

theorem eval_endsEoi {sk : St → Res R} (e : Expr R) (he : endsEoi e = true) : ∀ a st st' ts,
    eval sk e a st = .ok st' ts → st'.rest = [] := by
  induction e with
  | eoi r =>
    intro a st st' ts h
    simp only [eval] at h
    split at h
    · cases h; assumption
    · cases h
  | seq x y _ ih =>
    intro a st st' ts h
    simp only [eval] at h
    cases hx : eval sk x a st with
    | fail => simp [hx] at h
    | diverge => simp [hx] at h
    | ok st1 ts1 =>
      simp only [hx, Res.ok_bind] at h
      cases hs : skipIf sk a st1 with
      | fail => simp [hs] at h
      | diverge => simp [hs] at h
      | ok st2 ts2 =>
        simp only [hs, Res.ok_bind] at h
        cases hy : eval sk y a st2 with
        | fail => simp [hy] at h
        | diverge => simp [hy] at h
        | ok st3 ts3 =>
          simp only [hy, Res.ok_bind, Res.ok.injEq] at h
          rw [← h.1]
          exact ih he _ _ _ _ hy
  | rule r ty x ih =>
    intro a st st' ts h
    simp only [eval] at h
    cases hx : eval sk x (inside ty a) st with
    | fail => simp [hx] at h
    | diverge => simp [hx] at h
    | ok st1 ts1 =>
      simp only [hx, Res.ok_bind, Res.ok.injEq] at h
      rw [← h.1]
      exact ih he _ _ _ _ hx
  | str => cases he
  | cls => cases he
  | soi => cases he
  | alt => cases he
  | opt => cases he
  | star => cases he
  | not => cases he
  | quiet => cases he
  | dup => cases he
  | push => cases he
  | pop => cases he

/-- A parser run on a whole input: never divergent; its tokens and the whole text are covered by
`Out`. -/
theorem run_whole {sk : St → Res R} (hs : SkipOK K sk) {e : Expr R} (hw : wf e = true)
    (he : endsEoi e = true) (input : Str) :
    run sk e input = .error .parseError ∨
    ∃ ts, run sk e input = .ok ts ∧ Out sk K e .nonAtomic input [] ts := by
  unfold run
  cases h : eval sk e .nonAtomic ⟨0, input, []⟩ with
  | fail => exact Or.inl rfl
  | diverge => exact absurd h (eval_ne_diverge hs e hw _ _)
  | ok st' ts =>
    obtain ⟨s, hr, ho⟩ := eval_out hs e _ _ _ _ h
    rw [eval_endsEoi e he _ _ _ _ h] at hr ho
    simp only [List.append_nil] at hr
    rw [← hr] at ho
    exact Or.inr ⟨ts, rfl, ho⟩

end Verif.Peg
