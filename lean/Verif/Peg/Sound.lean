import Verif.Peg.Core
/-!
# What a parse can return

`Out sk K e a s r ts`: the expression `e`, used in atomicity `a`, may consume the text `s` in front of
the remaining input `r` and emit the tokens `ts`.  `eval_out` says every successful run is covered.
`wf` is a static check that excludes divergence (`eval_ne_diverge`).
-/

namespace Verif.Peg
variable {R : Type}

/-- The expression does not match at `r`. -/
def Fails (sk : St → Res R) (x : Expr R) (a : Atom) (r : Str) : Prop :=
  ∃ pos stk, eval sk x a ⟨pos, r, stk⟩ = .fail

/-- Text between the parts of a sequence or repetition: skipped text `K` (in front of the given rest)
in non-atomic state, none otherwise. -/
def Gap (K : Str → Str → Prop) (a : Atom) (m r : Str) : Prop :=
  match a with
  | .nonAtomic => K m r
  | _ => m = []

/-- Every part of a list of consecutive texts satisfies `P`, given the text that follows it. -/
def Reps {A : Type} (txt : A → Str) (P : A → Str → Prop) : List A → Str → Prop
  | [], _ => True
  | p :: ps, r => P p (ps.flatMap txt ++ r) ∧ Reps txt P ps r

/-- Tokens and text an expression can produce in front of the rest `r`; `K` describes the texts the
implicit skip can consume.  A part of a repetition is a gap, a text and its tokens. -/
def Out (sk : St → Res R) (K : Str → Str → Prop) : Expr R → Atom → Str → Str → List (Tree R) → Prop
  | .str w, _, s, _, ts => s = w ∧ ts = []
  | .cls p, _, s, _, ts => ∃ c, s = [c] ∧ p c = true ∧ ts = []
  | .soi, _, s, _, ts => s = [] ∧ ts = []
  | .eoi e, a, s, r, ts => s = [] ∧ r = [] ∧ ts = if a = .atomic then [] else [.node e [] []]
  | .seq x y, a, s, r, ts => ∃ s1 m s2 t1 t2, s = s1 ++ m ++ s2 ∧ Gap K a m (s2 ++ r) ∧
      Out sk K x a s1 (m ++ (s2 ++ r)) t1 ∧ Out sk K y a s2 r t2 ∧ ts = t1 ++ t2
  | .alt x y, a, s, r, ts => Out sk K x a s r ts ∨ (Out sk K y a s r ts ∧ Fails sk x a (s ++ r))
  | .opt x, a, s, r, ts => Out sk K x a s r ts ∨ (s = [] ∧ ts = [] ∧ Fails sk x a r)
  | .star x, a, s, r, ts => (s = [] ∧ ts = [] ∧ Fails sk x a r) ∨
      ∃ s1 t1, ∃ parts : List ((Str × Str) × List (Tree R)),
        s = s1 ++ parts.flatMap (fun p => p.1.1 ++ p.1.2) ∧ ts = t1 ++ parts.flatMap (·.2) ∧
        Out sk K x a s1 (parts.flatMap (fun p => p.1.1 ++ p.1.2) ++ r) t1 ∧
        Reps (fun p => p.1.1 ++ p.1.2)
          (fun p r => Gap K a p.1.1 (p.1.2 ++ r) ∧ Out sk K x a p.1.2 r p.2) parts r ∧
        ∃ pos stk, ((skipIf sk a ⟨pos, r, stk⟩).bind fun s1 _ => eval sk x a s1) = .fail
  | .not x, a, s, r, ts => s = [] ∧ ts = [] ∧ Fails sk x a r
  | .rule e ty x, a, s, r, ts => ∃ kids, Out sk K x (inside ty a) s r kids ∧
      ts = if emits ty a then [.node e s kids] else kids
  | .quiet x, _, s, r, ts => Out sk K x .atomic s r ts
  | .push x, a, s, r, ts => Out sk K x a s r ts
  | .pop, _, _, _, ts => ts = []
  | .dup x y, a, s, r, ts => ∃ w u t1 t2, s = w ++ (u ++ w) ∧ Out sk K x a w (u ++ (w ++ r)) t1 ∧
      Out sk K y a u (w ++ r) t2 ∧ ts = t1 ++ t2

/-- A skip that always succeeds, without tokens, consuming a text of `K`. -/
def SkipOK (K : Str → Str → Prop) (sk : St → Res R) : Prop :=
  ∀ st, ∃ st', sk st = .ok st' [] ∧ ∃ m, K m st'.rest ∧ st.rest = m ++ st'.rest

theorem between_eq {st st' : St} {s : Str} (h : st.rest = s ++ st'.rest) : st.between st' = s := by
  unfold St.between
  rw [h]
  simp

theorem skipIf_spec {K : Str → Str → Prop} {sk : St → Res R} (hs : SkipOK K sk) (a : Atom) (st : St) :
    ∃ st', skipIf sk a st = .ok st' [] ∧ ∃ m, st.rest = m ++ st'.rest ∧ Gap K a m st'.rest := by
  cases a with
  | nonAtomic =>
    obtain ⟨st', h1, m, hk, h2⟩ := hs st
    exact ⟨st', h1, m, h2, hk⟩
  | compound => exact ⟨st, rfl, [], rfl, rfl⟩
  | atomic => exact ⟨st, rfl, [], rfl, rfl⟩

theorem isPrefixOf_drop {w r : Str} (h : w.isPrefixOf r = true) : r = w ++ r.drop w.length := by
  obtain ⟨t, rfl⟩ := List.isPrefixOf_iff_prefix.1 h
  simp

theorem reps_forall {A : Type} {txt : A → Str} {P : A → Str → Prop} {ps : List A} {r : Str}
    (h : Reps txt P ps r) : ∀ p ∈ ps, ∃ r', P p r' := by
  induction ps with
  | nil => simp
  | cons q ps ih =>
    intro p hp
    rcases List.mem_cons.1 hp with rfl | hp
    · exact ⟨_, h.1⟩
    · exact ih h.2 p hp

theorem many_out {A : Type} {f : St → Res R} {P : A → List (Tree R) → Str → Prop} {txt : A → Str}
    (hf : ∀ st st' ts, f st = .ok st' ts → ∃ s, st.rest = txt s ++ st'.rest ∧ P s ts st'.rest) :
    ∀ n st st' ts, many f n st = .ok st' ts → f st' = .fail ∧ ∃ parts : List (A × List (Tree R)),
      Reps (fun p => txt p.1) (fun p r => P p.1 p.2 r) parts st'.rest ∧ ts = parts.flatMap (·.2) ∧
      st.rest = parts.flatMap (fun p => txt p.1) ++ st'.rest := by
  intro n
  induction n with
  | zero => intro st st' ts h; simp [many] at h
  | succ n ih =>
    intro st st' ts h
    simp only [many] at h
    split at h
    · next hfail => cases h; exact ⟨hfail, [], trivial, by simp, by simp⟩
    · cases h
    · next st1 ts1 hf1 =>
      split at h
      · cases hm : many f n st1 with
        | fail => simp [hm] at h
        | diverge => simp [hm] at h
        | ok st2 ts2 =>
          simp only [hm, Res.ok_bind, Res.ok.injEq] at h
          obtain ⟨rfl, rfl⟩ := h
          obtain ⟨h0, parts, h1, h2, h3⟩ := ih _ _ _ hm
          obtain ⟨s, h4, h5⟩ := hf _ _ _ hf1
          refine ⟨h0, (s, ts1) :: parts, ⟨?_, h1⟩, ?_, ?_⟩
          · rw [h3] at h5; exact h5
          · simp [h2]
          · simp [h4, h3]
      · cases h

theorem many_inv {f : St → Res R} {Q : St → Prop}
    (hf : ∀ st st' ts, f st = .ok st' ts → Q st') :
    ∀ n st st' ts, Q st → many f n st = .ok st' ts → Q st' := by
  intro n
  induction n with
  | zero => intro st st' ts _ h; simp [many] at h
  | succ n ih =>
    intro st st' ts hq h
    simp only [many] at h
    split at h
    · cases h; exact hq
    · cases h
    · next st1 ts1 hf1 =>
      split at h
      · cases hm : many f n st1 with
        | fail => simp [hm] at h
        | diverge => simp [hm] at h
        | ok st2 ts2 =>
          simp only [hm, Res.ok_bind, Res.ok.injEq] at h
          obtain ⟨rfl, rfl⟩ := h
          exact ih _ _ _ (hf _ _ _ hf1) hm
      · cases h

/-- Every successful run is covered by `Out`. -/
theorem eval_out {K : Str → Str → Prop} {sk : St → Res R} (hs : SkipOK K sk) (e : Expr R) :
    ∀ a st st' ts, eval sk e a st = .ok st' ts →
      ∃ s, st.rest = s ++ st'.rest ∧ Out sk K e a s st'.rest ts := by
  induction e with
  | str w =>
    intro a st st' ts h
    simp only [eval] at h
    split at h
    · next hp =>
      cases h
      exact ⟨w, by simpa [St.advance] using isPrefixOf_drop hp, rfl, rfl⟩
    · cases h
  | cls p =>
    intro a st st' ts h
    simp only [eval] at h
    split at h
    · cases h
    · next c r hr =>
      split at h
      · next hp => cases h; exact ⟨[c], by simp [St.advance, hr], c, rfl, hp, rfl⟩
      · cases h
  | soi =>
    intro a st st' ts h
    simp only [eval] at h
    split at h
    · cases h; exact ⟨[], rfl, rfl, rfl⟩
    · cases h
  | eoi r =>
    intro a st st' ts h
    simp only [eval] at h
    split at h
    · next hr => cases h; exact ⟨[], rfl, rfl, hr, rfl⟩
    · cases h
  | seq x y ihx ihy =>
    intro a st st' ts h
    simp only [eval] at h
    cases hx : eval sk x a st with
    | fail => simp [hx] at h
    | diverge => simp [hx] at h
    | ok st1 ts1 =>
      obtain ⟨st2, h2, m, h3, h4⟩ := skipIf_spec hs a st1
      simp only [hx, Res.ok_bind, h2] at h
      cases hy : eval sk y a st2 with
      | fail => simp [hy] at h
      | diverge => simp [hy] at h
      | ok st3 ts3 =>
        simp only [hy, Res.ok_bind, Res.ok.injEq] at h
        obtain ⟨rfl, rfl⟩ := h
        obtain ⟨s1, e1, o1⟩ := ihx _ _ _ _ hx
        obtain ⟨s2, e2, o2⟩ := ihy _ _ _ _ hy
        rw [h3, e2] at o1
        rw [e2] at h4
        exact ⟨s1 ++ m ++ s2, by simp [e1, h3, e2], s1, m, s2, ts1, ts3, rfl, h4, o1, o2, rfl⟩
  | alt x y ihx ihy =>
    intro a st st' ts h
    simp only [eval] at h
    split at h
    · next hfail =>
      obtain ⟨s, h1, h2⟩ := ihy _ _ _ _ h
      exact ⟨s, h1, Or.inr ⟨h2, st.pos, st.stack, by rw [← h1]; exact hfail⟩⟩
    · obtain ⟨s, h1, h2⟩ := ihx _ _ _ _ h
      exact ⟨s, h1, Or.inl h2⟩
  | opt x ihx =>
    intro a st st' ts h
    simp only [eval] at h
    split at h
    · next hfail => cases h; exact ⟨[], rfl, Or.inr ⟨rfl, rfl, st.pos, st.stack, hfail⟩⟩
    · obtain ⟨s, h1, h2⟩ := ihx _ _ _ _ h
      exact ⟨s, h1, Or.inl h2⟩
  | star x ihx =>
    intro a st st' ts h
    simp only [eval] at h
    split at h
    · next hfail => cases h; exact ⟨[], rfl, Or.inl ⟨rfl, rfl, st.pos, st.stack, hfail⟩⟩
    · cases h
    · next st1 ts1 hx =>
      obtain ⟨s1, e1, o1⟩ := ihx _ _ _ _ hx
      generalize hm : many _ _ st1 = r at h
      cases r with
      | fail => simp at h
      | diverge => simp at h
      | ok st2 ts2 =>
        simp only [Res.ok_bind, Res.ok.injEq] at h
        obtain ⟨rfl, rfl⟩ := h
        have hf : ∀ s s' us, ((skipIf sk a s).bind fun s1 _ => eval sk x a s1) = .ok s' us →
            ∃ t : Str × Str, s.rest = (t.1 ++ t.2) ++ s'.rest ∧
              (Gap K a t.1 (t.2 ++ s'.rest) ∧ Out sk K x a t.2 s'.rest us) := by
          intro s s' us he
          obtain ⟨s2, h2, m, h3, h4⟩ := skipIf_spec hs a s
          rw [h2] at he
          obtain ⟨t', e2, o2⟩ := ihx _ _ _ _ he
          rw [e2] at h4
          exact ⟨(m, t'), by simp [h3, e2], h4, o2⟩
        obtain ⟨p0, parts, p1, p2, p3⟩ := many_out (A := Str × Str) (txt := fun t => t.1 ++ t.2)
          (P := fun t us r => Gap K a t.1 (t.2 ++ r) ∧ Out sk K x a t.2 r us) hf _ _ _ _ hm
        rw [p3] at o1
        exact ⟨s1 ++ parts.flatMap (fun p => p.1.1 ++ p.1.2), by simp [e1, p3],
          Or.inr ⟨s1, ts1, parts, rfl, by rw [p2], o1, p1, st2.pos, st2.stack, p0⟩⟩
  | not x ihx =>
    intro a st st' ts h
    simp only [eval] at h
    split at h
    · next hfail => cases h; exact ⟨[], rfl, rfl, rfl, st.pos, st.stack, hfail⟩
    · cases h
    · cases h
  | rule r ty x ihx =>
    intro a st st' ts h
    simp only [eval] at h
    cases hx : eval sk x (inside ty a) st with
    | fail => simp [hx] at h
    | diverge => simp [hx] at h
    | ok st1 ts1 =>
      simp only [hx, Res.ok_bind, Res.ok.injEq] at h
      obtain ⟨rfl, rfl⟩ := h
      obtain ⟨s, e1, o1⟩ := ihx _ _ _ _ hx
      refine ⟨s, e1, ts1, o1, ?_⟩
      rw [between_eq e1]
  | quiet x ihx =>
    intro a st st' ts h
    simp only [eval] at h
    exact ihx _ _ _ _ h
  | push x ihx =>
    intro a st st' ts h
    simp only [eval] at h
    cases hx : eval sk x a st with
    | fail => simp [hx] at h
    | diverge => simp [hx] at h
    | ok st1 ts1 =>
      simp only [hx, Res.ok_bind, Res.ok.injEq] at h
      obtain ⟨rfl, rfl⟩ := h
      obtain ⟨s, e1, o1⟩ := ihx _ _ _ _ hx
      exact ⟨s, e1, o1⟩
  | pop =>
    intro a st st' ts h
    simp only [eval] at h
    split at h
    · cases h
    · next w ws _ =>
      split at h
      · next hp =>
        cases h
        exact ⟨w, by simpa [St.advance] using isPrefixOf_drop hp, rfl⟩
      · cases h
  | dup x y ihx ihy =>
    intro a st st' ts h
    simp only [eval] at h
    cases hx : eval sk x a st with
    | fail => simp [hx] at h
    | diverge => simp [hx] at h
    | ok st1 ts1 =>
      simp only [hx, Res.ok_bind] at h
      cases hy : eval sk y a st1 with
      | fail => simp [hy] at h
      | diverge => simp [hy] at h
      | ok st2 ts2 =>
        simp only [hy, Res.ok_bind] at h
        obtain ⟨w, e1, o1⟩ := ihx _ _ _ _ hx
        obtain ⟨u, e2, o2⟩ := ihy _ _ _ _ hy
        rw [between_eq e1] at h
        split at h
        · next hp =>
          have e3 := isPrefixOf_drop hp
          cases h
          have e3 : st2.rest = w ++ (st2.advance w.length).rest := e3
          rw [e3] at e2 o2
          rw [e2] at o1 e1
          exact ⟨w ++ (u ++ w), by simp [e1], w, u, ts1, ts2, rfl, o1, o2, rfl⟩
        · cases h

/-! ## Termination -/

/-- May the expression succeed without consuming anything?  (Over-approximation.) -/
def nullable : Expr R → Bool
  | .str w => w.isEmpty
  | .cls _ => false
  | .soi => true
  | .eoi _ => true
  | .seq x y => nullable x && nullable y
  | .alt x y => nullable x || nullable y
  | .opt _ => true
  | .star _ => true
  | .not _ => true
  | .rule _ _ x => nullable x
  | .quiet x => nullable x
  | .push x => nullable x
  | .pop => true
  | .dup x y => nullable x && nullable y

/-- Every repetition repeats something that consumes input. -/
def wf : Expr R → Bool
  | .seq x y => wf x && wf y
  | .alt x y => wf x && wf y
  | .opt x => wf x
  | .star x => !nullable x && wf x
  | .not x => wf x
  | .rule _ _ x => wf x
  | .quiet x => wf x
  | .push x => wf x
  | .dup x y => wf x && wf y
  | _ => true

theorem out_nullable {K : Str → Str → Prop} {sk : St → Res R} (e : Expr R) :
    ∀ a r ts, Out sk K e a [] r ts → nullable e = true := by
  induction e with
  | str w => rintro a r ts ⟨h, _⟩; simp [nullable, ← h]
  | cls p => rintro a r ts ⟨c, h, _⟩; simp at h
  | seq x y ihx ihy =>
    rintro a r ts ⟨s1, m, s2, t1, t2, h, _, h1, h2, _⟩
    simp only [List.nil_eq, List.append_eq_nil_iff] at h
    obtain ⟨⟨rfl, rfl⟩, rfl⟩ := h
    simp [nullable, ihx _ _ _ h1, ihy _ _ _ h2]
  | alt x y ihx ihy =>
    rintro a r ts (h | ⟨h, _⟩)
    · simp [nullable, ihx _ _ _ h]
    · simp [nullable, ihy _ _ _ h]
  | dup x y ihx ihy =>
    rintro a r ts ⟨w, u, t1, t2, h, h1, h2, _⟩
    simp only [List.nil_eq, List.append_eq_nil_iff] at h
    obtain ⟨rfl, rfl, _⟩ := h
    simp [nullable, ihx _ _ _ h1, ihy _ _ _ h2]
  | rule e ty x ih => rintro a r ts ⟨k, h, _⟩; exact ih _ _ _ h
  | quiet x ih => intro a r ts h; exact ih _ _ _ h
  | push x ih => intro a r ts h; exact ih _ _ _ h
  | soi => intros; rfl
  | eoi => intros; rfl
  | opt => intros; rfl
  | star => intros; rfl
  | not => intros; rfl
  | pop => intros; rfl

theorem many_ne_diverge {f : St → Res R} (h1 : ∀ st, f st ≠ .diverge)
    (h2 : ∀ st st' ts, f st = .ok st' ts → st'.rest.length < st.rest.length) :
    ∀ n st, st.rest.length < n → many f n st ≠ .diverge := by
  intro n
  induction n with
  | zero => intro st h; omega
  | succ n ih =>
    intro st h
    simp only [many]
    split
    · simp
    · next hd => exact absurd hd (h1 st)
    · next st' ts he =>
      have hl := h2 _ _ _ he
      rw [if_pos hl]
      have := ih st' (by omega)
      cases hm : many f n st' with
      | diverge => exact absurd hm this
      | fail => simp
      | ok _ _ => simp

theorem eval_consumes {K : Str → Str → Prop} {sk : St → Res R} (hs : SkipOK K sk) {e : Expr R}
    (hn : nullable e = false) {a : Atom} {st st' : St} {ts : List (Tree R)}
    (h : eval sk e a st = .ok st' ts) : st'.rest.length < st.rest.length := by
  obtain ⟨s, h1, h2⟩ := eval_out hs e _ _ _ _ h
  cases s with
  | nil => rw [out_nullable e _ _ _ h2] at hn; cases hn
  | cons c s => rw [h1]; simp; omega

/-- A grammar that passes `wf` never loops for ever. -/
theorem eval_ne_diverge {K : Str → Str → Prop} {sk : St → Res R} (hs : SkipOK K sk) (e : Expr R)
    (hw : wf e = true) : ∀ a st, eval sk e a st ≠ .diverge := by
  induction e with
  | str w => intro a st; simp only [eval]; split <;> simp
  | cls p =>
    intro a st
    simp only [eval]
    split
    · simp
    · split <;> simp
  | soi => intro a st; simp only [eval]; split <;> simp
  | eoi r => intro a st; simp only [eval]; split <;> simp
  | seq x y ihx ihy =>
    intro a st
    simp only [wf, Bool.and_eq_true] at hw
    simp only [eval]
    cases hx : eval sk x a st with
    | fail => simp
    | diverge => exact absurd hx (ihx hw.1 a st)
    | ok st1 ts1 =>
      obtain ⟨st2, h2, _⟩ := skipIf_spec hs a st1
      simp only [Res.ok_bind, h2]
      cases hy : eval sk y a st2 with
      | fail => simp
      | diverge => exact absurd hy (ihy hw.2 a st2)
      | ok _ _ => simp
  | dup x y ihx ihy =>
    intro a st
    simp only [wf, Bool.and_eq_true] at hw
    simp only [eval]
    cases hx : eval sk x a st with
    | fail => simp
    | diverge => exact absurd hx (ihx hw.1 a st)
    | ok st1 ts1 =>
      simp only [Res.ok_bind]
      cases hy : eval sk y a st1 with
      | fail => simp
      | diverge => exact absurd hy (ihy hw.2 a st1)
      | ok _ _ => simp only [Res.ok_bind]; split <;> simp
  | alt x y ihx ihy =>
    intro a st
    simp only [wf, Bool.and_eq_true] at hw
    simp only [eval]
    split
    · exact ihy hw.2 a st
    · exact ihx hw.1 a st
  | opt x ihx =>
    intro a st
    simp only [eval]
    split
    · simp
    · exact ihx hw a st
  | star x ihx =>
    intro a st
    simp only [wf, Bool.and_eq_true, Bool.not_eq_true'] at hw
    simp only [eval]
    split
    · simp
    · next hd => exact absurd hd (ihx hw.2 a st)
    · next st1 ts1 hx =>
      have := many_ne_diverge
        (f := fun s => (skipIf sk a s).bind fun s1 _ => eval sk x a s1) (by
          intro s
          obtain ⟨s2, h2, _⟩ := skipIf_spec hs a s
          simp only [h2, Res.ok_bind]
          exact ihx hw.2 a s2) (by
          intro s s' us he
          obtain ⟨s2, h2, m, h3, _⟩ := skipIf_spec hs a s
          simp only [h2, Res.ok_bind] at he
          have := eval_consumes hs hw.1 he
          rw [h3]
          simp
          omega) (st1.rest.length + 1) st1 (by omega)
      generalize many _ _ st1 = r at this
      cases r with
      | diverge => exact absurd rfl this
      | fail => simp
      | ok _ _ => simp
  | not x ihx =>
    intro a st
    simp only [eval]
    split
    · simp
    · simp
    · next hd => exact absurd hd (ihx hw a st)
  | rule r ty x ihx =>
    intro a st
    simp only [eval]
    cases hx : eval sk x (inside ty a) st with
    | fail => simp
    | diverge => exact absurd hx (ihx hw _ st)
    | ok st1 ts1 => simp
  | quiet x ihx => intro a st; exact ihx hw _ st
  | push x ihx =>
    intro a st
    simp only [eval]
    cases hx : eval sk x a st with
    | fail => simp
    | diverge => exact absurd hx (ihx hw _ st)
    | ok st1 ts1 => simp
  | pop =>
    intro a st
    simp only [eval]
    split
    · simp
    · split <;> simp

/-! ## The implicit skip -/

/-- Texts without implicit rules. -/
def NoGap (m _r : Str) : Prop := m = []

theorem noSkip_ok : SkipOK NoGap (noSkip : St → Res R) := fun st => ⟨st, rfl, [], rfl, rfl⟩

/-- A text piece that one of the given rules can match. -/
def Piece (xs : List (Expr R)) (p r : Str) : Prop :=
  ∃ x ∈ xs, ∃ ts, Out noSkip NoGap x .atomic p r ts

/-- What the implicit skip consumes: pieces that the given rules match, as many as possible. -/
def Blank (xs : List (Expr R)) (m r : Str) : Prop :=
  (∃ ps : List Str, m = ps.flatMap (fun p => p) ∧ Reps (fun p => p) (Piece xs) ps r) ∧
    ∀ x ∈ xs, Fails noSkip x .atomic r

theorem Reps.append {A : Type} {txt : A → Str} {P : A → Str → Prop} {a b : List A} {r : Str}
    (ha : Reps txt P a (b.flatMap txt ++ r)) (hb : Reps txt P b r) : Reps txt P (a ++ b) r := by
  induction a with
  | nil => exact hb
  | cons p a ih =>
    refine ⟨?_, ih ha.2⟩
    have := ha.1
    simpa using this

/-- A fit body for `WHITESPACE` or `COMMENT`. -/
def fit (x : Expr R) : Bool := wf x && !nullable x

theorem many_ne_fail (f : St → Res R) : ∀ n st, many f n st ≠ .fail := by
  intro n
  induction n with
  | zero => intro st; simp [many]
  | succ n ih =>
    intro st
    simp only [many]
    split
    · simp
    · simp
    · split
      · next st' _ _ _ =>
        cases hm : many f n st' with
        | fail => exact absurd hm (ih st')
        | diverge => simp
        | ok _ _ => simp
      · simp

/-- A sequence of pieces. -/
def Pieces (xs : List (Expr R)) (m r : Str) : Prop :=
  ∃ ps : List Str, m = ps.flatMap (fun p => p) ∧ Reps (fun p => p) (Piece xs) ps r

theorem Pieces.append {xs : List (Expr R)} {m n r : Str} (h1 : Pieces xs m (n ++ r))
    (h2 : Pieces xs n r) : Pieces xs (m ++ n) r := by
  obtain ⟨p, rfl, hp⟩ := h1
  obtain ⟨q, rfl, hq⟩ := h2
  exact ⟨p ++ q, by simp, Reps.append hp hq⟩

theorem reps_map {A B : Type} {txt : B → Str} {P : A → Str → Prop} {Q : B → Str → Prop} (f : A → B)
    {txt' : A → Str} (ht : ∀ a, txt' a = txt (f a)) (h : ∀ a r, P a r → Q (f a) r) {l : List A} {r : Str}
    (hl : Reps txt' P l r) : Reps txt Q (l.map f) r := by
  induction l with
  | nil => trivial
  | cons a l ih =>
    refine ⟨?_, ih hl.2⟩
    have := h _ _ hl.1
    have e : (l.map f).flatMap txt = l.flatMap txt' := by
      rw [List.flatMap_map]
      congr
      funext a
      exact (ht a).symm
    rw [e]
    exact this

theorem manyQuiet_spec {x : Expr R} (hx : fit x = true) (st : St) {xs : List (Expr R)} (hm : x ∈ xs) :
    ∃ st' ts, manyQuiet x st = .ok st' ts ∧ eval noSkip x .atomic st' = .fail ∧
      ∃ m, Pieces xs m st'.rest ∧ st.rest = m ++ st'.rest := by
  simp only [fit, Bool.and_eq_true, Bool.not_eq_true'] at hx
  have h1 := many_ne_diverge (f := eval noSkip x .atomic) (eval_ne_diverge noSkip_ok x hx.1 _)
    (fun st st' ts h => eval_consumes noSkip_ok hx.2 h) (st.rest.length + 1) st (by omega)
  cases hm' : many (eval noSkip x .atomic) (st.rest.length + 1) st with
  | diverge => exact absurd hm' h1
  | fail => exact absurd hm' (many_ne_fail _ _ _)
  | ok st' ts =>
    obtain ⟨h0, parts, h2, _, h3⟩ := many_out (A := Str) (txt := fun t => t)
      (P := fun t us r => Out noSkip NoGap x .atomic t r us)
      (fun s s' us h => eval_out noSkip_ok x _ _ _ _ h) _ _ _ _ hm'
    refine ⟨st', ts, hm', h0, _, ⟨parts.map (·.1), ?_, ?_⟩, h3⟩
    · simp [List.flatMap_map]
    · exact reps_map (fun a : Str × List (Tree R) => a.1) (fun _ => rfl)
        (fun a r h => ⟨x, hm, a.2, h⟩) h2

theorem skipOne_ok {x : Expr R} (hx : fit x = true) : SkipOK (Blank [x]) (skipOne x) := by
  intro st
  obtain ⟨st', ts, h, hf, m, hb, hm⟩ := manyQuiet_spec hx st (List.mem_singleton.2 rfl)
  refine ⟨st', by simp [skipOne, h], m, ⟨hb, ?_⟩, hm⟩
  intro y hy
  rw [List.mem_singleton.1 hy]
  exact ⟨st'.pos, st'.stack, hf⟩

theorem skipBoth_ok {ws comment : Expr R} (hw : fit ws = true) (hc : fit comment = true) :
    SkipOK (Blank [ws, comment]) (skipBoth ws comment) := by
  intro st
  have mw : ws ∈ [ws, comment] := by simp
  obtain ⟨st1, ts, h, hf1, m, hb, hm⟩ := manyQuiet_spec hw st mw
  simp only [fit, Bool.and_eq_true, Bool.not_eq_true'] at hc
  simp only [skipBoth, h, Res.ok_bind]
  have hf : ∀ s, (∃ s' us, ((eval noSkip comment .atomic s).bind fun s' _ => manyQuiet ws s') =
      .ok s' us ∧ (∃ t, s.rest = t ++ s'.rest ∧ Pieces [ws, comment] t s'.rest) ∧
        s'.rest.length < s.rest.length ∧ eval noSkip ws .atomic s' = .fail) ∨
      (((eval noSkip comment .atomic s).bind fun s' _ => manyQuiet ws s') = .fail ∧
        eval noSkip comment .atomic s = .fail) := by
    intro s
    cases he : eval noSkip comment .atomic s with
    | diverge => exact absurd he (eval_ne_diverge noSkip_ok comment hc.1 _ _)
    | fail => exact Or.inr ⟨rfl, rfl⟩
    | ok s1 us =>
      obtain ⟨s2, vs, h1, hf2, t, hbt, ht⟩ := manyQuiet_spec hw s1 mw
      obtain ⟨t0, ht0, ho⟩ := eval_out noSkip_ok comment _ _ _ _ he
      have := eval_consumes noSkip_ok hc.2 he
      refine Or.inl ⟨s2, vs, by simp [h1], ⟨t0 ++ t, by simp [ht0, ht], ?_⟩, ?_, hf2⟩
      · rw [ht] at ho
        refine Pieces.append ⟨[t0], by simp, ⟨?_, trivial⟩⟩ hbt
        exact ⟨comment, by simp, us, by simpa using ho⟩
      · have : s1.rest.length = t.length + s2.rest.length := by rw [ht]; simp
        omega
  have hd := many_ne_diverge
    (f := fun s => (eval noSkip comment .atomic s).bind fun s' _ => manyQuiet ws s')
    (by
      intro s
      rcases hf s with ⟨s', us, h1, _⟩ | ⟨h1, _⟩
      · simp [h1]
      · simp [h1])
    (by
      intro s s' us he
      rcases hf s with ⟨s'', us', h1, _, h2, _⟩ | ⟨h1, _⟩
      · rw [h1] at he; cases he; exact h2
      · rw [h1] at he; cases he) (st1.rest.length + 1) st1 (by omega)
  generalize hr : many _ _ st1 = r at hd
  cases r with
  | diverge => exact absurd rfl hd
  | fail => exact absurd hr (many_ne_fail _ _ _)
  | ok st2 us =>
    obtain ⟨h0, parts, h2, h2', h3⟩ := many_out (A := Str) (txt := fun t => t)
      (P := fun t _ r => Pieces [ws, comment] t r)
      (fun s s' us he => by
        rcases hf s with ⟨s'', us', h1, ⟨t, ht, hbt⟩, h2⟩ | ⟨h1, _⟩
        · simp only [h1, Res.ok.injEq] at he
          obtain ⟨rfl, rfl⟩ := he
          exact ⟨t, ht, hbt⟩
        · simp [h1] at he) _ _ _ _ hr
    have hws : eval noSkip ws .atomic st2 = .fail := by
      refine many_inv (Q := fun s => eval noSkip ws .atomic s = .fail) ?_ _ _ _ _ hf1 hr
      intro s s' us he
      rcases hf s with ⟨s'', us', h1, _, _, h2⟩ | ⟨h1, _⟩
      · simp only [h1, Res.ok.injEq] at he
        obtain ⟨rfl, rfl⟩ := he
        exact h2
      · simp [h1] at he
    have hco : eval noSkip comment .atomic st2 = .fail := by
      rcases hf st2 with ⟨s'', us', h1, _⟩ | ⟨_, h1⟩
      · simp [h1] at h0
      · exact h1
    refine ⟨st2, rfl, m ++ _, ⟨?_, ?_⟩, by rw [hm, h3, List.append_assoc]⟩
    · rw [h3] at hb
      refine hb.append ?_
      clear hr h3 hb h2'
      induction parts with
      | nil => exact ⟨[], rfl, trivial⟩
      | cons p ps ih =>
        rw [List.flatMap_cons]
        exact Pieces.append h2.1 (ih h2.2)
    · intro y hy
      simp only [List.mem_cons, List.not_mem_nil, or_false] at hy
      rcases hy with rfl | rfl
      · exact ⟨st2.pos, st2.stack, hws⟩
      · exact ⟨st2.pos, st2.stack, hco⟩

/-- A parser run: never divergent, and its tokens are covered by `Out`. -/
theorem run_cases {K : Str → Str → Prop} {sk : St → Res R} (hs : SkipOK K sk) {e : Expr R}
    (hw : wf e = true) (input : Str) :
    run sk e input = .error .parseError ∨
    ∃ ts s rest, run sk e input = .ok ts ∧ input = s ++ rest ∧ Out sk K e .nonAtomic s rest ts := by
  unfold run
  cases h : eval sk e .nonAtomic ⟨0, input, []⟩ with
  | fail => exact Or.inl rfl
  | diverge => exact absurd h (eval_ne_diverge hs e hw _ _)
  | ok st' ts =>
    obtain ⟨s, hr, ho⟩ := eval_out hs e _ _ _ _ h
    exact Or.inr ⟨ts, s, st'.rest, rfl, hr, ho⟩

end Verif.Peg
