import Verif.Peg.Sound
/-!
# `Out` is exact

For expressions without `SOI`, `PUSH` and `POP`, every text that `Out` allows is really parsed that
way.  Together with `eval_out` this makes `Out` another description of the parser: a run succeeds with
given text and tokens if and only if `Out` says so.
-/

namespace Verif.Peg
variable {R : Type}

/-- Move past a text. -/
def St.past (st : St) (s r : Str) : St := ⟨st.pos + s.length, r, st.stack⟩

@[simp] theorem St.past_rest (st : St) (s r : Str) : (st.past s r).rest = r := rfl

theorem St.past_nil {st : St} {r : Str} (h : st.rest = r) : st.past [] r = st := by
  cases st; cases h; rfl

theorem St.past_past (st : St) (s t r r' : Str) : (st.past s r).past t r' = st.past (s ++ t) r' := by
  simp [St.past, Nat.add_assoc]

theorem St.advance_past {st : St} {w r : Str} (h : st.rest = w ++ r) :
    st.advance w.length = st.past w r := by
  cases st; cases h; simp [St.advance, St.past]

/-- The outcome depends on the remaining input only. -/
def Uniform (f : St → Res R) : Prop :=
  ∀ r, (∀ st, st.rest = r → f st = .fail) ∨ (∀ st, st.rest = r → f st = .diverge) ∨
    ∃ s r' ts, r = s ++ r' ∧ ∀ st, st.rest = r → f st = .ok (st.past s r') ts

/-- No `SOI`, `PUSH`, `POP`. -/
def plain : Expr R → Bool
  | .soi => false
  | .push _ => false
  | .pop => false
  | .seq x y => plain x && plain y
  | .dup x y => plain x && plain y
  | .alt x y => plain x && plain y
  | .opt x => plain x
  | .star x => plain x
  | .not x => plain x
  | .rule _ _ x => plain x
  | .quiet x => plain x
  | _ => true

theorem Uniform.bind {f g : St → Res R} (hf : Uniform f) (hg : Uniform g)
    (h : List (Tree R) → List (Tree R) → List (Tree R)) :
    Uniform fun st => (f st).bind fun st1 t1 => (g st1).bind fun st2 t2 => .ok st2 (h t1 t2) := by
  intro r
  rcases hf r with h1 | h1 | ⟨s, r', ts, rfl, h1⟩
  · exact Or.inl fun st hs => by simp [h1 st hs]
  · exact Or.inr (Or.inl fun st hs => by simp [h1 st hs])
  · rcases hg r' with h2 | h2 | ⟨s2, r2, ts2, rfl, h2⟩
    · exact Or.inl fun st hs => by simp [h1 st hs, h2 (st.past s r') rfl]
    · exact Or.inr (Or.inl fun st hs => by simp [h1 st hs, h2 (st.past s r') rfl])
    · exact Or.inr (Or.inr ⟨s ++ s2, r2, h ts ts2, by simp, fun st hs => by
        simp [h1 st hs, h2 (st.past s (s2 ++ r2)) rfl, St.past_past]⟩)

theorem Uniform.map {f : St → Res R} (hf : Uniform f)
    (h : List (Tree R) → List (Tree R)) : Uniform fun st => (f st).bind fun st1 t1 => .ok st1 (h t1) := by
  intro r
  rcases hf r with h1 | h1 | ⟨s, r', ts, rfl, h1⟩
  · exact Or.inl fun st hs => by simp [h1 st hs]
  · exact Or.inr (Or.inl fun st hs => by simp [h1 st hs])
  · exact Or.inr (Or.inr ⟨s, r', h ts, rfl, fun st hs => by simp [h1 st hs]⟩)

theorem uniform_ok : Uniform (fun st => (.ok st [] : Res R)) := fun r =>
  Or.inr (Or.inr ⟨[], r, [], rfl, fun st hs => by rw [St.past_nil hs]⟩)

theorem uniform_many {f : St → Res R} (hf : Uniform f) : ∀ n, Uniform (many f n) := by
  intro n
  induction n with
  | zero => intro r; exact Or.inr (Or.inl fun st _ => rfl)
  | succ n ih =>
    intro r
    rcases hf r with h1 | h1 | ⟨s, r', ts, rfl, h1⟩
    · exact Or.inr (Or.inr ⟨[], r, [], rfl, fun st hs => by simp [many, h1 st hs, St.past_nil hs]⟩)
    · exact Or.inr (Or.inl fun st hs => by simp [many, h1 st hs])
    · by_cases hl : r'.length < (s ++ r').length
      · rcases ih r' with h2 | h2 | ⟨s2, r2, ts2, rfl, h2⟩
        · exact Or.inl fun st hs => by simp only [many, h1 st hs, hs, St.past_rest, hl, if_true]; simp [h2 (st.past s r') rfl]
        · exact Or.inr (Or.inl fun st hs => by
            simp only [many, h1 st hs, hs, St.past_rest, hl, if_true]; simp [h2 (st.past s r') rfl])
        · refine Or.inr (Or.inr ⟨s ++ s2, r2, ts ++ ts2, by simp, fun st hs => ?_⟩)
          simp only [many, h1 st hs, hs, St.past_rest, hl, if_true]
          simp [h2 (st.past s (s2 ++ r2)) rfl, St.past_past]
      · exact Or.inr (Or.inl fun st hs => by simp only [many, h1 st hs, hs, St.past_rest, hl, if_false])

/-- Fuel given by the state. -/
theorem uniform_fuel {f : St → Res R} (hf : Uniform f) : Uniform fun st => many f (st.rest.length + 1) st := by
  intro r
  rcases uniform_many hf (r.length + 1) r with h | h | ⟨s, r', ts, e, h⟩
  · exact Or.inl fun st hs => by simpa [hs] using h st hs
  · exact Or.inr (Or.inl fun st hs => by simpa [hs] using h st hs)
  · exact Or.inr (Or.inr ⟨s, r', ts, e, fun st hs => by simpa [hs] using h st hs⟩)

theorem uniform_skipIf {sk : St → Res R} (hs : Uniform sk) (a : Atom) : Uniform (skipIf sk a) := by
  cases a
  · exact hs
  · exact uniform_ok
  · exact uniform_ok

theorem uniform_eval {sk : St → Res R} (hs : Uniform sk) (e : Expr R) (he : plain e = true) :
    ∀ a, Uniform (eval sk e a) := by
  induction e with
  | str w =>
    intro a r
    by_cases h : w.isPrefixOf r = true
    · obtain ⟨t, rfl⟩ := List.isPrefixOf_iff_prefix.1 h
      refine Or.inr (Or.inr ⟨w, t, [], rfl, fun st hs => ?_⟩)
      simp only [eval, hs, h, if_true]
      rw [St.advance_past hs]
    · exact Or.inl fun st hs => by simp [eval, hs, h]
  | cls p =>
    intro a r
    cases r with
    | nil => exact Or.inl fun st hs => by simp [eval, hs]
    | cons c r =>
      by_cases h : p c = true
      · refine Or.inr (Or.inr ⟨[c], r, [], rfl, fun st hs => ?_⟩)
        simp only [eval, hs, h, if_true]
        rw [← St.advance_past (w := [c]) (by simpa using hs)]
        rfl
      · exact Or.inl fun st hs => by simp [eval, hs, h]
  | soi => cases he
  | push => cases he
  | pop => cases he
  | eoi q =>
    intro a r
    by_cases h : r = []
    · refine Or.inr (Or.inr ⟨[], r, if a = .atomic then [] else [.node q [] []], rfl, fun st hs => ?_⟩)
      simp only [eval, hs, h, if_true]
      rw [St.past_nil (by rw [hs, h])]
    · exact Or.inl fun st hs => by simp [eval, hs, h]
  | seq x y ihx ihy =>
    intro a
    simp only [plain, Bool.and_eq_true] at he
    have h1 := ihx he.1 a
    have h2 := ihy he.2 a
    have h3 := (uniform_skipIf hs a).bind h2 (fun _ t => t)
    have := h1.bind h3 (fun t u => t ++ u)
    refine cast (congrArg Uniform (funext fun st => ?_)) this
    simp only [eval]
    congr 1
    funext st1 t1
    cases skipIf sk a st1 with
    | fail => rfl
    | diverge => rfl
    | ok st2 t2 =>
      simp only [Res.ok_bind]
      cases eval sk y a st2 <;> rfl
  | alt x y ihx ihy =>
    intro a r
    simp only [plain, Bool.and_eq_true] at he
    rcases ihx he.1 a r with h1 | h1 | ⟨s, r', ts, rfl, h1⟩
    · rcases ihy he.2 a r with h2 | h2 | ⟨s, r', ts, rfl, h2⟩
      · exact Or.inl fun st hs => by simp [eval, h1 st hs, h2 st hs]
      · exact Or.inr (Or.inl fun st hs => by simp [eval, h1 st hs, h2 st hs])
      · exact Or.inr (Or.inr ⟨s, r', ts, rfl, fun st hs => by simp [eval, h1 st hs, h2 st hs]⟩)
    · exact Or.inr (Or.inl fun st hs => by simp [eval, h1 st hs])
    · exact Or.inr (Or.inr ⟨s, r', ts, rfl, fun st hs => by simp [eval, h1 st hs]⟩)
  | opt x ihx =>
    intro a r
    rcases ihx he a r with h1 | h1 | ⟨s, r', ts, rfl, h1⟩
    · exact Or.inr (Or.inr ⟨[], r, [], rfl, fun st hs => by simp [eval, h1 st hs, St.past_nil hs]⟩)
    · exact Or.inr (Or.inl fun st hs => by simp [eval, h1 st hs])
    · exact Or.inr (Or.inr ⟨s, r', ts, rfl, fun st hs => by simp [eval, h1 st hs]⟩)
  | star x ihx =>
    intro a r
    have hx := ihx he a
    have hb : Uniform fun s => (skipIf sk a s).bind fun s1 _ => eval sk x a s1 := by
      have := (uniform_skipIf hs a).bind hx (fun _ t => t)
      refine cast (congrArg Uniform (funext fun st => ?_)) this
      congr 1
      funext st1 t1
      cases eval sk x a st1 <;> rfl
    rcases hx r with h1 | h1 | ⟨s, r', ts, rfl, h1⟩
    · exact Or.inr (Or.inr ⟨[], r, [], rfl, fun st hs => by simp [eval, h1 st hs, St.past_nil hs]⟩)
    · exact Or.inr (Or.inl fun st hs => by simp [eval, h1 st hs])
    · rcases uniform_fuel hb r' with h2 | h2 | ⟨s2, r2, ts2, rfl, h2⟩
      · refine Or.inl fun st hs => ?_
        simp only [eval, h1 st hs]
        have := h2 (st.past s r') rfl
        simp only at this
        rw [this]
        rfl
      · refine Or.inr (Or.inl fun st hs => ?_)
        simp only [eval, h1 st hs]
        have := h2 (st.past s r') rfl
        simp only at this
        rw [this]
        rfl
      · refine Or.inr (Or.inr ⟨s ++ s2, r2, ts ++ ts2, by simp, fun st hs => ?_⟩)
        simp only [eval, h1 st hs]
        have := h2 (st.past s (s2 ++ r2)) rfl
        simp only at this
        rw [this]
        simp [St.past_past]
  | dup x y ihx ihy =>
    intro a r
    simp only [plain, Bool.and_eq_true] at he
    rcases ihx he.1 a r with h1 | h1 | ⟨s, r', ts, rfl, h1⟩
    · exact Or.inl fun st hs => by simp [eval, h1 st hs]
    · exact Or.inr (Or.inl fun st hs => by simp [eval, h1 st hs])
    · have hb : ∀ st : St, st.rest = s ++ r' → st.between (st.past s r') = s := fun st hs => between_eq hs
      rcases ihy he.2 a r' with h2 | h2 | ⟨s2, r2, ts2, rfl, h2⟩
      · exact Or.inl fun st hs => by simp [eval, h1 st hs, h2 (st.past s r') rfl]
      · exact Or.inr (Or.inl fun st hs => by simp [eval, h1 st hs, h2 (st.past s r') rfl])
      · by_cases hp : s.isPrefixOf r2 = true
        · obtain ⟨t, rfl⟩ := List.isPrefixOf_iff_prefix.1 hp
          refine Or.inr (Or.inr ⟨s ++ (s2 ++ s), t, ts ++ ts2, by simp, fun st hs => ?_⟩)
          simp only [eval, h1 st hs, Res.ok_bind, h2 (st.past s (s2 ++ (s ++ t))) rfl, hb st hs, St.past_rest, hp, if_true]
          rw [St.advance_past (w := s) (r := t) rfl]
          simp [St.past_past]
        · exact Or.inl fun st hs => by
            simp only [eval, h1 st hs, Res.ok_bind, h2 (st.past s (s2 ++ r2)) rfl, hb st hs, St.past_rest, hp]
            rfl
  | not x ihx =>
    intro a r
    rcases ihx he a r with h1 | h1 | ⟨s, r', ts, rfl, h1⟩
    · exact Or.inr (Or.inr ⟨[], r, [], rfl, fun st hs => by simp [eval, h1 st hs, St.past_nil hs]⟩)
    · exact Or.inr (Or.inl fun st hs => by simp [eval, h1 st hs])
    · exact Or.inl fun st hs => by simp [eval, h1 st hs]
  | rule q ty x ihx =>
    intro a r
    rcases ihx he (inside ty a) r with h1 | h1 | ⟨s, r', ts, rfl, h1⟩
    · exact Or.inl fun st hs => by simp [eval, h1 st hs]
    · exact Or.inr (Or.inl fun st hs => by simp [eval, h1 st hs])
    · refine Or.inr (Or.inr ⟨s, r', if emits ty a then [.node q s ts] else ts, rfl, fun st hs => ?_⟩)
      simp only [eval, h1 st hs, Res.ok_bind]
      rw [between_eq (s := s) (by simpa using hs)]
  | quiet x ihx => intro a; exact ihx he .atomic

theorem uniform_noSkip : Uniform (noSkip : St → Res R) := uniform_ok

theorem uniform_manyQuiet {x : Expr R} (hx : plain x = true) : Uniform (manyQuiet x) :=
  uniform_fuel (uniform_eval uniform_noSkip x hx .atomic)

theorem uniform_skipOne {x : Expr R} (hx : plain x = true) : Uniform (skipOne x) :=
  (uniform_manyQuiet hx).map fun _ => []

theorem uniform_skipBoth {w c : Expr R} (hw : plain w = true) (hc : plain c = true) :
    Uniform (skipBoth w c) := by
  have h1 : Uniform fun s => (eval noSkip c .atomic s).bind fun s' _ => manyQuiet w s' := by
    have := (uniform_eval uniform_noSkip c hc .atomic).bind (uniform_manyQuiet hw) (fun _ t => t)
    refine cast (congrArg Uniform (funext fun st => ?_)) this
    congr 1
    funext st1 t1
    cases manyQuiet w st1 <;> rfl
  have := (uniform_manyQuiet hw).bind (uniform_fuel h1) (fun _ _ => [])
  exact this

theorem Uniform.fail_of {f : St → Res R} (hf : Uniform f) {r : Str}
    (h : ∃ pos stk, f ⟨pos, r, stk⟩ = .fail) : ∀ st, st.rest = r → f st = .fail := by
  obtain ⟨pos, stk, h⟩ := h
  rcases hf r with h1 | h1 | ⟨s, r', ts, rfl, h1⟩
  · exact h1
  · rw [h1 _ rfl] at h; cases h
  · rw [h1 _ rfl] at h; cases h

/-- `dup` is what `PUSH(x) ~ y ~ POP` does in an atomic rule. -/
theorem eval_dup {sk : St → Res R} (hs : Uniform sk) {x y : Expr R} (hx : plain x = true) (hy : plain y = true)
    {a : Atom} (ha : a ≠ .nonAtomic) (st : St) : eval sk (.push x ⬝ y ⬝ .pop) a st = eval sk (.dup x y) a st := by
  have hk : ∀ st, skipIf sk a st = .ok st [] := by cases a <;> first | exact absurd rfl ha | exact fun _ => rfl
  simp only [eval, hk, Res.ok_bind]
  rcases uniform_eval hs x hx a st.rest with h1 | h1 | ⟨s, r', ts, e, h1⟩
  · simp [h1 st rfl]
  · simp [h1 st rfl]
  · simp only [h1 st rfl, Res.ok_bind, between_eq (s := s) (st := st) (st' := st.past s r') e]
    rcases uniform_eval hs y hy a r' with h2 | h2 | ⟨s2, r2, ts2, rfl, h2⟩
    · rw [h2 _ rfl, h2 _ rfl]; rfl
    · rw [h2 _ rfl, h2 _ rfl]; rfl
    · rw [h2 _ rfl, h2 _ rfl]
      simp only [Res.ok_bind, St.past]
      split <;> simp [St.advance]

/-- The skip consumes exactly the texts of `K`. -/
def SkipExact (K : Str → Str → Prop) (sk : St → Res R) : Prop :=
  ∀ m r st, K m r → st.rest = m ++ r → sk st = .ok (st.past m r) []

theorem skipIf_exact {K : Str → Str → Prop} {sk : St → Res R} (hs : SkipExact K sk) {a : Atom}
    {m r : Str} {st : St} (hg : Gap K a m r) (h : st.rest = m ++ r) :
    skipIf sk a st = .ok (st.past m r) [] := by
  cases a with
  | nonAtomic => exact hs m r st hg h
  | compound =>
    cases hg
    rw [St.past_nil (by simpa using h)]
    rfl
  | atomic =>
    cases hg
    rw [St.past_nil (by simpa using h)]
    rfl

theorem many_exact {A : Type} {f : St → Res R} {txt : A → Str} {out : A → List (Tree R)} {ps : List A}
    {r : Str} (hp : Reps txt (fun p r => txt p ≠ [] ∧
      ∀ st, st.rest = txt p ++ r → f st = .ok (st.past (txt p) r) (out p)) ps r)
    (hr : ∀ st, st.rest = r → f st = .fail) : ∀ n st, st.rest = ps.flatMap txt ++ r →
      st.rest.length < n → many f n st = .ok (st.past (ps.flatMap txt) r) (ps.flatMap out) := by
  induction ps with
  | nil =>
    intro n st hs hn
    obtain ⟨n, rfl⟩ : ∃ k, n = k + 1 := ⟨n - 1, by omega⟩
    simp only [List.flatMap_nil, List.nil_append] at hs ⊢
    simp [many, hr st hs, St.past_nil hs]
  | cons p ps ih =>
    intro n st hs hn
    obtain ⟨n, rfl⟩ : ∃ k, n = k + 1 := ⟨n - 1, by omega⟩
    obtain ⟨⟨h0, h1⟩, h2⟩ := hp
    simp only [List.flatMap_cons, List.append_assoc] at hs ⊢
    have hl : 0 < (txt p).length := List.length_pos_iff.2 h0
    have hlen : (ps.flatMap txt ++ r).length < st.rest.length := by
      rw [hs, List.length_append (as := txt p)]; omega
    simp only [many, h1 st hs, St.past_rest, hlen, if_true]
    rw [ih h2 n _ rfl (by simp only [St.past_rest]; omega)]
    simp [St.past_past]

theorem reps_imp {A : Type} {txt : A → Str} {P Q : A → Str → Prop} {l : List A} {r : Str}
    (h : ∀ a r, P a r → Q a r) (hl : Reps txt P l r) : Reps txt Q l r := by
  induction l with
  | nil => trivial
  | cons a l ih => exact ⟨h _ _ hl.1, ih hl.2⟩

/-- Every text that `Out` allows is parsed that way. -/
theorem out_eval {K : Str → Str → Prop} {sk : St → Res R} (hu : Uniform sk) (hk : SkipExact K sk)
    (e : Expr R) (he : plain e = true) (hw : wf e = true) : ∀ a s r ts st, Out sk K e a s r ts →
      st.rest = s ++ r → eval sk e a st = .ok (st.past s r) ts := by
  induction e with
  | str w =>
    rintro a s r ts st ⟨rfl, rfl⟩ hs
    have : s.isPrefixOf st.rest = true := by rw [hs]; exact List.isPrefixOf_iff_prefix.2 ⟨r, rfl⟩
    simp only [eval, this, if_true]
    rw [St.advance_past hs]
  | cls p =>
    rintro a s r ts st ⟨c, rfl, hp, rfl⟩ hs
    have hs' : st.rest = c :: r := hs
    simp only [eval, hs', hp, if_true]
    rw [← St.advance_past hs]
    rfl
  | soi => cases he
  | push => cases he
  | pop => cases he
  | eoi q =>
    rintro a s r ts st ⟨rfl, rfl, rfl⟩ hs
    simp only [List.append_nil] at hs
    simp [eval, hs, St.past_nil hs]
  | seq x y ihx ihy =>
    rintro a s r ts st ⟨s1, m, s2, t1, t2, rfl, hg, h1, h2, rfl⟩ hs
    simp only [plain, wf, Bool.and_eq_true] at he hw
    simp only [eval]
    rw [ihx he.1 hw.1 _ _ _ _ st h1 (by simpa using hs), Res.ok_bind,
      skipIf_exact hk hg (by simp), Res.ok_bind, ihy he.2 hw.2 _ _ _ _ _ h2 (by simp)]
    simp [St.past_past]
  | dup x y ihx ihy =>
    rintro a s r ts st ⟨w, u, t1, t2, rfl, h1, h2, rfl⟩ hs
    simp only [plain, wf, Bool.and_eq_true] at he hw
    have hs' : st.rest = w ++ (u ++ (w ++ r)) := by simpa using hs
    have hp : w.isPrefixOf (w ++ r) = true := List.isPrefixOf_iff_prefix.2 ⟨r, rfl⟩
    simp only [eval]
    rw [ihx he.1 hw.1 _ _ _ _ st h1 hs', Res.ok_bind, ihy he.2 hw.2 _ _ _ _ _ h2 rfl, Res.ok_bind,
      between_eq (s := w) (by simpa using hs')]
    simp only [St.past_rest, hp, if_true]
    rw [St.advance_past (w := w) (r := r) rfl]
    simp [St.past_past]
  | alt x y ihx ihy =>
    rintro a s r ts st h hs
    simp only [plain, wf, Bool.and_eq_true] at he hw
    simp only [eval]
    rcases h with h | ⟨h, hf⟩
    · rw [ihx he.1 hw.1 _ _ _ _ st h hs]
    · rw [(uniform_eval hu x he.1 a).fail_of hf st hs]
      exact ihy he.2 hw.2 _ _ _ _ st h hs
  | opt x ihx =>
    rintro a s r ts st h hs
    simp only [eval]
    rcases h with h | ⟨rfl, rfl, hf⟩
    · rw [ihx he hw _ _ _ _ st h hs]
    · rw [(uniform_eval hu x he a).fail_of hf st hs, St.past_nil (r := r) hs]
  | star x ihx =>
    rintro a s r ts st h hs
    simp only [wf, Bool.and_eq_true, Bool.not_eq_true'] at hw
    have hx := uniform_eval hu x he a
    have hb : Uniform fun s => (skipIf sk a s).bind fun s1 _ => eval sk x a s1 := by
      have := (uniform_skipIf hu a).bind hx (fun _ t => t)
      refine cast (congrArg Uniform (funext fun st => ?_)) this
      congr 1
      funext st1 t1
      cases eval sk x a st1 <;> rfl
    simp only [eval]
    rcases h with ⟨rfl, rfl, hf⟩ | ⟨s1, t1, parts, rfl, rfl, h1, hp, hf⟩
    · rw [hx.fail_of hf st hs, St.past_nil (r := r) hs]
    · rw [ihx he hw.2 _ _ _ _ st h1 (by simpa using hs)]
      have hp' : Reps (fun p : (Str × Str) × List (Tree R) => p.1.1 ++ p.1.2) (fun p r =>
          (p.1.1 ++ p.1.2) ≠ [] ∧ ∀ st, st.rest = (p.1.1 ++ p.1.2) ++ r →
            ((skipIf sk a st).bind fun s1 _ => eval sk x a s1) =
              .ok (st.past (p.1.1 ++ p.1.2) r) p.2) parts r := by
        refine reps_imp ?_ hp
        rintro p r' ⟨hg, ho⟩
        refine ⟨?_, ?_⟩
        · intro hn
          rw [List.append_eq_nil_iff] at hn
          rw [hn.2] at ho
          rw [out_nullable x _ _ _ ho] at hw
          exact absurd hw.1 (by simp)
        · intro st' hs'
          rw [skipIf_exact hk hg (by simpa using hs'), Res.ok_bind,
            ihx he hw.2 _ _ _ _ _ ho (by simp), St.past_past]
      have := many_exact hp' (hb.fail_of hf) ((parts.flatMap (fun p => p.1.1 ++ p.1.2) ++ r).length + 1)
        (st.past s1 (parts.flatMap (fun p => p.1.1 ++ p.1.2) ++ r)) rfl (by simp)
      simp only [St.past_rest]
      rw [this]
      simp [St.past_past]
  | not x ihx =>
    rintro a s r ts st ⟨rfl, rfl, hf⟩ hs
    simp only [eval]
    rw [(uniform_eval hu x he a).fail_of hf st hs, St.past_nil (r := r) hs]
  | rule q ty x ihx =>
    rintro a s r ts st ⟨kids, h, rfl⟩ hs
    simp only [eval]
    rw [ihx he hw _ _ _ _ st h hs, Res.ok_bind, between_eq (s := s) (by simpa using hs)]
  | quiet x ihx =>
    rintro a s r ts st h hs
    exact ihx he hw _ _ _ _ st h hs

/-! ## The implicit skip -/

theorem noSkip_exact : SkipExact NoGap (noSkip : St → Res R) := by
  rintro m r st rfl hs
  rw [St.past_nil (r := r) hs]
  rfl

/-- At most one of the rules matches anywhere. -/
def Disjoint (xs : List (Expr R)) : Prop :=
  ∀ x ∈ xs, ∀ y ∈ xs, ∀ st st1 st2 t1 t2, eval noSkip x .atomic st = .ok st1 t1 →
    eval noSkip y .atomic st = .ok st2 t2 → x = y

theorem piece_eval {xs : List (Expr R)} (hx : ∀ x ∈ xs, fit x = true ∧ plain x = true) {p r : Str}
    (h : Piece xs p r) : p ≠ [] ∧ ∃ x ∈ xs, ∃ ts, ∀ st, st.rest = p ++ r →
      eval noSkip x .atomic st = .ok (st.past p r) ts := by
  obtain ⟨x, hm, ts, ho⟩ := h
  obtain ⟨h1, h2⟩ := hx x hm
  simp only [fit, Bool.and_eq_true, Bool.not_eq_true'] at h1
  refine ⟨?_, x, hm, ts, fun st hs => out_eval uniform_noSkip noSkip_exact x h2 h1.1 _ _ _ _ st ho hs⟩
  rintro rfl
  rw [out_nullable x _ _ _ ho] at h1
  exact absurd h1.2 (by simp)

theorem blank_unique {xs : List (Expr R)} (hx : ∀ x ∈ xs, fit x = true ∧ plain x = true)
    (hd : Disjoint xs) {ps : List Str} : ∀ {m' r r' : Str}, Reps (fun p => p) (Piece xs) ps r →
      (∀ x ∈ xs, Fails noSkip x .atomic r) → Blank xs m' r' →
      ps.flatMap (fun p => p) ++ r = m' ++ r' → ps.flatMap (fun p => p) = m' ∧ r = r' := by
  induction ps with
  | nil =>
    rintro m' r r' _ hf ⟨⟨qs, rfl, hq⟩, _⟩ he
    cases qs with
    | nil => exact ⟨rfl, he⟩
    | cons q qs =>
      exfalso
      obtain ⟨_, x, hm, ts, h2⟩ := piece_eval hx hq.1
      have h3 := (uniform_eval uniform_noSkip x (hx x hm).2 .atomic).fail_of (hf x hm) ⟨0, r, []⟩ rfl
      rw [h2 ⟨0, r, []⟩ (by simpa using he)] at h3
      cases h3
  | cons p ps ih =>
    rintro m' r r' hp hf ⟨⟨qs, rfl, hq⟩, hf'⟩ he
    obtain ⟨h0, x, hm, ts, h2⟩ := piece_eval hx hp.1
    cases qs with
    | nil =>
      exfalso
      have h3 := (uniform_eval uniform_noSkip x (hx x hm).2 .atomic).fail_of (hf' x hm) ⟨0, r', []⟩ rfl
      rw [h2 ⟨0, r', []⟩ (by simpa using he.symm)] at h3
      cases h3
    | cons q qs =>
      obtain ⟨h0', y, hm', ts', h2'⟩ := piece_eval hx hq.1
      have e1 := h2 ⟨0, (p :: ps).flatMap (fun p => p) ++ r, []⟩ (by simp)
      have e2 := h2' ⟨0, (p :: ps).flatMap (fun p => p) ++ r, []⟩ (by simpa using he)
      have hxy := hd x hm y hm' _ _ _ _ _ e1 e2
      subst hxy
      rw [e1] at e2
      simp only [Res.ok.injEq, St.past, St.mk.injEq] at e2
      obtain ⟨⟨_, e3, _⟩, _⟩ := e2
      have epq : p = q := by
        simp only [List.flatMap_cons, List.append_assoc] at he
        rw [e3] at he
        exact List.append_cancel_right he
      subst epq
      obtain ⟨e4, e5⟩ := ih hp.2 hf ⟨⟨qs, rfl, hq.2⟩, hf'⟩ e3
      exact ⟨by simp [e4], e5⟩

theorem skip_exact {xs : List (Expr R)} {sk : St → Res R}
    (hx : ∀ x ∈ xs, fit x = true ∧ plain x = true) (hd : Disjoint xs) (hs : SkipOK (Blank xs) sk)
    (hu : Uniform sk) : SkipExact (Blank xs) sk := by
  rintro m r st ⟨⟨ps, rfl, hp⟩, hf⟩ hr
  obtain ⟨st', h1, m', hk, h2⟩ := hs st
  obtain ⟨e1, e2⟩ := blank_unique hx hd hp hf hk (by rw [← hr, h2])
  rcases hu st.rest with h | h | ⟨s, r', ts, e, h⟩
  · rw [h st rfl] at h1; cases h1
  · rw [h st rfl] at h1; cases h1
  · rw [h st rfl] at h1
    simp only [Res.ok.injEq] at h1
    obtain ⟨h3, h4⟩ := h1
    rw [h st rfl, h4]
    have : r' = st'.rest := by rw [← h3]; rfl
    have e3 : s = m' := by
      rw [e, this] at h2
      exact List.append_cancel_right h2
    rw [this, e1, e2, e3]

theorem skipOne_exact {x : Expr R} (hx : fit x = true) (hp : plain x = true) :
    SkipExact (Blank [x]) (skipOne x) :=
  skip_exact (by simp [hx, hp]) (by
    intro y hy z hz _ _ _ _ _ _ _
    rw [List.mem_singleton.1 hy, List.mem_singleton.1 hz]) (skipOne_ok hx) (uniform_skipOne hp)

theorem skipBoth_exact {w c : Expr R} (hw : fit w = true) (hc : fit c = true) (pw : plain w = true)
    (pc : plain c = true) (hd : ∀ st st1 t1, eval noSkip w .atomic st = .ok st1 t1 →
      eval noSkip c .atomic st = .fail) : SkipExact (Blank [w, c]) (skipBoth w c) := by
  refine skip_exact ?_ ?_ (skipBoth_ok hw hc) (uniform_skipBoth pw pc)
  · intro x hx
    simp only [List.mem_cons, List.not_mem_nil, or_false] at hx
    rcases hx with rfl | rfl
    · exact ⟨hw, pw⟩
    · exact ⟨hc, pc⟩
  · intro x hx y hy st st1 st2 t1 t2 h1 h2
    simp only [List.mem_cons, List.not_mem_nil, or_false] at hx hy
    rcases hx with rfl | rfl <;> rcases hy with rfl | rfl
    · rfl
    · rw [hd _ _ _ h1] at h2; cases h2
    · rw [hd _ _ _ h2] at h1; cases h1
    · rfl

/-- An entry rule `r = { SOI ~ e }`: a description of the whole input is the outcome of the run. -/
theorem run_of_out {K : Str → Str → Prop} {sk : St → Res R} (hu : Uniform sk) (hk : SkipExact K sk)
    {q : R} {e : Expr R} (he : plain e = true) (hw : wf e = true) {input : Str} {ts : List (Tree R)}
    (h : Out sk K (.rule q .normal (.soi ⬝ e)) .nonAtomic input [] ts) :
    run sk (.rule q .normal (.soi ⬝ e)) input = .ok ts := by
  obtain ⟨kids, ⟨s1, m, s2, t1, t2, rfl, hg, ⟨rfl, rfl⟩, h2, rfl⟩, rfl⟩ := h
  have e1 := skipIf_exact hk hg (st := ⟨0, [] ++ m ++ s2, []⟩) (by simp)
  have e2 := out_eval hu hk e he hw _ _ _ _ ((⟨0, [] ++ m ++ s2, []⟩ : St).past m (s2 ++ [])) h2 rfl
  simp only [inside] at e1 e2
  simp only [run, eval, inside, if_true, Res.ok_bind, e1, e2, emits]
  simp only [St.between, St.past, List.nil_append, List.append_nil, List.length_nil, Nat.sub_zero,
    List.take_length]

end Verif.Peg
