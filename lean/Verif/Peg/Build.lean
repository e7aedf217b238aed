import Verif.Peg.Lines
/-!
# Building parses

Introduction rules for `Out`: how to show that a given text is parsed in a given way.
-/

namespace Verif.Peg
variable {R : Type} {sk : St → Res R} {K : Str → Str → Prop}

theorem out_seq0 {x y : Expr R} {s1 s2 r : Str} {t1 t2 : List (Tree R)} (hk : K [] (s2 ++ r))
    (h1 : Out sk K x .nonAtomic s1 (s2 ++ r) t1) (h2 : Out sk K y .nonAtomic s2 r t2) :
    Out sk K (x ⬝ y) .nonAtomic (s1 ++ s2) r (t1 ++ t2) :=
  ⟨s1, [], s2, t1, t2, by simp, hk, by simpa using h1, h2, rfl⟩

theorem out_str0 {w r : Str} {a : Atom} : Out sk K (.str w) a w r [] := ⟨rfl, rfl⟩

/-- A literal and more. -/
theorem out_key {w : Str} {y : Expr R} {s2 r : Str} {t2 : List (Tree R)} (hk : K [] (s2 ++ r))
    (h2 : Out sk K y .nonAtomic s2 r t2) : Out sk K ((.str w) ⬝ y) .nonAtomic (w ++ s2) r t2 :=
  out_seq0 hk out_str0 h2

theorem out_rule_normal {q : R} {x : Expr R} {s r : Str} {kids : List (Tree R)}
    (h : Out sk K x .nonAtomic s r kids) : Out sk K (.rule q .normal x) .nonAtomic s r [.node q s kids] :=
  ⟨kids, h, rfl⟩

theorem out_rule_atomic {q : R} {x : Expr R} {s r : Str} {kids : List (Tree R)}
    (h : Out sk K x .atomic s r kids) : Out sk K (.rule q .atomic x) .nonAtomic s r [.node q s kids] :=
  ⟨kids, h, rfl⟩

theorem out_alt_left {x y : Expr R} {a : Atom} {s r : Str} {ts : List (Tree R)} (h : Out sk K x a s r ts) :
    Out sk K (x ∥ y) a s r ts := Or.inl h

theorem out_alt_right {x y : Expr R} {a : Atom} {s r : Str} {ts : List (Tree R)} (hf : Fails sk x a (s ++ r))
    (h : Out sk K y a s r ts) : Out sk K (x ∥ y) a s r ts := Or.inr ⟨h, hf⟩

/-- `(!x ~ ANY)*`: `x` fails at every position of the text and the repetition ends behind it. -/
theorem out_until_text {x : Expr R} {a : Atom} (ha : a ≠ .nonAtomic) {s r : Str}
    (hx : ∀ p c q, s = p ++ c :: q → Fails sk x a (c :: (q ++ r))) (hr : Fails sk ((.not x) ⬝ .any) a r) :
    Out sk K (.star ((.not x) ⬝ .any)) a s r [] := by
  have one : ∀ c t, Fails sk x a (c :: t) → Out sk K ((.not x) ⬝ .any) a [c] t [] := fun c t h =>
    ⟨[], [], [c], [], [], rfl, gap_refl ha _, ⟨rfl, rfl, by simpa using h⟩, ⟨c, rfl, rfl, rfl⟩, rfl⟩
  cases s with
  | nil => exact Or.inl ⟨rfl, rfl, hr⟩
  | cons c s =>
    refine Or.inr ⟨[c], [], s.map fun d => (([], [d]), []), ?_, ?_, ?_, ?_, (skip_fails ha).2 hr⟩
    · simp [List.flatMap_map]
    · simp [List.flatMap_map]
    · refine one _ _ ?_
      simpa [List.flatMap_map] using hx [] c s rfl
    · have h3 : ∀ p d q, s = p ++ d :: q → Fails sk x a (d :: (q ++ r)) := fun p d q h => hx (c :: p) d q (by simp [h])
      clear hx
      induction s with
      | nil => trivial
      | cons d s ih =>
        refine ⟨⟨gap_refl ha _, one _ _ ?_⟩, ih fun p e q h => h3 (d :: p) e q (by simp [h])⟩
        simpa [List.flatMap_map] using h3 [] d s rfl

theorem fails_until_nil {x : Expr R} {a : Atom} (hs : SkipOK K sk) (hw : wf x = true) (ha : a ≠ .nonAtomic) :
    Fails sk ((.not x) ⬝ .any) a [] := by
  have sa : ∀ st, skipIf sk a st = .ok st [] := by
    intro st; cases a <;> first | exact absurd rfl ha | rfl
  refine ⟨0, [], ?_⟩
  simp only [eval]
  cases h : eval sk x a ⟨0, [], []⟩ with
  | fail => simp [sa, Expr.any, eval]
  | ok st ts => simp
  | diverge => exact absurd h (eval_ne_diverge hs x hw _ _)

theorem fails_until_ok {x : Expr R} {a : Atom} {r : Str} (h : ∃ pos stk st ts, eval sk x a ⟨pos, r, stk⟩ = .ok st ts) :
    Fails sk ((.not x) ⬝ .any) a r := by
  obtain ⟨pos, stk, st, ts, h⟩ := h
  exact ⟨pos, stk, by simp [eval, h]⟩

theorem star_ne_fail {x : Expr R} {a : Atom} {st : St} : eval sk (.star x) a st ≠ .fail := by
  simp only [eval]
  split
  · simp
  · simp
  · next st1 ts1 _ =>
    cases hm : many (fun s => (skipIf sk a s).bind fun s1 _ => eval sk x a s1) (st1.rest.length + 1) st1 with
    | fail => exact absurd hm (many_ne_fail _ _ _)
    | diverge => simp
    | ok _ _ => simp

/-- `x+` matches where `x` does. -/
theorem plus_ok {x : Expr R} {a : Atom} (hs : SkipOK K sk) (hw : wf (.plus x) = true) {st : St}
    (h : ∃ st' ts, eval sk x a st = .ok st' ts) : ∃ st' ts, eval sk (.plus x) a st = .ok st' ts := by
  obtain ⟨st1, t1, h⟩ := h
  cases he : eval sk (.plus x) a st with
  | ok st' ts => exact ⟨st', ts, rfl⟩
  | diverge => exact absurd he (eval_ne_diverge hs _ hw _ _)
  | fail =>
    exfalso
    simp only [Expr.plus, eval, h, Res.ok_bind] at he
    obtain ⟨st2, h2, _⟩ := skipIf_spec hs a st1
    simp only [h2, Res.ok_bind] at he
    cases hm : eval sk (.star x) a st2 with
    | fail => exact absurd hm star_ne_fail
    | diverge => simp only [eval] at hm; rw [hm] at he; simp at he
    | ok _ _ => simp only [eval] at hm; rw [hm] at he; simp at he

theorem newlines_ok {a : Atom} (hs : SkipOK K sk) {c : Char} {t : Str} (hc : isNewlineChar c = true) :
    ∃ pos stk st ts, eval sk (.plus .newline) a ⟨pos, c :: t, stk⟩ = .ok st ts := by
  obtain ⟨st, ts, h⟩ := plus_ok hs (x := .newline) (a := a) rfl (eval_newline_ok c t 0 [] hc)
  exact ⟨0, [], st, ts, h⟩

/-- `!NEWLINE+ ~ ANY` -/
theorem likeCls_notNewlines {a : Atom} (ha : a ≠ .nonAtomic) (hs : SkipOK K sk) (hu : Uniform sk) :
    LikeCls sk K ((.not (.plus .newline)) ⬝ .any) a (fun c => !isNewlineChar c) :=
  likeCls_not_any ha
    (fun c r pos stk h => (uniform_eval hu (.plus .newline) rfl a).fail_of (fails_plus (fails_newline.2 (headNot_cons.2 h))) ⟨pos, c :: r, stk⟩ rfl)
    (fun c r pos stk h => plus_ok hs (x := .newline) (a := a) rfl (eval_newline_ok c r pos stk h))
    (Or.inl (fails_plus (fails_newline.2 (headNot_nil _))))

/-- `!NL ~ ANY` at the end of a line. -/
theorem fails_until_lineEnd {a : Atom} (hs : SkipOK K sk) (ha : a ≠ .nonAtomic) {r : Str} (h : AtLineEnd r) :
    Fails sk ((.not (.plus .newline)) ⬝ .any) a r := by
  cases r with
  | nil => exact fails_until_nil hs rfl ha
  | cons c t =>
    have := headNot_cons.1 h
    exact fails_until_ok (newlines_ok hs (by simpa using this))

/-- The rest of the line. -/
theorem out_line_text {a : Atom} (hs : SkipOK K sk) (ha : a ≠ .nonAtomic) {s r : Str}
    (h1 : ∀ c ∈ s, isNewlineChar c = false) (h : AtLineEnd r) :
    Out sk K (.star ((.not (.plus .newline)) ⬝ .any)) a s r [] := by
  refine out_until_text ha (fun p c q e => ?_) (fails_until_lineEnd hs ha h)
  exact fails_plus (fails_newline.2 (headNot_cons.2 (h1 c (by simp [e]))))

/-- A literal matches. -/
theorem str_ok {a : Atom} {w r : Str} : ∃ pos stk st ts, eval sk (.str w) a ⟨pos, w ++ r, stk⟩ = .ok st ts := by
  refine ⟨0, [], ?_⟩
  simp only [eval]
  rw [if_pos (List.isPrefixOf_iff_prefix.2 ⟨r, rfl⟩)]
  exact ⟨_, _, rfl⟩

theorem alt_ok_right {x y : Expr R} {a : Atom} (hs : SkipOK K sk) (hw : wf (x ∥ y) = true) {r : Str}
    (h : ∃ pos stk st ts, eval sk y a ⟨pos, r, stk⟩ = .ok st ts) :
    ∃ pos stk st ts, eval sk (x ∥ y) a ⟨pos, r, stk⟩ = .ok st ts := by
  obtain ⟨pos, stk, st, ts, h⟩ := h
  refine ⟨pos, stk, ?_⟩
  cases he : eval sk (x ∥ y) a ⟨pos, r, stk⟩ with
  | ok st ts => exact ⟨st, ts, rfl⟩
  | diverge => exact absurd he (eval_ne_diverge hs _ hw _ _)
  | fail =>
    exfalso
    simp only [eval] at he
    split at he
    · rw [h] at he; cases he
    · next h' => exact absurd he h'

/-- `d+` in front of anything but a digit. -/
theorem out_digits_build {a : Atom} (ha : a ≠ .nonAtomic) {s r : Str} (h : IsDigits s)
    (hr : HeadNot isAsciiDigit r) : Out sk K (.plus (.cls isAsciiDigit)) a s r [] :=
  ((likeCls_cls isAsciiDigit a).plus ha).2 ⟨h.1, h.2, hr, rfl⟩

theorem digits_head {s r : Str} (h : IsDigits s) : ∃ c t, s ++ r = c :: t ∧ isAsciiDigit c = true := by
  cases s with
  | nil => exact absurd rfl h.1
  | cons c t => exact ⟨c, t ++ r, rfl, h.2 c List.mem_cons_self⟩

/-- An optional minus sign in front of digits. -/
theorem out_minus_build {a : Atom} {sg ds r : Str} (hsg : sg = [] ∨ sg = ['-']) (h : IsDigits ds) :
    Out sk K (.opt (.str c!"-")) a sg (ds ++ r) [] := by
  rcases hsg with rfl | rfl
  · refine Or.inr ⟨rfl, rfl, fails_str.2 ?_⟩
    obtain ⟨c, t, e, hc⟩ := digits_head (r := r) h
    rw [e]
    simp only [List.cons_prefix_cons, List.nil_prefix, and_true]
    rintro rfl
    exact absurd hc (by decide)
  · exact Or.inl ⟨rfl, rfl⟩

/-- `-? d+` -/
theorem out_int_build {a : Atom} (ha : a ≠ .nonAtomic) {sg ds r : Str} (hsg : sg = [] ∨ sg = ['-'])
    (h : IsDigits ds) (hr : HeadNot isAsciiDigit r) :
    Out sk K ((.opt (.str c!"-")) ⬝ (.plus (.cls isAsciiDigit))) a (sg ++ ds) r [] :=
  (out_seq_atomic ha).2 ⟨sg, ds, [], [], rfl, rfl, out_minus_build hsg h, out_digits_build ha h hr⟩

/-- `-? d+ (. d+)?` -/
theorem out_number_build {a : Atom} (ha : a ≠ .nonAtomic) {sg ds fs r : Str} (hsg : sg = [] ∨ sg = ['-'])
    (h : IsDigits ds) (hf : fs = [] ∨ ∃ d, fs = '.' :: d ∧ IsDigits d)
    (hr : HeadNot (fun c => isAsciiDigit c || c == '.') r) :
    Out sk K ((.opt (.str c!"-")) ⬝ (.plus (.cls isAsciiDigit)) ⬝ (.opt ((.str c!".") ⬝ (.plus (.cls isAsciiDigit)))))
      a (sg ++ (ds ++ fs)) r [] := by
  have hr1 : HeadNot isAsciiDigit r := fun c hc => by
    have := hr c hc
    simp only [Bool.or_eq_false_iff] at this
    exact this.1
  have hr2 : HeadNot (· == '.') r := fun c hc => by
    have := hr c hc
    simp only [Bool.or_eq_false_iff] at this
    exact this.2
  refine (out_seq_atomic ha).2 ⟨sg, ds ++ fs, [], [], rfl, rfl, ?_, ?_⟩
  · rw [List.append_assoc]; exact out_minus_build hsg h
  · refine (out_seq_atomic ha).2 ⟨ds, fs, [], [], rfl, rfl, out_digits_build ha h ?_, ?_⟩
    · rcases hf with rfl | ⟨d, rfl, _⟩
      · simpa using hr1
      · exact headNot_cons.2 (by decide)
    · rcases hf with rfl | ⟨d, rfl, hd⟩
      · refine Or.inr ⟨rfl, rfl, fails_seq_left ?_⟩
        exact ((likeCls_char (sk := sk) (K := K) '.' a).fails r).2 hr2
      · refine Or.inl ((out_seq_atomic ha).2 ⟨['.'], d, [], [], rfl, rfl, out_str0, out_digits_build ha hd hr1⟩)

/-! ## Alternatives that start with different keys -/

/-- A rule that starts with a literal. -/
def keyAlt (e : R × Str × Expr R) : Expr R := .rule e.1 .normal ((.str e.2.1) ⬝ e.2.2)

def keyAlts : R × Str × Expr R → List (R × Str × Expr R) → Expr R
  | e, [] => keyAlt e
  | e, f :: l => keyAlt e ∥ keyAlts f l

/-- Neither key is a prefix of the other. -/
def Differ (a b : R × Str × Expr R) : Prop := ¬ a.2.1 <+: b.2.1 ∧ ¬ b.2.1 <+: a.2.1

instance (a b : R × Str × Expr R) : Decidable (Differ a b) := inferInstanceAs (Decidable (_ ∧ _))

theorem fails_keyAlt {a b : R × Str × Expr R} (h : Differ a b) (s : Str) :
    Fails sk (keyAlt a) .nonAtomic (b.2.1 ++ s) := by
  refine fails_rule (fails_seq_left (fails_str.2 ?_))
  intro hp
  rcases List.prefix_or_prefix_of_prefix hp (List.prefix_append b.2.1 s) with h' | h'
  · exact h.1 h'
  · exact h.2 h'

/-- The alternative with the key of the text is taken. -/
theorem out_keyAlts {x : R × Str × Expr R} {s r : Str} {kids : List (Tree R)} (hk : K [] (s ++ r))
    (h : Out sk K x.2.2 .nonAtomic s r kids) (l : List (R × Str × Expr R)) : ∀ e, (e :: l).Pairwise Differ →
      x ∈ e :: l → Out sk K (keyAlts e l) .nonAtomic (x.2.1 ++ s) r [.node x.1 (x.2.1 ++ s) kids] := by
  have hx : Out sk K (keyAlt x) .nonAtomic (x.2.1 ++ s) r [.node x.1 (x.2.1 ++ s) kids] :=
    out_rule_normal (out_key hk h)
  induction l with
  | nil =>
    intro e _ hm
    rw [List.mem_singleton.1 hm] at hx ⊢
    exact hx
  | cons f l ih =>
    intro e hp hm
    rw [List.pairwise_cons] at hp
    rcases List.mem_cons.1 hm with rfl | hm
    · exact Or.inl hx
    · refine Or.inr ⟨ih f hp.2 hm, ?_⟩
      rw [List.append_assoc]
      exact fails_keyAlt (hp.1 x hm) (s ++ r)

end Verif.Peg
