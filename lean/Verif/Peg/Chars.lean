import Verif.Peg.Exact
import Verif.Peg.Text
/-!
# Character classes and their repetitions, exactly
-/

namespace Verif.Peg
variable {R : Type} {sk : St → Res R} {K : Str → Str → Prop}

/-- The text is empty or starts with a character outside the class. -/
def HeadNot (p : Char → Bool) (r : Str) : Prop := ∀ c, r.head? = some c → p c = false

theorem headNot_nil (p : Char → Bool) : HeadNot p [] := by intro c h; cases h

theorem headNot_cons {p : Char → Bool} {c : Char} {r : Str} : HeadNot p (c :: r) ↔ p c = false := by
  constructor
  · intro h; exact h c rfl
  · intro h d hd; cases hd; exact h

/-- An expression that matches one character of a class and emits nothing. -/
structure LikeCls (sk : St → Res R) (K : Str → Str → Prop) (x : Expr R) (a : Atom) (p : Char → Bool) :
    Prop where
  out : ∀ s r ts, Out sk K x a s r ts ↔ ∃ c, s = [c] ∧ p c = true ∧ ts = []
  fails : ∀ r, Fails sk x a r ↔ HeadNot p r

theorem fails_cls {p : Char → Bool} {a : Atom} {r : Str} : Fails sk (.cls p) a r ↔ HeadNot p r := by
  cases r with
  | nil => simp [Fails, eval, headNot_nil]
  | cons c r =>
    rw [headNot_cons]
    cases h : p c <;> simp [Fails, eval, h]

theorem likeCls_cls (p : Char → Bool) (a : Atom) : LikeCls sk K (.cls p) a p :=
  ⟨fun _ _ _ => Iff.rfl, fun _ => fails_cls⟩

theorem fails_str {w : Str} {a : Atom} {r : Str} : Fails sk (.str w) a r ↔ ¬ w <+: r := by
  rw [← List.isPrefixOf_iff_prefix]
  cases h : w.isPrefixOf r <;> simp [Fails, eval, h]

theorem likeCls_char (c : Char) (a : Atom) : LikeCls sk K (.str [c]) a (· == c) := by
  refine ⟨fun s r ts => ?_, fun r => ?_⟩
  · constructor
    · rintro ⟨rfl, rfl⟩; exact ⟨c, rfl, by simp, rfl⟩
    · rintro ⟨d, rfl, h, rfl⟩
      simp only [beq_iff_eq] at h
      exact ⟨by rw [h], rfl⟩
  · rw [fails_str]
    cases r with
    | nil => simp [headNot_nil]
    | cons d r =>
      rw [headNot_cons]
      simp only [List.cons_prefix_cons, List.nil_prefix, and_true, beq_eq_false_iff_ne]
      exact ⟨fun h e => h e.symm, fun h e => h e.symm⟩

theorem fails_alt {x y : Expr R} {a : Atom} {r : Str} (h : Fails sk (x ∥ y) a r) :
    Fails sk x a r ∧ Fails sk y a r := by
  obtain ⟨pos, stk, h⟩ := h
  simp only [eval] at h
  split at h
  · next hx => exact ⟨⟨pos, stk, hx⟩, ⟨pos, stk, h⟩⟩
  · next hx => exact absurd h hx

theorem fails_alt_iff {x y : Expr R} {a : Atom} {r : Str} (hu : Uniform (eval sk x a)) :
    Fails sk (x ∥ y) a r ↔ Fails sk x a r ∧ Fails sk y a r := by
  refine ⟨fails_alt, ?_⟩
  rintro ⟨h1, pos, stk, h2⟩
  refine ⟨pos, stk, ?_⟩
  simp only [eval, hu.fail_of h1 ⟨pos, r, stk⟩ rfl]
  exact h2

theorem LikeCls.alt {x y : Expr R} {a : Atom} {p q : Char → Bool} (hx : LikeCls sk K x a p)
    (hy : LikeCls sk K y a q) (hu : Uniform (eval sk x a)) :
    LikeCls sk K (x ∥ y) a (fun c => p c || q c) := by
  refine ⟨fun s r ts => ?_, fun r => ?_⟩
  · show Out sk K x a s r ts ∨ (Out sk K y a s r ts ∧ Fails sk x a (s ++ r)) ↔ _
    rw [hx.out, hy.out, hx.fails]
    constructor
    · rintro (⟨c, rfl, h, rfl⟩ | ⟨⟨c, rfl, h, rfl⟩, _⟩)
      · exact ⟨c, rfl, by simp [h], rfl⟩
      · exact ⟨c, rfl, by simp [h], rfl⟩
    · rintro ⟨c, rfl, h, rfl⟩
      cases hp : p c with
      | true => exact Or.inl ⟨c, rfl, hp, rfl⟩
      | false =>
        simp only [hp, Bool.false_or] at h
        exact Or.inr ⟨⟨c, rfl, h, rfl⟩, headNot_cons.2 hp⟩
  · rw [fails_alt_iff hu, hx.fails, hy.fails]
    cases r with
    | nil => simp [headNot_nil]
    | cons c r => simp [headNot_cons]

theorem LikeCls.congr {x : Expr R} {a : Atom} {p q : Char → Bool} (hx : LikeCls sk K x a p)
    (h : ∀ c, p c = q c) : LikeCls sk K x a q := by
  have : p = q := funext h
  rw [← this]; exact hx

theorem fails_seq_left {x y : Expr R} {a : Atom} {r : Str} (h : Fails sk x a r) :
    Fails sk (x ⬝ y) a r := by
  obtain ⟨pos, stk, h⟩ := h
  exact ⟨pos, stk, by simp [eval, h]⟩

theorem fails_plus {x : Expr R} {a : Atom} {r : Str} (h : Fails sk x a r) : Fails sk (.plus x) a r :=
  fails_seq_left h

theorem fails_rule {q : R} {ty : Ty} {x : Expr R} {a : Atom} {r : Str} (h : Fails sk x (inside ty a) r) :
    Fails sk (.rule q ty x) a r := by
  obtain ⟨pos, stk, h⟩ := h
  exact ⟨pos, stk, by simp [eval, h]⟩

theorem fails_rule_iff {q : R} {ty : Ty} {x : Expr R} {a : Atom} {r : Str} :
    Fails sk (.rule q ty x) a r ↔ Fails sk x (inside ty a) r := by
  refine ⟨?_, fails_rule⟩
  rintro ⟨pos, stk, h⟩
  refine ⟨pos, stk, ?_⟩
  simp only [eval] at h
  cases h1 : eval sk x (inside ty a) ⟨pos, r, stk⟩ with
  | fail => rfl
  | diverge => simp [h1] at h
  | ok _ _ => simp [h1] at h

/-- `!x ~ ANY` where whether `x` matches depends on the next character. -/
theorem likeCls_not_any {x : Expr R} {a : Atom} {p : Char → Bool} (ha : a ≠ .nonAtomic)
    (h1 : ∀ c r pos stk, p c = false → eval sk x a ⟨pos, c :: r, stk⟩ = .fail)
    (h2 : ∀ c r pos stk, p c = true → ∃ st ts, eval sk x a ⟨pos, c :: r, stk⟩ = .ok st ts)
    (h3 : Fails sk x a [] ∨ ∃ pos stk st ts, eval sk x a ⟨pos, [], stk⟩ = .ok st ts) :
    LikeCls sk K ((.not x) ⬝ .any) a (fun c => !p c) := by
  have sa : ∀ st, skipIf sk a st = .ok st [] := by
    intro st; cases a <;> first | exact absurd rfl ha | rfl
  refine ⟨fun s r ts => ?_, fun r => ?_⟩
  · constructor
    · rintro ⟨s1, m, s2, t1, t2, rfl, hg, ⟨rfl, rfl, pos, stk, hf⟩, ⟨c, rfl, _, rfl⟩, rfl⟩
      rw [gap_nil ha hg] at hf ⊢
      refine ⟨c, rfl, ?_, rfl⟩
      cases hp : p c with
      | false => rfl
      | true =>
        obtain ⟨st, ts, h⟩ := h2 c r pos stk hp
        simp only [List.nil_append, List.singleton_append] at hf
        rw [hf] at h; cases h
    · rintro ⟨c, rfl, h, rfl⟩
      simp only [Bool.not_eq_true'] at h
      refine ⟨[], [], [c], [], [], rfl, ?_, ⟨rfl, rfl, ⟨0, [], by simpa using h1 c r 0 [] h⟩⟩, ⟨c, rfl, rfl, rfl⟩, rfl⟩
      cases a <;> first | exact absurd rfl ha | rfl
  · cases r with
    | nil =>
      simp only [headNot_nil, iff_true]
      rcases h3 with ⟨pos, stk, h⟩ | ⟨pos, stk, st, ts, h⟩
      · exact ⟨pos, stk, by simp [eval, h, sa, Expr.any]⟩
      · exact ⟨pos, stk, by simp [eval, h]⟩
    | cons c r =>
      rw [headNot_cons]
      cases hp : p c with
      | false =>
        simp only [Bool.not_false, Bool.true_eq_false, iff_false]
        rintro ⟨pos, stk, h⟩
        simp only [eval] at h
        cases he : eval sk x a ⟨pos, c :: r, stk⟩ with
        | fail => simp [he, sa, Expr.any, eval] at h
        | diverge => simp [he] at h
        | ok st ts =>
          rw [h1 c r pos stk hp] at he; cases he
      | true =>
        simp only [Bool.not_true, iff_true]
        obtain ⟨st, ts, h⟩ := h2 c r 0 [] hp
        exact ⟨0, [], by simp [eval, h]⟩

theorem gap_refl {a : Atom} (ha : a ≠ .nonAtomic) (r : Str) : Gap K a [] r := by
  cases a <;> first | exact absurd rfl ha | rfl

theorem skip_fails {x : Expr R} {a : Atom} (ha : a ≠ .nonAtomic) {r : Str} :
    (∃ pos stk, ((skipIf sk a ⟨pos, r, stk⟩).bind fun s1 _ => eval sk x a s1) = .fail) ↔
      Fails sk x a r := by
  cases a <;> first | exact absurd rfl ha | rfl

/-- A repetition of a character class takes the longest run. -/
theorem LikeCls.star {x : Expr R} {a : Atom} {p : Char → Bool} (ha : a ≠ .nonAtomic)
    (hx : LikeCls sk K x a p) {s r : Str} {ts : List (Tree R)} :
    Out sk K (.star x) a s r ts ↔ (∀ c ∈ s, p c = true) ∧ HeadNot p r ∧ ts = [] := by
  constructor
  · intro h
    obtain ⟨h1, h2⟩ := out_star_of ha (P := fun c => p c = true) (fun s r ts h => by
      obtain ⟨c, rfl, hc, rfl⟩ := (hx.out _ _ _).1 h
      exact ⟨rfl, by simpa using hc⟩) h
    refine ⟨h2, ?_, h1⟩
    rcases h with ⟨rfl, rfl, hf⟩ | ⟨s1, t1, parts, rfl, rfl, h2, hp, hf⟩
    · exact (hx.fails r).1 hf
    · exact (hx.fails r).1 ((skip_fails ha).1 hf)
  · rintro ⟨h1, h2, rfl⟩
    have hf := (hx.fails r).2 h2
    cases s with
    | nil => exact Or.inl ⟨rfl, rfl, hf⟩
    | cons c s =>
      refine Or.inr ⟨[c], [], s.map fun d => (([], [d]), []), ?_, ?_, ?_, ?_, (skip_fails ha).2 hf⟩
      · simp [List.flatMap_map]
      · simp [List.flatMap_map]
      · exact (hx.out _ _ _).2 ⟨c, rfl, h1 c List.mem_cons_self, rfl⟩
      · have h3 : ∀ d ∈ s, p d = true := fun d hd => h1 d (List.mem_cons_of_mem _ hd)
        clear h1
        induction s with
        | nil => trivial
        | cons d s ih =>
          exact ⟨⟨gap_refl ha _, (hx.out _ _ _).2 ⟨d, rfl, h3 d List.mem_cons_self, rfl⟩⟩,
            ih fun e he => h3 e (List.mem_cons_of_mem _ he)⟩

theorem LikeCls.plus {x : Expr R} {a : Atom} {p : Char → Bool} (ha : a ≠ .nonAtomic)
    (hx : LikeCls sk K x a p) {s r : Str} {ts : List (Tree R)} :
    Out sk K (.plus x) a s r ts ↔ s ≠ [] ∧ (∀ c ∈ s, p c = true) ∧ HeadNot p r ∧ ts = [] := by
  constructor
  · rintro ⟨s1, m, s2, t1, t2, rfl, hg, h1, h2, rfl⟩
    rw [hx.star ha] at h2
    obtain ⟨c, rfl, hc, rfl⟩ := (hx.out _ _ _).1 h1
    obtain ⟨h3, h4, rfl⟩ := h2
    rw [gap_nil ha hg]
    refine ⟨by simp, ?_, h4, rfl⟩
    intro d hd
    simp only [List.append_nil, List.singleton_append, List.mem_cons] at hd
    rcases hd with rfl | hd
    · exact hc
    · exact h3 d hd
  · rintro ⟨h0, h1, h2, rfl⟩
    cases s with
    | nil => exact absurd rfl h0
    | cons c s =>
      refine ⟨[c], [], s, [], [], by simp, gap_refl ha _,
        (hx.out _ _ _).2 ⟨c, rfl, h1 c List.mem_cons_self, rfl⟩, ?_, rfl⟩
      rw [hx.star ha]
      exact ⟨fun d hd => h1 d (List.mem_cons_of_mem _ hd), h2, rfl⟩

theorem eval_newline_fail {a : Atom} (c : Char) (r : Str) (pos : Nat) (stk : List Str)
    (h : isNewlineChar c = false) : eval sk .newline a ⟨pos, c :: r, stk⟩ = .fail := by
  simp only [isNewlineChar, Bool.or_eq_false_iff, decide_eq_false_iff_not] at h
  have h1 : ¬ '\n' = c := fun e => h.1 e.symm
  have h2 : ¬ '\r' = c := fun e => h.2 e.symm
  simp [Expr.newline, eval, List.isPrefixOf, h1, h2]

theorem eval_newline_ok {a : Atom} (c : Char) (r : Str) (pos : Nat) (stk : List Str)
    (h : isNewlineChar c = true) : ∃ st ts, eval sk .newline a ⟨pos, c :: r, stk⟩ = .ok st ts := by
  have h1 := eval_newline (sk := sk) (a := a) c r pos stk h
  have h2 : eval sk .newline a ⟨pos, c :: r, stk⟩ ≠ .diverge := by
    simp only [Expr.newline, eval]
    split
    · split
      · split <;> simp
      · split <;> simp
    · split <;> simp
  cases h3 : eval sk .newline a ⟨pos, c :: r, stk⟩ with
  | fail => exact absurd h3 h1
  | diverge => exact absurd h3 h2
  | ok st ts => exact ⟨st, ts, rfl⟩

theorem fails_newline {a : Atom} {r : Str} : Fails sk .newline a r ↔ HeadNot isNewlineChar r := by
  cases r with
  | nil => simp [headNot_nil, Fails, Expr.newline, eval, List.isPrefixOf]
  | cons c r =>
    rw [headNot_cons]
    cases h : isNewlineChar c with
    | false => exact ⟨fun _ => rfl, fun _ => ⟨0, [], eval_newline_fail c r 0 [] h⟩⟩
    | true =>
      refine ⟨?_, fun h => by cases h⟩
      rintro ⟨pos, stk, hf⟩
      exact absurd hf (eval_newline c r pos stk h)

/-- `!NEWLINE ~ ANY` -/
theorem likeCls_notNewline {a : Atom} (ha : a ≠ .nonAtomic) :
    LikeCls sk K ((.not .newline) ⬝ .any) a (fun c => !isNewlineChar c) :=
  likeCls_not_any ha eval_newline_fail eval_newline_ok (Or.inl (fails_newline.2 (headNot_nil _)))

/-- One line end in front of `r`. -/
def LineEnd (s r : Str) : Prop :=
  s = ['\n'] ∨ s = ['\r', '\n'] ∨ (s = ['\r'] ∧ r.head? ≠ some '\n')

theorem out_newline_iff {a : Atom} {s r : Str} {ts : List (Tree R)} :
    Out sk K .newline a s r ts ↔ LineEnd s r ∧ ts = [] := by
  show ((s = _ ∧ ts = _) ∨ (((s = _ ∧ ts = _) ∨ ((s = _ ∧ ts = _) ∧ Fails sk _ a _)) ∧ Fails sk _ a _)) ↔ _
  simp only [fails_str, LineEnd]
  constructor
  · rintro (⟨rfl, rfl⟩ | ⟨(⟨rfl, rfl⟩ | ⟨⟨rfl, rfl⟩, h⟩), _⟩)
    · simp
    · simp
    · refine ⟨Or.inr (Or.inr ⟨rfl, ?_⟩), rfl⟩
      intro h2
      cases r with
      | nil => cases h2
      | cons d r => cases h2; simp at h
  · rintro ⟨h | h | ⟨rfl, h⟩, rfl⟩
    · exact Or.inl ⟨h, rfl⟩
    · exact Or.inr ⟨Or.inl ⟨h, rfl⟩, by subst h; simp⟩
    · refine Or.inr ⟨Or.inr ⟨⟨rfl, rfl⟩, ?_⟩, by simp⟩
      cases r with
      | nil => simp
      | cons d r =>
        simp only [List.head?_cons, ne_eq, Option.some.injEq] at h
        simp only [List.singleton_append, List.cons_prefix_cons, List.nil_prefix, and_true, true_and]
        exact fun e => h e.symm

end Verif.Peg
