import Verif.Peg.Text
import Verif.Peg.KidsAttr
/-!
# Shapes of token lists

`Kids x a ts`: forgetting the texts, `x` can emit the tokens `ts`.  For a rule that emits a token the
information about the token is kept in `Tok`.
-/

namespace Verif.Peg
variable {R : Type} {sk : St → Res R} {K : Str → Str → Prop}

/-- `x`, used in atomicity `a`, can emit exactly the token `t`. -/
def Tok (sk : St → Res R) (K : Str → Str → Prop) (x : Expr R) (a : Atom) (t : Tree R) : Prop :=
  ∃ s r, Out sk K x a s r [t]

/-- Token lists an expression can emit. -/
def Kids (sk : St → Res R) (K : Str → Str → Prop) : Expr R → Atom → List (Tree R) → Prop
  | .str _, _, ts => ts = []
  | .cls _, _, ts => ts = []
  | .soi, _, ts => ts = []
  | .eoi e, a, ts => ts = if a = .atomic then [] else [.node e [] []]
  | .seq x y, a, ts => ∃ t1, Kids sk K x a t1 ∧ ∃ t2, Kids sk K y a t2 ∧ ts = t1 ++ t2
  | .alt x y, a, ts => Kids sk K x a ts ∨ Kids sk K y a ts
  | .opt x, a, ts => Kids sk K x a ts ∨ ts = []
  | .star x, a, ts => ∃ l : List (List (Tree R)), (∀ k ∈ l, Kids sk K x a k) ∧ ts = l.flatten
  | .not _, _, ts => ts = []
  | .rule e ty x, a, ts =>
    if emits ty a then ∃ t, Tok sk K (.rule e ty x) a t ∧ ts = [t] else Kids sk K x (inside ty a) ts
  | .quiet x, _, ts => Kids sk K x .atomic ts
  | .push x, a, ts => Kids sk K x a ts
  | .pop, _, ts => ts = []
  | .dup x y, a, ts => ∃ t1, Kids sk K x a t1 ∧ ∃ t2, Kids sk K y a t2 ∧ ts = t1 ++ t2

theorem out_kids (x : Expr R) : ∀ a s r ts, Out sk K x a s r ts → Kids sk K x a ts := by
  induction x with
  | str w => intro a s r ts h; exact h.2
  | cls p => intro a s r ts h; obtain ⟨c, _, _, h⟩ := h; exact h
  | soi => intro a s r ts h; exact h.2
  | eoi e => intro a s r ts h; exact h.2.2
  | seq x y ihx ihy =>
    intro a s r ts h
    obtain ⟨s1, m, s2, t1, t2, _, _, h1, h2, h⟩ := h
    exact ⟨t1, ihx _ _ _ _ h1, t2, ihy _ _ _ _ h2, h⟩
  | dup x y ihx ihy =>
    intro a s r ts h
    obtain ⟨w, u, t1, t2, _, h1, h2, h⟩ := h
    exact ⟨t1, ihx _ _ _ _ h1, t2, ihy _ _ _ _ h2, h⟩
  | alt x y ihx ihy =>
    intro a s r ts h
    rcases h with h | ⟨h, _⟩
    · exact Or.inl (ihx _ _ _ _ h)
    · exact Or.inr (ihy _ _ _ _ h)
  | opt x ih =>
    intro a s r ts h
    rcases h with h | ⟨_, h, _⟩
    · exact Or.inl (ih _ _ _ _ h)
    · exact Or.inr h
  | star x ih =>
    intro a s r ts h
    refine out_star_ind h (fun _ ts => Kids sk K (.star x) a ts) ⟨[], by simp, rfl⟩ ?_
    rintro m s ts s' ts' _ h ⟨l, hl, rfl⟩
    exact ⟨ts :: l, by simpa using ⟨ih _ _ _ _ h, hl⟩, by simp⟩
  | not x => intro a s r ts h; exact h.2.1
  | rule e ty x ih =>
    intro a s r ts h
    obtain ⟨kids, h1, h2⟩ := id h
    simp only [Kids]
    by_cases he : emits ty a = true
    · rw [if_pos he] at h2 ⊢
      refine ⟨_, ⟨s, r, ?_⟩, h2⟩
      rw [h2] at h
      exact h
    · rw [if_neg he] at h2 ⊢
      rw [h2]
      exact ih _ _ _ _ h1
  | quiet x ih => intro a s r ts h; exact ih _ _ _ _ h
  | push x ih => intro a s r ts h; exact ih _ _ _ _ h
  | pop => intro a s r ts h; exact h

theorem kids_seq {x y : Expr R} {a : Atom} {ts : List (Tree R)} : Kids sk K (x ⬝ y) a ts ↔
    ∃ t1, Kids sk K x a t1 ∧ ∃ t2, Kids sk K y a t2 ∧ ts = t1 ++ t2 := Iff.rfl

theorem kids_dup {x y : Expr R} {a : Atom} {ts : List (Tree R)} : Kids sk K (.dup x y) a ts ↔
    ∃ t1, Kids sk K x a t1 ∧ ∃ t2, Kids sk K y a t2 ∧ ts = t1 ++ t2 := Iff.rfl

theorem kids_plus {x : Expr R} {a : Atom} {ts : List (Tree R)} : Kids sk K (.plus x) a ts ↔
    ∃ t1, Kids sk K x a t1 ∧ ∃ t2, Kids sk K (.star x) a t2 ∧ ts = t1 ++ t2 := Iff.rfl

/-- A token of a rule: its node. -/
theorem tok_rule {e : R} {ty : Ty} {x : Expr R} {a : Atom} {t : Tree R} (ha : emits ty a = true)
    (h : Tok sk K (.rule e ty x) a t) :
    ∃ s r kids, t = .node e s kids ∧ Out sk K x (inside ty a) s r kids := by
  obtain ⟨s, r, kids, h1, h2⟩ := h
  rw [if_pos ha] at h2
  exact ⟨s, r, kids, (List.cons.inj h2).1, h1⟩

theorem tok_kids {e : R} {ty : Ty} {x : Expr R} {a : Atom} {t : Tree R} (ha : emits ty a = true)
    (h : Tok sk K (.rule e ty x) a t) :
    ∃ s kids, t = .node e s kids ∧ Kids sk K x (inside ty a) kids := by
  obtain ⟨s, r, kids, h1, h2⟩ := tok_rule ha h
  exact ⟨s, kids, h1, out_kids _ _ _ _ _ h2⟩

/-- The tokens of a repetition have what every repeated part has. -/
theorem kids_star_all {x : Expr R} {a : Atom} {ts : List (Tree R)} {P : Tree R → Prop}
    (h : Kids sk K (.star x) a ts) (hx : ∀ k, Kids sk K x a k → ∀ t ∈ k, P t) : ∀ t ∈ ts, P t := by
  obtain ⟨l, hl, rfl⟩ := h
  intro t ht
  obtain ⟨k, hk, ht⟩ := List.mem_flatten.1 ht
  exact hx k (hl k hk) t ht

theorem kids_plus_all {x : Expr R} {a : Atom} {ts : List (Tree R)} {P : Tree R → Prop}
    (h : Kids sk K (.plus x) a ts) (hx : ∀ k, Kids sk K x a k → ∀ t ∈ k, P t) : ∀ t ∈ ts, P t := by
  obtain ⟨t1, h1, t2, h2, rfl⟩ := h
  intro t ht
  rcases List.mem_append.1 ht with ht | ht
  · exact hx _ h1 t ht
  · exact kids_star_all h2 hx t ht

/-- Part of an expression that emits nothing, by a check of the expression. -/
def mute : Expr R → Atom → Bool
  | .eoi _, a => a == .atomic
  | .seq x y, a => mute x a && mute y a
  | .dup x y, a => mute x a && mute y a
  | .alt x y, a => mute x a && mute y a
  | .opt x, a => mute x a
  | .star x, a => mute x a
  | .rule _ ty x, a => !emits ty a && mute x (inside ty a)
  | .quiet x, _ => mute x .atomic
  | .push x, a => mute x a
  | _, _ => true

theorem kids_mute (x : Expr R) : ∀ a ts, mute x a = true → Kids sk K x a ts → ts = [] := by
  induction x with
  | seq x y ihx ihy =>
    intro a ts hm h
    simp only [mute, Bool.and_eq_true] at hm
    obtain ⟨t1, h1, t2, h2, rfl⟩ := h
    rw [ihx _ _ hm.1 h1, ihy _ _ hm.2 h2]; rfl
  | dup x y ihx ihy =>
    intro a ts hm h
    simp only [mute, Bool.and_eq_true] at hm
    obtain ⟨t1, h1, t2, h2, rfl⟩ := h
    rw [ihx _ _ hm.1 h1, ihy _ _ hm.2 h2]; rfl
  | alt x y ihx ihy =>
    intro a ts hm h
    simp only [mute, Bool.and_eq_true] at hm
    rcases h with h | h
    · exact ihx _ _ hm.1 h
    · exact ihy _ _ hm.2 h
  | opt x ih =>
    intro a ts hm h
    rcases h with h | h
    · exact ih _ _ hm h
    · exact h
  | star x ih =>
    intro a ts hm h
    obtain ⟨l, hl, rfl⟩ := h
    rw [List.flatten_eq_nil_iff]
    exact fun k hk => ih _ _ hm (hl k hk)
  | rule e ty x ih =>
    intro a ts hm h
    simp only [mute, Bool.and_eq_true, Bool.not_eq_true'] at hm
    simp only [Kids, hm.1] at h
    exact ih _ _ hm.2 h
  | eoi e =>
    intro a ts hm h
    simp only [mute, beq_iff_eq] at hm
    simpa [Kids, hm] using h
  | quiet x ih => intro a ts hm h; exact ih _ _ hm h
  | push x ih => intro a ts hm h; exact ih _ _ hm h
  | str w => intro a ts _ h; exact h
  | cls p => intro a ts _ h; exact h
  | soi => intro a ts _ h; exact h
  | not x => intro a ts _ h; exact h
  | pop => intro a ts _ h; exact h

theorem kids_mute_nil (x : Expr R) : ∀ a, mute x a = true → Kids sk K x a [] := by
  induction x with
  | seq x y ihx ihy =>
    intro a hm
    simp only [mute, Bool.and_eq_true] at hm
    exact ⟨[], ihx _ hm.1, [], ihy _ hm.2, rfl⟩
  | dup x y ihx ihy =>
    intro a hm
    simp only [mute, Bool.and_eq_true] at hm
    exact ⟨[], ihx _ hm.1, [], ihy _ hm.2, rfl⟩
  | alt x y ihx ihy =>
    intro a hm
    simp only [mute, Bool.and_eq_true] at hm
    exact Or.inl (ihx _ hm.1)
  | opt x ih => intro a hm; exact Or.inr rfl
  | star x ih => intro a hm; exact ⟨[], by simp, rfl⟩
  | rule e ty x ih =>
    intro a hm
    simp only [mute, Bool.and_eq_true, Bool.not_eq_true'] at hm
    simp only [Kids, hm.1]
    exact ih _ hm.2
  | eoi e =>
    intro a hm
    simp only [mute, beq_iff_eq] at hm
    simp [Kids, hm]
  | quiet x ih => intro a hm; exact ih _ hm
  | push x ih => intro a hm; exact ih _ hm
  | str w => intro a _; rfl
  | cls p => intro a _; rfl
  | soi => intro a _; rfl
  | not x => intro a _; rfl
  | pop => intro a _; rfl

theorem kids_mute_iff {x : Expr R} {a : Atom} (hm : mute x a = true) {ts : List (Tree R)} :
    Kids sk K x a ts ↔ ts = [] :=
  ⟨kids_mute x a ts hm, fun h => h ▸ kids_mute_nil x a hm⟩

/-- Pull an inner existential out. -/
theorem ex_pull {A B : Type} {P : A → B → Prop} {Q : B → Prop} :
    (∃ b, (∃ a, P a b) ∧ Q b) ↔ ∃ a b, P a b ∧ Q b :=
  ⟨fun ⟨b, ⟨a, h⟩, hq⟩ => ⟨a, b, h, hq⟩, fun ⟨a, b, h, hq⟩ => ⟨b, ⟨a, h⟩, hq⟩⟩

theorem alt_tok {T1 T2 : Tree R → Prop} {k : List (Tree R)} :
    ((∃ t, T1 t ∧ k = [t]) ∨ ∃ t, T2 t ∧ k = [t]) ↔ ∃ t, (T1 t ∨ T2 t) ∧ k = [t] := by
  constructor
  · rintro (⟨t, h, rfl⟩ | ⟨t, h, rfl⟩)
    · exact ⟨t, Or.inl h, rfl⟩
    · exact ⟨t, Or.inr h, rfl⟩
  · rintro ⟨t, h | h, rfl⟩
    · exact Or.inl ⟨t, h, rfl⟩
    · exact Or.inr ⟨t, h, rfl⟩

theorem nil_or_tok {T1 : Tree R → Prop} {k : List (Tree R)} :
    (k = [] ∨ ∃ t, T1 t ∧ k = [t]) ↔ ((∃ t, T1 t ∧ k = [t]) ∨ k = []) := or_comm

theorem tok_or_nil_or {T1 T2 : Tree R → Prop} {k : List (Tree R)} :
    (((∃ t, T1 t ∧ k = [t]) ∨ k = []) ∨ ∃ t, T2 t ∧ k = [t]) ↔ ((∃ t, (T1 t ∨ T2 t) ∧ k = [t]) ∨ k = []) := by
  rw [← alt_tok]
  constructor
  · rintro ((h | h) | h)
    · exact Or.inl (Or.inl h)
    · exact Or.inr h
    · exact Or.inl (Or.inr h)
  · rintro ((h | h) | h)
    · exact Or.inl (Or.inl h)
    · exact Or.inr h
    · exact Or.inl (Or.inr h)

theorem star_opt_tok {T : Tree R → Prop} {ts : List (Tree R)} :
    (∃ l : List (List (Tree R)), (∀ k ∈ l, (∃ t, T t ∧ k = [t]) ∨ k = []) ∧ ts = l.flatten) ↔ ∀ t ∈ ts, T t := by
  constructor
  · rintro ⟨l, hl, rfl⟩ t ht
    obtain ⟨k, hk, ht⟩ := List.mem_flatten.1 ht
    rcases hl k hk with ⟨t', h, rfl⟩ | rfl
    · rw [List.mem_singleton.1 ht]; exact h
    · cases ht
  · intro h
    refine ⟨ts.map fun t => [t], fun k hk => ?_, ?_⟩
    · obtain ⟨t, ht, rfl⟩ := List.mem_map.1 hk
      exact Or.inl ⟨t, h t ht, rfl⟩
    · clear h
      induction ts with
      | nil => rfl
      | cons t ts ih => rw [List.map_cons, List.flatten_cons, ← ih]; rfl

theorem star_tok {T : Tree R → Prop} {ts : List (Tree R)} :
    (∃ l : List (List (Tree R)), (∀ k ∈ l, ∃ t, T t ∧ k = [t]) ∧ ts = l.flatten) ↔ ∀ t ∈ ts, T t := by
  constructor
  · rintro ⟨l, hl, h⟩
    exact star_opt_tok.1 ⟨l, fun k hk => Or.inl (hl k hk), h⟩
  · intro h
    refine ⟨ts.map fun t => [t], fun k hk => ?_, ?_⟩
    · obtain ⟨t, ht, rfl⟩ := List.mem_map.1 hk
      exact ⟨t, h t ht, rfl⟩
    · clear h
      induction ts with
      | nil => rfl
      | cons t ts ih => rw [List.map_cons, List.flatten_cons, ← ih]; rfl

theorem plus_opt_tok {T : Tree R → Prop} {Q : List (Tree R) → Prop} :
    (∃ t1, ((∃ t, T t ∧ t1 = [t]) ∨ t1 = []) ∧ ∃ t2, (∀ t ∈ t2, T t) ∧ Q (t1 ++ t2)) ↔
      ∃ ts, (∀ t ∈ ts, T t) ∧ Q ts := by
  constructor
  · rintro ⟨t1, h, t2, h2, hq⟩
    refine ⟨_, ?_, hq⟩
    rcases h with ⟨t, h, rfl⟩ | rfl
    · intro u hu
      rcases List.mem_cons.1 hu with rfl | hu
      · exact h
      · exact h2 u hu
    · exact h2
  · rintro ⟨ts, h, hq⟩
    exact ⟨[], Or.inr rfl, ts, h, hq⟩

attribute [kids_simp] plus_opt_tok Kids kids_plus inside emits star_tok star_opt_tok alt_tok nil_or_tok tok_or_nil_or ex_pull and_assoc exists_and_left
  exists_eq_left List.cons_append List.nil_append List.append_nil or_self reduceCtorEq if_true if_false


/-- The outcome of a parser whose entry rule ends with `EOI`: a parse error, or the single token of
the entry rule. -/
theorem run_tok (entry : Expr R) {e : R} {x : Expr R} (hx : entry = .rule e .normal x) (hs : SkipOK K sk)
    (hw : wf entry = true) (he : endsEoi x = true) (input : Str) :
    run sk entry input = .error .parseError ∨
    ∃ kids, run sk entry input = .ok [.node e input kids] ∧ Out sk K x .nonAtomic input [] kids := by
  subst hx
  rcases run_whole hs hw he input with h | ⟨ts, h, ho⟩
  · exact Or.inl h
  · obtain ⟨kids, h1, h2⟩ := ho
    right
    refine ⟨kids, ?_, h1⟩
    rw [h, h2]; rfl

end Verif.Peg
