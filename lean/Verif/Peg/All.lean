import Verif.Peg.Kids
/-!
# Properties of all tokens of a tree

`All Q t`: the token `t` and all tokens inside have `Q`.
-/

namespace Verif.Peg
variable {R : Type} {sk : St → Res R} {K : Str → Str → Prop} {Q : Tree R → Prop}

/-- The token and all tokens inside have `Q`. -/
inductive All (Q : Tree R → Prop) : Tree R → Prop
  | mk (e : R) (s : Str) (kids : List (Tree R)) : Q (.node e s kids) → (∀ k ∈ kids, All Q k) → All Q (.node e s kids)

theorem All.here {t : Tree R} (h : All Q t) : Q t := by cases h; assumption

theorem All.inner {t : Tree R} (h : All Q t) : ∀ k ∈ t.inner, All Q k := by cases h; assumption

/-- Every token that `x` makes has `Q`. -/
def Makes (sk : St → Res R) (K : Str → Str → Prop) (Q : Tree R → Prop) : Expr R → Atom → Prop
  | .str _, _ => True
  | .cls _, _ => True
  | .soi, _ => True
  | .eoi e, _ => Q (.node e [] [])
  | .seq x y, a => Makes sk K Q x a ∧ Makes sk K Q y a
  | .alt x y, a => Makes sk K Q x a ∧ Makes sk K Q y a
  | .opt x, a => Makes sk K Q x a
  | .star x, a => Makes sk K Q x a
  | .not _, _ => True
  | .rule e ty x, a => (∀ s r kids, Out sk K x (inside ty a) s r kids → Q (.node e s kids)) ∧ Makes sk K Q x (inside ty a)
  | .quiet x, _ => Makes sk K Q x .atomic
  | .push x, a => Makes sk K Q x a
  | .pop, _ => True
  | .dup x y, a => Makes sk K Q x a ∧ Makes sk K Q y a

theorem out_all (x : Expr R) : ∀ a s r ts, Makes sk K Q x a → Out sk K x a s r ts → ∀ t ∈ ts, All Q t := by
  induction x with
  | str w => rintro a s r ts - ⟨_, rfl⟩; simp
  | cls p => rintro a s r ts - ⟨c, _, _, rfl⟩; simp
  | soi => rintro a s r ts - ⟨_, rfl⟩; simp
  | eoi e =>
    rintro a s r ts hm ⟨_, _, rfl⟩ t ht
    split at ht
    · cases ht
    · rw [List.mem_singleton.1 ht]; exact ⟨_, _, _, hm, by simp⟩
  | seq x y ihx ihy =>
    rintro a s r ts ⟨hx, hy⟩ ⟨s1, m, s2, t1, t2, _, _, h1, h2, rfl⟩ t ht
    rcases List.mem_append.1 ht with ht | ht
    · exact ihx _ _ _ _ hx h1 t ht
    · exact ihy _ _ _ _ hy h2 t ht
  | dup x y ihx ihy =>
    rintro a s r ts ⟨hx, hy⟩ ⟨w, u, t1, t2, _, h1, h2, rfl⟩ t ht
    rcases List.mem_append.1 ht with ht | ht
    · exact ihx _ _ _ _ hx h1 t ht
    · exact ihy _ _ _ _ hy h2 t ht
  | alt x y ihx ihy =>
    rintro a s r ts ⟨hx, hy⟩ h
    rcases h with h | ⟨h, _⟩
    · exact ihx _ _ _ _ hx h
    · exact ihy _ _ _ _ hy h
  | opt x ih =>
    rintro a s r ts hm (h | ⟨_, rfl, _⟩)
    · exact ih _ _ _ _ hm h
    · simp
  | star x ih =>
    intro a s r ts hm h
    refine out_star_ind h (fun _ ts => ∀ t ∈ ts, All Q t) (by simp) ?_
    intro m s ts s' ts' _ h h' t ht
    rcases List.mem_append.1 ht with ht | ht
    · exact ih _ _ _ _ hm h t ht
    · exact h' t ht
  | not x => rintro a s r ts - ⟨_, rfl, _⟩; simp
  | rule e ty x ih =>
    rintro a s r ts ⟨hq, hm⟩ ⟨kids, h, rfl⟩ t ht
    split at ht
    · rw [List.mem_singleton.1 ht]
      exact ⟨_, _, _, hq _ _ _ h, ih _ _ _ _ hm h⟩
    · exact ih _ _ _ _ hm h t ht
  | quiet x ih => intro a s r ts hm h; exact ih _ _ _ _ hm h
  | push x ih => intro a s r ts hm h; exact ih _ _ _ _ hm h
  | pop => rintro a s r ts - rfl; simp

/-- The characters of all tokens are characters of the text. -/
theorem out_chars {P : Char → Prop} (x : Expr R) : ∀ a s r ts, Out sk K x a s r ts → (∀ c ∈ s, P c) →
    ∀ t ∈ ts, All (fun t => ∀ c ∈ t.asStr, P c) t := by
  induction x with
  | str w => rintro a s r ts ⟨_, rfl⟩; simp
  | cls p => rintro a s r ts ⟨c, _, _, rfl⟩; simp
  | soi => rintro a s r ts ⟨_, rfl⟩; simp
  | eoi e =>
    rintro a s r ts ⟨_, _, rfl⟩ hp t ht
    split at ht
    · cases ht
    · rw [List.mem_singleton.1 ht]; exact ⟨_, _, _, by simp [Tree.asStr], by simp⟩
  | seq x y ihx ihy =>
    rintro a s r ts ⟨s1, m, s2, t1, t2, rfl, _, h1, h2, rfl⟩ hp t ht
    rcases List.mem_append.1 ht with ht | ht
    · exact ihx _ _ _ _ h1 (fun c hc => hp c (by simp [hc])) t ht
    · exact ihy _ _ _ _ h2 (fun c hc => hp c (by simp [hc])) t ht
  | dup x y ihx ihy =>
    rintro a s r ts ⟨w, u, t1, t2, rfl, h1, h2, rfl⟩ hp t ht
    rcases List.mem_append.1 ht with ht | ht
    · exact ihx _ _ _ _ h1 (fun c hc => hp c (by simp [hc])) t ht
    · exact ihy _ _ _ _ h2 (fun c hc => hp c (by simp [hc])) t ht
  | alt x y ihx ihy =>
    rintro a s r ts h hp
    rcases h with h | ⟨h, _⟩
    · exact ihx _ _ _ _ h hp
    · exact ihy _ _ _ _ h hp
  | opt x ih =>
    rintro a s r ts (h | ⟨_, rfl, _⟩) hp
    · exact ih _ _ _ _ h hp
    · simp
  | star x ih =>
    intro a s r ts h
    refine out_star_ind h (fun s ts => (∀ c ∈ s, P c) → ∀ t ∈ ts, All (fun t => ∀ c ∈ t.asStr, P c) t) (by simp) ?_
    intro m s ts s' ts' _ h h' hp t ht
    rcases List.mem_append.1 ht with ht | ht
    · exact ih _ _ _ _ h (fun c hc => hp c (by simp [hc])) t ht
    · exact h' (fun c hc => hp c (by simp [hc])) t ht
  | not x => rintro a s r ts ⟨_, rfl, _⟩; simp
  | rule e ty x ih =>
    rintro a s r ts ⟨kids, h, rfl⟩ hp t ht
    split at ht
    · rw [List.mem_singleton.1 ht]
      exact ⟨_, _, _, hp, ih _ _ _ _ h hp⟩
    · exact ih _ _ _ _ h hp t ht
  | quiet x ih => intro a s r ts h hp; exact ih _ _ _ _ h hp
  | push x ih => intro a s r ts h hp; exact ih _ _ _ _ h hp
  | pop => rintro a s r ts rfl; simp

end Verif.Peg
