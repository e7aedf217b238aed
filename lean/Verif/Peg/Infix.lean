import Verif.Peg.Kids
/-!
# The text of a token is a part of the text

`out_infix`: every token emitted covers a contiguous part of the consumed text.
-/

namespace Verif.Peg
variable {R : Type} {sk : St → Res R} {K : Str → Str → Prop}

theorem infix_left {u s t : Str} (h : u <:+: s) : u <:+: s ++ t := h.trans (List.prefix_append _ _).isInfix
theorem infix_right {u s t : Str} (h : u <:+: t) : u <:+: s ++ t := h.trans (List.suffix_append _ _).isInfix

/-- The text of every emitted token is a contiguous part of the consumed text. -/
theorem out_infix (x : Expr R) : ∀ a s r ts, Out sk K x a s r ts → ∀ t ∈ ts, t.asStr <:+: s := by
  induction x with
  | str w => intro a s r ts h; rw [h.2]; simp
  | cls p => intro a s r ts h; obtain ⟨c, _, _, h⟩ := h; rw [h]; simp
  | soi => intro a s r ts h; rw [h.2]; simp
  | eoi e =>
    intro a s r ts h
    rw [h.2.2]
    split
    · simp
    · intro t ht
      rw [List.mem_singleton.1 ht]
      exact List.nil_infix
  | seq x y ihx ihy =>
    intro a s r ts h
    obtain ⟨s1, m, s2, t1, t2, rfl, _, h1, h2, rfl⟩ := h
    intro t ht
    rcases List.mem_append.1 ht with ht | ht
    · exact infix_left (infix_left (ihx _ _ _ _ h1 t ht))
    · exact infix_right (ihy _ _ _ _ h2 t ht)
  | dup x y ihx ihy =>
    intro a s r ts h
    obtain ⟨w, u, t1, t2, rfl, h1, h2, rfl⟩ := h
    intro t ht
    rcases List.mem_append.1 ht with ht | ht
    · exact infix_left (ihx _ _ _ _ h1 t ht)
    · exact infix_right (infix_left (ihy _ _ _ _ h2 t ht))
  | alt x y ihx ihy =>
    intro a s r ts h
    rcases h with h | ⟨h, _⟩
    · exact ihx _ _ _ _ h
    · exact ihy _ _ _ _ h
  | opt x ih =>
    intro a s r ts h
    rcases h with h | ⟨_, h, _⟩
    · exact ih _ _ _ _ h
    · rw [h]; simp
  | star x ih =>
    intro a s r ts h
    refine out_star_ind h (fun s ts => ∀ t ∈ ts, t.asStr <:+: s) (by simp) ?_
    intro m s ts s' ts' _ h ih' t ht
    rcases List.mem_append.1 ht with ht | ht
    · exact infix_left (infix_right (ih _ _ _ _ h t ht))
    · exact infix_right (ih' t ht)
  | not x => intro a s r ts h; rw [h.2.1]; simp
  | rule e ty x ih =>
    intro a s r ts h
    obtain ⟨kids, h1, h2⟩ := h
    by_cases he : emits ty a = true
    · rw [if_pos he] at h2
      rw [h2]
      intro t ht
      rw [List.mem_singleton.1 ht]
      exact List.infix_rfl
    · rw [if_neg he] at h2
      rw [h2]
      exact ih _ _ _ _ h1
  | quiet x ih => intro a s r ts h; exact ih _ _ _ _ h
  | push x ih => intro a s r ts h; exact ih _ _ _ _ h
  | pop => intro a s r ts h; rw [h]; simp

/-- The same for the parts of a token. -/
theorem tok_infix {e : R} {ty : Ty} {x : Expr R} {a : Atom} {t : Tree R} (ha : emits ty a = true)
    (h : Tok sk K (.rule e ty x) a t) : ∀ u ∈ t.inner, u.asStr <:+: t.asStr := by
  obtain ⟨s, r, kids, rfl, h2⟩ := tok_rule ha h
  exact out_infix _ _ _ _ _ h2

end Verif.Peg
