import Verif.Peg.NewLines
/-!
# Building number tokens
-/

namespace Verif.Peg
variable {R : Type} {sk : St → Res R} {K : Str → Str → Prop}

/-- No further digit and no decimal point follows. -/
def NumEnd (r : Str) : Prop := HeadNot (fun c => isAsciiDigit c || c == '.') r

theorem NumEnd.digit {r : Str} (h : NumEnd r) : HeadNot isAsciiDigit r := fun c hc => by
  have := h c hc
  simp only [Bool.or_eq_false_iff] at this
  exact this.1

theorem NumEnd.dot {r : Str} (h : NumEnd r) : r.head? ≠ some '.' := fun hc => by
  have := h _ hc
  simp at this

theorem numEnd_lineEnd {r : Str} (h : AtLineEnd r) : NumEnd r := by
  intro c hc
  have := h c hc
  simp only [Bool.not_eq_false'] at this
  rcases newline_iff.1 this with rfl | rfl <;> decide

theorem numEnd_colon {r : Str} : NumEnd (':' :: r) := headNot_cons.2 (by decide)

/-- An optional sign. -/
theorem out_sign_build (hu : Uniform sk) {a : Atom} {sg r : Str} (hsg : IsSign sg)
    (hr : r.head? ≠ some '-' ∧ r.head? ≠ some '+') :
    Out sk K (.opt ((.str c!"-") ∥ (.str c!"+"))) a sg r [] := by
  rcases hsg with rfl | rfl | rfl
  · refine Or.inr ⟨rfl, rfl, (fails_alt_iff (uniform_eval hu _ rfl _)).2 ⟨fails_str.2 ?_, fails_str.2 ?_⟩⟩
    · rintro ⟨t, rfl⟩; exact hr.1 rfl
    · rintro ⟨t, rfl⟩; exact hr.2 rfl
  · exact Or.inl (Or.inl ⟨rfl, rfl⟩)
  · refine Or.inl (Or.inr ⟨⟨rfl, rfl⟩, fails_str.2 ?_⟩)
    simp

theorem digits_no_sign {s r : Str} (h : IsDigits s) : (s ++ r).head? ≠ some '-' ∧ (s ++ r).head? ≠ some '+' := by
  obtain ⟨c, t, e, hc⟩ := digits_head (r := r) h
  rw [e]
  constructor <;> (rintro e'; cases e'; exact absurd hc (by decide))

theorem out_integer_build (hu : Uniform sk) {a : Atom} (ha : a ≠ .nonAtomic) {s r : Str} (h : IsInteger s)
    (hr : HeadNot isAsciiDigit r) : Out sk K Base.integer a s r [] := by
  obtain ⟨sg, ds, rfl, h1, h2⟩ := h
  exact (out_seq_atomic ha).2 ⟨sg, ds, [], [], rfl, rfl, out_sign_build hu h1 (digits_no_sign h2),
    out_digits_build ha h2 hr⟩

theorem out_decimal_build (hs : SkipOK K sk) (hu : Uniform sk) {a : Atom} (ha : a ≠ .nonAtomic) {s r : Str}
    (h : IsDecimal s) (hr : NumEnd r) : Out sk K Base.decimal a s r [] := by
  obtain ⟨sg, ds, fs, rfl, h1, h2, h3⟩ := h
  have hd : ∀ x, HeadNot isAsciiDigit x → Out sk K (.star (.cls isAsciiDigit)) a ds x [] := fun x hx =>
    ((likeCls_cls isAsciiDigit a).star ha).2 ⟨h2, hx, rfl⟩
  refine (out_seq_atomic ha).2 ⟨sg, ds ++ fs, [], [], by simp, rfl, out_sign_build hu h1 ?_, ?_⟩
  · cases ds with
    | cons c t =>
      have := digits_no_sign (r := fs ++ r) (s := c :: t) ⟨by simp, h2⟩
      simpa using this
    | nil =>
      rcases h3 with ⟨_, h⟩ | ⟨d, rfl, _⟩
      · exact absurd rfl h
      · simp
  · rcases h3 with ⟨rfl, h⟩ | ⟨d, rfl, h⟩
    · rw [List.append_nil]
      refine Or.inr ⟨out_digits_build ha ⟨h, h2⟩ hr.digit, ?_⟩
      refine fails_of_not_out hs (by rfl) ?_
      intro u r' ts e ho
      obtain ⟨s1, s2, t1, t2, rfl, rfl, o1, o2⟩ := (out_seq_atomic ha).1 ho
      obtain ⟨s3, s4, t3, t4, rfl, rfl, ⟨rfl, rfl⟩, o4⟩ := (out_seq_atomic ha).1 o2
      have hs1 := (((likeCls_cls isAsciiDigit a).star ha).1 o1).1
      have e : ds ++ r = s1 ++ '.' :: (s4 ++ r') := by simpa using e
      rcases List.append_eq_append_iff.1 e with ⟨x, rfl, hx⟩ | ⟨x, rfl, hx⟩
      · cases x with
        | nil => exact hr.dot (by rw [hx]; rfl)
        | cons c x =>
          have := hr.digit c (by rw [hx]; rfl)
          rw [hs1 c (by simp)] at this
          cases this
      · cases x with
        | nil => exact hr.dot (by simp only [List.nil_append] at hx; rw [← hx]; rfl)
        | cons c x =>
          have hc : '.' = c := by
            have := congrArg List.head? hx
            simpa using this
          have := h2 c (by simp)
          rw [← hc] at this
          exact absurd this (by decide)
    · refine Or.inl ((out_seq_atomic ha).2 ⟨ds, '.' :: d, [], [], rfl, rfl, hd _ (headNot_cons.2 (by decide)), ?_⟩)
      exact (out_seq_atomic ha).2 ⟨['.'], d, [], [], rfl, rfl, out_str0, out_digits_build ha h hr.digit⟩

theorem out_hemi_build (hu : Uniform sk) {a : Atom} {c : Char} {r : Str} (h : c ∈ c!"NSWEnswe") :
    Out sk K Base.hemi a [c] r [] := by
  have hc := fun (d : Char) => likeCls_char (sk := sk) (K := K) (R := R) d a
  have : LikeCls sk K (Base.hemi : Expr R) a _ :=
    (hc 'N').alt ((hc 'S').alt ((hc 'W').alt ((hc 'E').alt ((hc 'n').alt ((hc 's').alt ((hc 'w').alt (hc 'e')
      (uniform_eval hu _ rfl _)) (uniform_eval hu _ rfl _)) (uniform_eval hu _ rfl _)) (uniform_eval hu _ rfl _))
      (uniform_eval hu _ rfl _)) (uniform_eval hu _ rfl _)) (uniform_eval hu _ rfl _)
  refine (this.out _ _ _).2 ⟨c, rfl, ?_, rfl⟩
  simpa using h

end Verif.Peg
