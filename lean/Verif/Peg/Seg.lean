import Verif.Peg.Numbers
/-!
# Segments of lines

`Seg C x v u`: in front of any text satisfying `C` the expression `x` matches exactly `v`, which nothing is
skipped in front of.  `Pb x t r u`: a block (see `Verif.Peg.Block`) nothing is skipped in front of.
-/

namespace Verif.Peg
open Verif.Spec
variable {R : Type} {sk : St → Res R} {K : Str → Str → Prop} {pw : Char → Bool} {marks : List Str}

/-- A colon follows. -/
def Colon (r : Str) : Prop := ∃ t, r = ':' :: t

/-- See above. -/
def Seg (sk : St → Res R) (K : Str → Str → Prop) (C : Str → Prop) (x : Expr R) (v : Str) (u : List (Tree R)) : Prop :=
  ∀ r, C r → Out sk K x .nonAtomic v r u ∧ K [] (v ++ r)

/-- See above. -/
def Pb (sk : St → Res R) (K : Str → Str → Prop) (x : Expr R) (t r : Str) (u : List (Tree R)) : Prop :=
  Blk sk K x t r u ∧ K [] (t ++ r)

/-- A line starts here: no blank, comment or line end. -/
def LineStart (pw : Char → Bool) (marks : List Str) (r : Str) : Prop := Plain pw marks r ∧ HeadNot isNewlineChar r

variable {C : Str → Prop} {x y : Expr R} {v w t r t1 t2 f : Str} {u u1 u2 : List (Tree R)} {q : R}

theorem seg_rule (h : Seg sk K C x v u) : Seg sk K C (.rule q .normal x) v [.node q v u] := fun r hr =>
  ⟨out_rule_normal (h r hr).1, (h r hr).2⟩

theorem seg_alt_left (h : Seg sk K C x v u) : Seg sk K C (x ∥ y) v u := fun r hr =>
  ⟨Or.inl (h r hr).1, (h r hr).2⟩

theorem seg_alt_right (hf : ∀ r, C r → Fails sk x .nonAtomic (v ++ r)) (h : Seg sk K C y v u) :
    Seg sk K C (x ∥ y) v u := fun r hr => ⟨Or.inr ⟨(h r hr).1, hf r hr⟩, (h r hr).2⟩

theorem seg_mono {C' : Str → Prop} (h : Seg sk K C x v u) (hc : ∀ r, C' r → C r) : Seg sk K C' x v u :=
  fun r hr => h r (hc r hr)

/-- Two segments with a colon between them. -/
theorem seg_colon (hk : ∀ r, K [] (':' :: r)) (h1 : Seg sk K Colon x v u1) (h2 : Seg sk K C y w u2) :
    Seg sk K C (x ⬝ (.str c!":") ⬝ y) (v ++ ':' :: w) (u1 ++ u2) := fun r hr => by
  obtain ⟨o2, k2⟩ := h2 r hr
  obtain ⟨o1, k1⟩ := h1 (':' :: (w ++ r)) ⟨_, rfl⟩
  exact ⟨out_seq0 (hk _) o1 (out_key (w := c!":") k2 o2), by simpa using k1⟩

theorem pb_of_seg (h : Seg sk K C x v u) (hr : C r) (hk : K [] r) : Pb sk K x v r u :=
  ⟨blk_of_out (h r hr).1 hk, (h r hr).2⟩

theorem pb_seq (h1 : Pb sk K x t1 (t2 ++ r) u1) (h2 : Blk sk K y t2 r u2) :
    Pb sk K (x ⬝ y) (t1 ++ t2) r (u1 ++ u2) := ⟨blk_seq h1.1 h2, by simpa using h1.2⟩

/-- A literal and more. -/
theorem pb_key (hw : ∀ r, K [] (w ++ r)) (h : Pb sk K y t r u) : Pb sk K ((.str w) ⬝ y) (w ++ t) r u :=
  ⟨blk_key h.2 h.1, by simpa using hw (t ++ r)⟩

/-- A segment, a colon and more. -/
theorem pb_colon (hk : ∀ r, K [] (':' :: r)) (h1 : Seg sk K Colon x v u1) (h2 : Pb sk K y t r u2) :
    Pb sk K (x ⬝ (.str c!":") ⬝ y) (v ++ ':' :: t) r (u1 ++ u2) :=
  pb_seq (t2 := ':' :: t) (pb_of_seg h1 ⟨_, rfl⟩ (hk _)) (pb_key (w := c!":") hk h2).1

theorem pb_rule (h : Pb sk K x t r u) : ∃ s, Pb sk K (.rule q .normal x) t r [.node q s u] := by
  obtain ⟨s, hs⟩ := blk_rule (q := q) h.1
  exact ⟨s, hs, h.2⟩

theorem pb_alt_left (h : Pb sk K x t r u) : Pb sk K (x ∥ y) t r u := ⟨blk_alt_left h.1, h.2⟩

theorem pb_alt_right (hf : Fails sk x .nonAtomic (t ++ r)) (h : Pb sk K y t r u) : Pb sk K (x ∥ y) t r u :=
  ⟨blk_alt_right hf h.1, h.2⟩

/-- The end of a line and what follows. -/
theorem pb_NL (h : LineSkip sk K pw marks) (hf : IsBreak marks f) (hr : LineStart pw marks r) :
    Pb sk K Base.NL f r [] := ⟨blk_NL h hf hr.1 hr.2, h.nil (plain_lineEnd h.apart (break_lineEnd hf))⟩

/-- A line and its end. -/
theorem pb_line (h : LineSkip sk K pw marks) (hx : Pb sk K x t (f ++ r) u) (hf : IsBreak marks f)
    (hr : LineStart pw marks r) : Pb sk K (x ⬝ Base.NL) (t ++ f) r u := by
  have := pb_seq hx (pb_NL h hf hr).1
  rwa [List.append_nil] at this

/-- A line, its end and more. -/
theorem pb_line_then (h : LineSkip sk K pw marks) (hx : Pb sk K x t (f ++ (t2 ++ r)) u) (hf : IsBreak marks f)
    (hr : LineStart pw marks (t2 ++ r)) (hy : Blk sk K y t2 r u2) :
    Pb sk K (x ⬝ Base.NL ⬝ y) (t ++ (f ++ t2)) r (u ++ u2) :=
  pb_seq (by simpa using hx) (blk_seq (u1 := []) (pb_NL h hf hr).1 hy)

/-- The last segment of a line. -/
theorem pb_last (h : LineSkip sk K pw marks) (hx : Seg sk K AtLineEnd x v u) (hf : IsBreak marks f) :
    Pb sk K x v (f ++ r) u :=
  pb_of_seg hx (break_lineEnd hf) (h.nil (plain_lineEnd h.apart (break_lineEnd hf)))

/-- Consecutive elements. -/
theorem reps_of {A : Type} {txt : A → Str} {P : A → Str → Prop} {C : Str → Prop} : ∀ {l : List A} {r : Str},
    (∀ a ∈ l, ∀ r, C r → P a r ∧ C (txt a ++ r)) → C r → Reps txt P l r ∧ C (l.flatMap txt ++ r)
  | [], _, _, hr => ⟨trivial, hr⟩
  | a :: l, r, h, hr => by
    have ih := reps_of (fun b hb => h b (List.mem_cons_of_mem _ hb)) hr
    have := h a List.mem_cons_self _ ih.2
    exact ⟨⟨this.1, ih.1⟩, by simpa using this.2⟩

/-- `(":" ~ x)+` up to the end of the line. -/
theorem pb_colons (h : LineSkip sk K pw marks) (hk : ∀ r, K [] (':' :: r)) (hpx : plain x = true)
    {A : Type} {l : List A} {txt : A → Str} {tok : A → Tree R} (hl : l ≠ [])
    (h1 : ∀ a ∈ l, Seg sk K Colon x (txt a) [tok a]) (h2 : ∀ a, l.getLast? = some a → Seg sk K AtLineEnd x (txt a) [tok a])
    (hr : AtLineEnd r) :
    Pb sk K (.plus ((.str c!":") ⬝ x)) (l.flatMap fun a => ':' :: txt a) r (l.map tok) := by
  have kr := h.nil (plain_lineEnd h.apart hr)
  have key : ∀ l : List A, (∀ a ∈ l, Seg sk K Colon x (txt a) [tok a]) →
      (∀ a, l.getLast? = some a → Seg sk K AtLineEnd x (txt a) [tok a]) →
      Reps (fun a => ':' :: txt a) (fun a r => ∃ t, Blk sk K ((.str c!":") ⬝ x) (':' :: txt a) r [t] ∧ id t = tok a) l r := by
    intro l
    induction l with
    | nil => intros; trivial
    | cons a l ih =>
      intro h1 h2
      refine ⟨?_, ih (fun b hb => h1 b (List.mem_cons_of_mem _ hb)) (fun b hb => h2 b ?_)⟩
      · refine ⟨tok a, ?_, rfl⟩
        cases l with
        | nil => exact (pb_key (w := c!":") hk (pb_of_seg (h2 a rfl) (by simpa using hr) (by simpa using kr))).1
        | cons b l =>
          exact (pb_key (w := c!":") hk (pb_of_seg (h1 a List.mem_cons_self) ⟨_, by simp; rfl⟩ (by simpa using hk _))).1
      · cases l with
        | nil => cases hb
        | cons c l => simpa using hb
  have hf : Fails sk ((.str c!":") ⬝ x) .nonAtomic r := by
    refine fails_seq_left (fails_str.2 ?_)
    rintro ⟨t, rfl⟩
    have := headNot_cons.1 hr
    exact absurd this (by decide)
  have hu : Uniform (eval sk ((.str c!":") ⬝ x) .nonAtomic) := uniform_eval h.uniform _ (by simp [plain, hpx]) _
  obtain ⟨ts, b, e⟩ := blk_plus_read h.exact hu h.knil hl (key l h1 h2) hf
  simp only [List.map_id_fun, id] at e
  subst e
  refine ⟨b, ?_⟩
  cases l with
  | nil => exact absurd rfl hl
  | cons a l => exact hk _

end Verif.Peg
