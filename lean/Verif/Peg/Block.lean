import Verif.Peg.Build
/-!
# Blocks

`Blk x t r ts`: the text `t` in front of `r` is what `x` matches, with tokens `ts`, followed by text the
implicit skip consumes.  Blocks can be put together without keeping track of the gaps.
-/

namespace Verif.Peg
variable {R : Type} {sk : St → Res R} {K : Str → Str → Prop}

/-- See above. -/
def Blk (sk : St → Res R) (K : Str → Str → Prop) (x : Expr R) (t r : Str) (ts : List (Tree R)) : Prop :=
  ∃ s m, t = s ++ m ∧ Out sk K x .nonAtomic s (m ++ r) ts ∧ K m r

theorem blk_of_out {x : Expr R} {s r : Str} {ts : List (Tree R)} (h : Out sk K x .nonAtomic s r ts) (hk : K [] r) :
    Blk sk K x s r ts := ⟨s, [], by simp, by simpa using h, hk⟩

theorem blk_gap {x : Expr R} {s m r : Str} {ts : List (Tree R)} (h : Out sk K x .nonAtomic s (m ++ r) ts) (hk : K m r) :
    Blk sk K x (s ++ m) r ts := ⟨s, m, rfl, h, hk⟩

theorem blk_seq {x y : Expr R} {t1 t2 r : Str} {u1 u2 : List (Tree R)} (h1 : Blk sk K x t1 (t2 ++ r) u1)
    (h2 : Blk sk K y t2 r u2) : Blk sk K (x ⬝ y) (t1 ++ t2) r (u1 ++ u2) := by
  obtain ⟨s1, m1, rfl, o1, k1⟩ := h1
  obtain ⟨s2, m2, rfl, o2, k2⟩ := h2
  exact ⟨s1 ++ m1 ++ s2, m2, by simp, ⟨s1, m1, s2, u1, u2, rfl, by simpa using k1, by simpa using o1, o2, rfl⟩, k2⟩

/-- A literal and more, without gap. -/
theorem blk_key {w : Str} {y : Expr R} {t r : Str} {u : List (Tree R)} (hk : K [] (t ++ r))
    (h : Blk sk K y t r u) : Blk sk K ((.str w) ⬝ y) (w ++ t) r u :=
  blk_seq (u1 := []) (blk_of_out out_str0 hk) h

theorem blk_rule {q : R} {x : Expr R} {t r : Str} {kids : List (Tree R)} (h : Blk sk K x t r kids) :
    ∃ s, Blk sk K (.rule q .normal x) t r [.node q s kids] := by
  obtain ⟨s, m, rfl, o, k⟩ := h
  exact ⟨s, s, m, rfl, out_rule_normal o, k⟩

theorem blk_alt_left {x y : Expr R} {t r : Str} {u : List (Tree R)} (h : Blk sk K x t r u) :
    Blk sk K (x ∥ y) t r u := by
  obtain ⟨s, m, e, o, k⟩ := h
  exact ⟨s, m, e, Or.inl o, k⟩

theorem blk_alt_right {x y : Expr R} {t r : Str} {u : List (Tree R)} (hf : Fails sk x .nonAtomic (t ++ r))
    (h : Blk sk K y t r u) : Blk sk K (x ∥ y) t r u := by
  obtain ⟨s, m, rfl, o, k⟩ := h
  exact ⟨s, m, rfl, Or.inr ⟨o, by simpa using hf⟩, k⟩

theorem blk_opt_some {x : Expr R} {t r : Str} {u : List (Tree R)} (h : Blk sk K x t r u) :
    Blk sk K (.opt x) t r u := by
  obtain ⟨s, m, e, o, k⟩ := h
  exact ⟨s, m, e, Or.inl o, k⟩

theorem blk_opt_none {x : Expr R} {r : Str} (hf : Fails sk x .nonAtomic r) (hk : K [] r) :
    Blk sk K (.opt x) [] r [] := ⟨[], [], rfl, Or.inr ⟨rfl, rfl, by simpa using hf⟩, hk⟩

/-- The second part of a sequence fails. -/
theorem fails_seq_right {x y : Expr R} {t r : Str} {u : List (Tree R)} (hus : Uniform sk) (hx : SkipExact K sk)
    (hp : plain x = true) (hw : wf x = true) (hu : Uniform (eval sk y .nonAtomic))
    (h : Blk sk K x t r u) (hf : Fails sk y .nonAtomic r) : Fails sk (x ⬝ y) .nonAtomic (t ++ r) := by
  obtain ⟨s, m, rfl, o, k⟩ := h
  refine ⟨0, [], ?_⟩
  have e1 := out_eval hus hx x hp hw _ _ _ _ (⟨0, s ++ m ++ r, []⟩ : St) o (by simp)
  have e2 := skipIf_exact (a := .nonAtomic) (m := m) (r := r) hx k (st := (⟨0, s ++ m ++ r, []⟩ : St).past s (m ++ r)) rfl
  simp only [eval, e1, Res.ok_bind, e2, hu.fail_of hf (((⟨0, s ++ m ++ r, []⟩ : St).past s (m ++ r)).past m r) rfl]
  rfl

/-- Consecutive blocks of `x` in front of `r`. -/
def Blks (sk : St → Res R) (K : Str → Str → Prop) (x : Expr R) : List (Str × List (Tree R)) → Str → Prop :=
  Reps (·.1) fun p r => Blk sk K x p.1 r p.2

theorem blks_parts {x : Expr R} {l : List (Str × List (Tree R))} {r : Str} (h : Blks sk K x l r) :
    l = [] ∨ ∃ s1 t1 parts fin, l.flatMap (·.1) = s1 ++ (partsText parts ++ fin) ∧
      Out sk K x .nonAtomic s1 (partsText parts ++ (fin ++ r)) t1 ∧ Parts sk K x parts (fin ++ r) ∧ K fin r ∧
      l.flatMap (·.2) = t1 ++ parts.flatMap (·.2) := by
  induction l with
  | nil => exact Or.inl rfl
  | cons p l ih =>
    obtain ⟨⟨s, m, e, o, k⟩, h2⟩ := h
    right
    rcases ih h2 with rfl | ⟨s1, t1, parts, fin, e1, o1, hp, hk, e2⟩
    · exact ⟨s, p.2, [], m, by simp [partsText, e], by simpa [partsText] using o, trivial, by simpa using k, by simp⟩
    · refine ⟨s, p.2, ((m, s1), t1) :: parts, fin, ?_, ?_, ⟨⟨?_, ?_⟩, hp⟩, hk, ?_⟩
      · simp [partsText, e, e1]
      · have : partsText (((m, s1), t1) :: parts) ++ (fin ++ r) = m ++ (l.flatMap (·.1) ++ r) := by
          simp [partsText, e1]
        rw [this]; exact o
      · show K m (s1 ++ (partsText parts ++ (fin ++ r)))
        rw [e1] at k; simpa using k
      · exact o1
      · simp [e2]

theorem blk_star {x : Expr R} (hx : SkipExact K sk) (hu : Uniform (eval sk x .nonAtomic))
    {l : List (Str × List (Tree R))} {r : Str} (h : Blks sk K x l r) (hf : Fails sk x .nonAtomic r) (hk : K [] r) :
    Blk sk K (.star x) (l.flatMap (·.1)) r (l.flatMap (·.2)) := by
  rcases blks_parts h with rfl | ⟨s1, t1, parts, fin, e1, o1, hp, hk, e2⟩
  · exact ⟨[], [], rfl, Or.inl ⟨rfl, rfl, by simpa using hf⟩, hk⟩
  · refine ⟨s1 ++ partsText parts, fin, by simp [e1], Or.inr ⟨s1, t1, parts, rfl, e2, o1, hp, 0, [], ?_⟩, hk⟩
    rw [skipIf_exact (a := .nonAtomic) (m := fin) (r := r) hx hk rfl, Res.ok_bind]
    exact hu.fail_of hf _ rfl

theorem blk_plus {x : Expr R} (hx : SkipExact K sk) (hu : Uniform (eval sk x .nonAtomic)) (hn : KNil K)
    {l : List (Str × List (Tree R))} {r : Str} (hl : l ≠ []) (h : Blks sk K x l r) (hf : Fails sk x .nonAtomic r) :
    Blk sk K (.plus x) (l.flatMap (·.1)) r (l.flatMap (·.2)) := by
  rcases blks_parts h with rfl | ⟨s1, t1, parts, fin, e1, o1, hp, hk, e2⟩
  · exact absurd rfl hl
  · obtain ⟨s, m, e, o, k⟩ := out_plus_build hx hu hn o1 hp hk hf
    exact ⟨s, m, by rw [e1, e], by rw [e2]; exact o, k⟩

/-- Blocks of one token each, read in a certain way. -/
theorem blks_read {A B : Type} {x : Expr R} {read : Tree R → B} {val : A → B} {txt : A → Str} {l : List A} {r : Str}
    (h : Reps txt (fun a r => ∃ t, Blk sk K x (txt a) r [t] ∧ read t = val a) l r) :
    ∃ bs : List (Str × List (Tree R)), Blks sk K x bs r ∧ bs.map (·.1) = l.map txt ∧
      (bs.flatMap (·.2)).map read = l.map val := by
  induction l with
  | nil => exact ⟨[], trivial, rfl, rfl⟩
  | cons a l ih =>
    obtain ⟨⟨t, hb, hv⟩, h2⟩ := h
    obtain ⟨bs, h1, h3, h4⟩ := ih h2
    refine ⟨(txt a, [t]) :: bs, ⟨?_, h1⟩, by simp [h3], by simp [hv, h4]⟩
    have : bs.flatMap (·.1) = l.flatMap txt := by rw [List.flatMap_def, h3, List.flatMap_def]
    rw [this]; exact hb

theorem blk_star_read {A B : Type} {x : Expr R} (hx : SkipExact K sk) (hu : Uniform (eval sk x .nonAtomic))
    {read : Tree R → B} {val : A → B} {txt : A → Str} {l : List A} {r : Str}
    (h : Reps txt (fun a r => ∃ t, Blk sk K x (txt a) r [t] ∧ read t = val a) l r)
    (hf : Fails sk x .nonAtomic r) (hk : K [] r) :
    ∃ ts, Blk sk K (.star x) (l.flatMap txt) r ts ∧ ts.map read = l.map val := by
  obtain ⟨bs, h1, h2, h3⟩ := blks_read h
  refine ⟨_, ?_, h3⟩
  have := blk_star hx hu h1 hf hk
  rwa [List.flatMap_def (f := fun p : Str × List (Tree R) => p.1), h2, ← List.flatMap_def] at this

theorem blk_plus_read {A B : Type} {x : Expr R} (hx : SkipExact K sk) (hu : Uniform (eval sk x .nonAtomic)) (hn : KNil K)
    {read : Tree R → B} {val : A → B} {txt : A → Str} {l : List A} {r : Str} (hl : l ≠ [])
    (h : Reps txt (fun a r => ∃ t, Blk sk K x (txt a) r [t] ∧ read t = val a) l r)
    (hf : Fails sk x .nonAtomic r) :
    ∃ ts, Blk sk K (.plus x) (l.flatMap txt) r ts ∧ ts.map read = l.map val := by
  obtain ⟨bs, h1, h2, h3⟩ := blks_read h
  refine ⟨_, ?_, h3⟩
  have hb : bs ≠ [] := by rintro rfl; cases l <;> simp_all
  have := blk_plus hx hu hn hb h1 hf
  rwa [List.flatMap_def (f := fun p : Str × List (Tree R) => p.1), h2, ← List.flatMap_def] at this

/-- Reading the tokens one after the other depends on the single readings only. -/
theorem mapM_of_map {A B C : Type} {f : A → Run C} {g : B → Run C} : ∀ {l : List A} {l' : List B},
    l.map f = l'.map g → l.mapM f = l'.mapM g
  | [], [], _ => rfl
  | a :: l, b :: l', h => by
    simp only [List.map_cons, List.cons.injEq] at h
    rw [List.mapM_cons, List.mapM_cons, h.1, mapM_of_map h.2]

end Verif.Peg
