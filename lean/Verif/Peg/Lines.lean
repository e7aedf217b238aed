import Verif.Peg.Blank
/-!
# Building parses of files that consist of lines
-/

namespace Verif.Peg
variable {R : Type} {sk : St → Res R} {K : Str → Str → Prop}

/-- The text of a list of parts: gap and matched text of each. -/
abbrev partsText (parts : List ((Str × Str) × List (Tree R))) : Str :=
  parts.flatMap fun p => p.1.1 ++ p.1.2

/-- Consecutive parts that `x` matches, each after a gap. -/
abbrev Parts (sk : St → Res R) (K : Str → Str → Prop) (x : Expr R)
    (parts : List ((Str × Str) × List (Tree R))) (r : Str) : Prop :=
  Reps (fun p => p.1.1 ++ p.1.2)
    (fun p r => Gap K .nonAtomic p.1.1 (p.1.2 ++ r) ∧ Out sk K x .nonAtomic p.1.2 r p.2) parts r

/-- A gap may be taken as already skipped. -/
def KNil (K : Str → Str → Prop) : Prop := ∀ m r, K m r → K [] r

theorem out_star_build {x : Expr R} (hx : SkipExact K sk) (hu : Uniform (eval sk x .nonAtomic))
    (hn : KNil K) {parts : List ((Str × Str) × List (Tree R))} {m fin r : Str} (hm : K m (partsText parts ++ (fin ++ r)))
    (hp : Parts sk K x parts (fin ++ r)) (hk : K fin r) (hf : Fails sk x .nonAtomic r) :
    ∃ m1 s m2, m ++ (partsText parts ++ fin) = m1 ++ (s ++ m2) ∧ K m1 (s ++ (m2 ++ r)) ∧ K m2 r ∧
      Out sk K (.star x) .nonAtomic s (m2 ++ r) (parts.flatMap (·.2)) := by
  cases parts with
  | nil =>
    have hfe : ∀ {m : Str}, K m (fin ++ r) → fin = [] ∨ m = [] := by
      intro m h
      by_cases e : fin = []
      · exact Or.inl e
      · exfalso
        have h1 := hx m (fin ++ r) ⟨0, m ++ (fin ++ r), []⟩ h rfl
        have h2 := hx fin r ⟨0, fin ++ r, []⟩ hk rfl
        have h3 := hx [] (fin ++ r) ⟨0, fin ++ r, []⟩ (hn _ _ h) rfl
        rw [h3] at h2
        have := congrArg (fun q : Res R => match q with | .ok st _ => st.rest.length | _ => 0) h2
        simp [St.past] at this
        exact e this
    rcases hfe (by simpa [partsText] using hm) with rfl | rfl
    · refine ⟨m, [], [], by simp [partsText], by simpa [partsText] using hm, hk, Or.inl ⟨rfl, rfl, by simpa using hf⟩⟩
    · by_cases e : fin = []
      · subst e
        exact ⟨[], [], [], rfl, by simpa using hk, hk, Or.inl ⟨rfl, rfl, by simpa using hf⟩⟩
      · refine ⟨fin, [], [], by simp [partsText], by simpa using hk, hn _ _ hk, Or.inl ⟨rfl, rfl, by simpa using hf⟩⟩
  | cons p ps =>
    obtain ⟨⟨h2, h3⟩, h4⟩ := hp
    have hmp : m = [] ∨ p.1.1 = [] := by
      by_cases e : p.1.1 = []
      · exact Or.inr e
      · exfalso
        have h5 : K p.1.1 (p.1.2 ++ (partsText ps ++ (fin ++ r))) := h2
        have h6 := hx _ _ ⟨0, p.1.1 ++ (p.1.2 ++ (partsText ps ++ (fin ++ r))), []⟩ h5 rfl
        have h7 := hx _ _ ⟨0, p.1.1 ++ (p.1.2 ++ (partsText ps ++ (fin ++ r))), []⟩
          (hn _ _ hm) (by simp [partsText])
        rw [h6] at h7
        have := congrArg (fun q : Res R => match q with | .ok st _ => st.rest.length | _ => 0) h7
        simp [St.past, partsText] at this
        exact e this
    have h5 : K p.1.1 (p.1.2 ++ (partsText ps ++ (fin ++ r))) := h2
    have hmm : K (m ++ p.1.1) (p.1.2 ++ (partsText ps ++ (fin ++ r))) := by
      rcases hmp with rfl | e
      · simpa using h5
      · rw [e, List.append_nil]
        simpa [partsText, e] using hm
    refine ⟨m ++ p.1.1, p.1.2 ++ partsText ps, fin, by simp [partsText], ?_, hk, ?_⟩
    · simpa using hmm
    · refine Or.inr ⟨p.1.2, p.2, ps, rfl, by simp, h3, h4, 0, [], ?_⟩
      rw [skipIf_exact (a := .nonAtomic) (m := fin) (r := r) hx hk rfl, Res.ok_bind]
      exact hu.fail_of hf _ rfl

theorem out_plus_build {x : Expr R} (hx : SkipExact K sk) (hu : Uniform (eval sk x .nonAtomic))
    (hn : KNil K) {s1 fin r : Str} {t1 : List (Tree R)} {parts : List ((Str × Str) × List (Tree R))}
    (h1 : Out sk K x .nonAtomic s1 (partsText parts ++ (fin ++ r)) t1)
    (hp : Parts sk K x parts (fin ++ r)) (hf : K fin r) (hfail : Fails sk x .nonAtomic r) :
    ∃ s m, s1 ++ (partsText parts ++ fin) = s ++ m ∧
      Out sk K (.plus x) .nonAtomic s (m ++ r) (t1 ++ parts.flatMap (·.2)) ∧ K m r := by
  cases parts with
  | nil =>
    exact ⟨s1 ++ fin, [], by simp, ⟨s1, fin, [], t1, [], by simp, by simpa using hf,
      by simpa using h1, Or.inl ⟨rfl, rfl, hfail⟩, rfl⟩, hn _ _ hf⟩
  | cons p ps =>
    obtain ⟨⟨h2, h3⟩, h4⟩ := hp
    refine ⟨s1 ++ p.1.1 ++ (p.1.2 ++ partsText ps), fin,
      by simp, ⟨s1, p.1.1, _, t1, _, rfl, ?_, ?_,
        Or.inr ⟨p.1.2, p.2, ps, rfl, rfl, h3, h4, 0, [], ?_⟩, by simp⟩, hf⟩
    · simpa using h2
    · simpa using h1
    · rw [skipIf_exact (a := .nonAtomic) (m := fin) (r := r) hx hf rfl, Res.ok_bind]
      exact hu.fail_of hfail _ rfl

/-- Lines without data, each with its line end, in front of `r`. -/
def BlankLines (K : Str → Str → Prop) : List (Str × Str) → Str → Prop :=
  Reps (fun p => p.1 ++ p.2) (fun p r => K p.1 (p.2 ++ r) ∧ LineEnd p.2 r)

/-- `NEWLINE+` after a line end takes all following lines without data. -/
theorem out_newlines_build (hu : Uniform sk) (hx : SkipExact K sk) (hn : KNil K)
    {nl b r : Str} {bs : List (Str × Str)} (hb : BlankLines K bs (b ++ r)) (hk : K b r)
    (hr : HeadNot isNewlineChar r) (hl : LineEnd nl (bs.flatMap (fun p => p.1 ++ p.2) ++ (b ++ r))) :
    ∃ s m, nl ++ (bs.flatMap (fun p => p.1 ++ p.2) ++ (b ++ r)) = s ++ (m ++ r) ∧
      Out sk K (.plus .newline) .nonAtomic s (m ++ r) [] ∧ K m r := by
  obtain ⟨s, m, e, h1, h2⟩ := out_plus_build (x := .newline) hx (uniform_eval hu _ rfl _) hn
    (s1 := nl) (fin := b) (r := r) (t1 := []) (parts := bs.map fun q => ((q.1, q.2), []))
    (out_newline_iff.2 ⟨by simpa [partsText, List.flatMap_map] using hl, rfl⟩)
    (reps_map (txt' := fun p : Str × Str => p.1 ++ p.2)
      (P := fun p r => K p.1 (p.2 ++ r) ∧ LineEnd p.2 r) _ (fun _ => rfl)
      (fun q r' h => ⟨h.1, out_newline_iff.2 ⟨h.2, rfl⟩⟩) hb)
    hk (fails_newline.2 hr)
  have ht : (bs.map fun q => (((q.1, q.2), []) : (Str × Str) × List (Tree R))).flatMap (·.2) = [] := by
    simp [List.flatMap_eq_nil_iff]
  rw [ht] at h1
  refine ⟨s, m, ?_, h1, h2⟩
  have : nl ++ (bs.flatMap (fun p => p.1 ++ p.2) ++ (b ++ r)) =
      (nl ++ (partsText (R := R) (bs.map fun q => ((q.1, q.2), [])) ++ b)) ++ r := by
    simp [partsText, List.flatMap_map]
  rw [this, e]; simp

end Verif.Peg
