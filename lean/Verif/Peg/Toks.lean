import Verif.Peg.Seg
import Verif.Peg.Safe
import Verif.Spec.Spaced
/-!
# Which token sequences an expression matches

For grammars whose implicit skip consumes blanks only.  `Toks x Q`: whatever `x` matches is a sequence of tokens
satisfying `Q`, with blanks behind each.
-/

namespace Verif.Peg
open Verif.Spec
variable {R : Type} {sk : St → Res R} {K : Str → Str → Prop}

theorem spaced_append {l1 l2 : List Str} {s1 s2 : Str} (h1 : Spaced l1 s1) (h2 : Spaced l2 s2) : Spaced (l1 ++ l2) (s1 ++ s2) := by
  induction h1 with
  | nil => exact h2
  | cons t b ts rest hb _ ih => simpa using Spaced.cons t b _ _ hb ih

theorem spaced_split {l1 l2 : List Str} {s : Str} (h : Spaced (l1 ++ l2) s) : ∃ s1 s2, s = s1 ++ s2 ∧ Spaced l1 s1 ∧ Spaced l2 s2 := by
  induction l1 generalizing s with
  | nil => exact ⟨[], s, rfl, .nil, h⟩
  | cons t l1 ih =>
    cases h with
    | cons _ b _ rest hb h =>
      obtain ⟨s1, s2, rfl, h1, h2⟩ := ih h
      exact ⟨t ++ (b ++ s1), s2, by simp, .cons t b _ _ hb h1, h2⟩

theorem spaced_cons {t : Str} {l : List Str} {s : Str} (h : Spaced (t :: l) s) :
    ∃ b rest, s = t ++ (b ++ rest) ∧ (∀ c ∈ b, isSpTab c = true) ∧ Spaced l rest := by
  cases h with
  | cons _ b _ rest hb h => exact ⟨b, rest, rfl, fun c hc => blankChar_iff.2 (hb c hc), h⟩

theorem spaced_nil {s : Str} (h : Spaced [] s) : s = [] := by cases h; rfl

theorem spaced_flatMap {A : Type} {f : A → List Str} : ∀ {l : List A} {s : Str}, Spaced (l.flatMap f) s →
    ∃ l' : List (A × Str), l'.map (·.1) = l ∧ s = l'.flatMap (·.2) ∧ ∀ e ∈ l', Spaced (f e.1) e.2
  | [], s, h => ⟨[], rfl, spaced_nil h, by simp⟩
  | a :: l, s, h => by
    rw [List.flatMap_cons] at h
    obtain ⟨s1, s2, rfl, h1, h2⟩ := spaced_split h
    obtain ⟨l', rfl, rfl, h3⟩ := spaced_flatMap h2
    refine ⟨(a, s1) :: l', rfl, rfl, ?_⟩
    intro e he
    rcases List.mem_cons.1 he with rfl | he
    · exact h1
    · exact h3 e he

/-- Tokens without blanks between them. -/
theorem spaced_flatten : ∀ l : List Str, Spaced l l.flatten
  | [] => .nil
  | t :: l => by simpa using Spaced.cons t [] l _ (by simp) (spaced_flatten l)

/-- See above. -/
def Toks (sk : St → Res R) (K : Str → Str → Prop) (x : Expr R) (Q : List Str → Prop) : Prop :=
  ∀ s m r ts, Out sk K x .nonAtomic s (m ++ r) ts → K m r → K [] (s ++ (m ++ r)) → ∃ l, Q l ∧ Spaced l (s ++ m)

section
variable (h : LineSkip sk K isSpTab [])
include h

theorem LineSkip.isBlank {m r : Str} (hk : K m r) : ∀ c ∈ m, isSpTab c = true := by
  obtain ⟨sp, cm, rfl, h1, ⟨rfl, _⟩ | ⟨⟨w, hw, _⟩, _⟩⟩ := (h.iff _ _).1 hk
  · simpa using h1
  · cases hw

theorem LineSkip.noGap {m r : Str} (hk : K m r) (h0 : K [] (m ++ r)) : m = [] := by
  cases m with
  | nil => rfl
  | cons c m =>
    have h1 := h.isBlank hk c List.mem_cons_self
    have h2 := headNot_cons.1 (h.plain h0).1
    rw [h1] at h2
    cases h2

theorem spaced_one {s m r : Str} (hk : K m r) : Spaced [s] (s ++ m) := by
  have := Spaced.cons s m [] [] (fun c hc => blankChar_iff.1 (h.isBlank hk c hc)) .nil
  simpa using this

theorem toks_seq {x y : Expr R} {P Q : List Str → Prop} (hx : Toks sk K x P) (hy : Toks sk K y Q) :
    Toks sk K (x ⬝ y) fun l => ∃ l1 l2, l = l1 ++ l2 ∧ P l1 ∧ Q l2 := by
  rintro s m r ts ⟨s1, m1, s2, t1, t2, rfl, hg, o1, o2, rfl⟩ hk h0
  have hg : K m1 (s2 ++ (m ++ r)) := hg
  obtain ⟨l1, p1, q1⟩ := hx s1 m1 _ _ o1 hg (by simpa using h0)
  obtain ⟨l2, p2, q2⟩ := hy s2 m r _ o2 hk (h.knil _ _ hg)
  exact ⟨l1 ++ l2, ⟨l1, l2, rfl, p1, p2⟩, by simpa using spaced_append q1 q2⟩

theorem toks_str {w : Str} : Toks sk K (.str w : Expr R) fun l => l = [w] := by
  rintro s m r ts ⟨rfl, rfl⟩ hk _
  exact ⟨_, rfl, spaced_one h hk⟩

/-- A single token. -/
theorem toks_one {x : Expr R} {P : Str → Prop} (hx : ∀ s r ts, Out sk K x .nonAtomic s r ts → P s) :
    Toks sk K x fun l => ∃ v, l = [v] ∧ P v := fun s _ _ ts ho hk _ => ⟨[s], ⟨s, rfl, hx s _ ts ho⟩, spaced_one h hk⟩

omit h in
theorem toks_rule {x : Expr R} {q : R} {P : List Str → Prop} (hx : Toks sk K x P) : Toks sk K (.rule q .normal x) P := by
  rintro s m r ts ⟨kids, ho, _⟩ hk h0
  exact hx s m r kids ho hk h0

omit h in
theorem toks_mono {x : Expr R} {P Q : List Str → Prop} (hx : Toks sk K x P) (hq : ∀ l, P l → Q l) : Toks sk K x Q := by
  intro s m r ts ho hk h0
  obtain ⟨l, h1, h2⟩ := hx s m r ts ho hk h0
  exact ⟨l, hq l h1, h2⟩

/-- A part that may be missing. -/
theorem toks_opt {x : Expr R} {P : Str → Prop} (hx : Toks sk K x fun l => ∃ v, l = [v] ∧ P v) :
    Toks sk K (.opt x) fun l => ∃ v, l = [v] ∧ (v = [] ∨ P v) := by
  rintro s m r ts (ho | ⟨rfl, rfl, _⟩) hk h0
  · obtain ⟨l, ⟨v, h1, h2⟩, h3⟩ := hx s m r ts ho hk h0
    exact ⟨l, ⟨v, h1, Or.inr h2⟩, h3⟩
  · exact ⟨[[]], ⟨[], rfl, Or.inl rfl⟩, spaced_one h hk⟩

theorem toks_parts {x : Expr R} {P : List Str → Prop} (hx : Toks sk K x P) {m r : Str} (hk : K m r) :
    ∀ (parts : List ((Str × Str) × List (Tree R))) (s1 : Str) (t1 : List (Tree R)),
      Out sk K x .nonAtomic s1 (partsText parts ++ (m ++ r)) t1 → Parts sk K x parts (m ++ r) →
      K [] (s1 ++ (partsText parts ++ (m ++ r))) →
      ∃ ls : List (List Str), ls ≠ [] ∧ (∀ l ∈ ls, P l) ∧ Spaced ls.flatten (s1 ++ (partsText parts ++ m))
  | [], s1, t1, ho, _, h0 => by
    obtain ⟨l, h1, h2⟩ := hx s1 m r t1 (by simpa [partsText] using ho) hk (by simpa [partsText] using h0)
    exact ⟨[l], by simp, by simpa using h1, by simpa [partsText] using h2⟩
  | p :: ps, s1, t1, ho, hp, h0 => by
    obtain ⟨⟨g, o⟩, hp⟩ := hp
    have g : K p.1.1 (p.1.2 ++ (partsText ps ++ (m ++ r))) := g
    obtain ⟨l, h1, h2⟩ := hx s1 p.1.1 (p.1.2 ++ (partsText ps ++ (m ++ r))) t1 (by simpa [partsText] using ho) g
      (by simpa [partsText] using h0)
    obtain ⟨ls, _, h4, h5⟩ := toks_parts hx hk ps p.1.2 p.2 o hp (h.knil _ _ g)
    refine ⟨l :: ls, by simp, ?_, ?_⟩
    · intro l' hl'
      rcases List.mem_cons.1 hl' with rfl | hl'
      · exact h1
      · exact h4 l' hl'
    · have := spaced_append h2 h5
      simpa [partsText] using this

theorem toks_star {x : Expr R} {P : List Str → Prop} (hx : Toks sk K x P) :
    Toks sk K (.star x) fun l => ∃ ls : List (List Str), l = ls.flatten ∧ ∀ l ∈ ls, P l := by
  rintro s m r ts ho hk h0
  rcases ho with ⟨rfl, rfl, _⟩ | ⟨s1, t1, parts, rfl, rfl, o1, hp, _⟩
  · refine ⟨[], ⟨[], rfl, by simp⟩, ?_⟩
    rw [h.noGap hk (by simpa using h0)]
    exact .nil
  · obtain ⟨ls, _, h2, h3⟩ := toks_parts h hx hk parts s1 t1 o1 hp (by simpa using h0)
    exact ⟨_, ⟨ls, rfl, h2⟩, by simpa using h3⟩

theorem toks_plus {x : Expr R} {P : List Str → Prop} (hx : Toks sk K x P) :
    Toks sk K (.plus x) fun l => ∃ ls : List (List Str), l = ls.flatten ∧ ls ≠ [] ∧ ∀ l ∈ ls, P l := by
  refine toks_mono (x := x ⬝ (.star x)) (toks_seq h hx (toks_star h hx)) ?_
  rintro _ ⟨l1, _, rfl, h1, ls, rfl, h2⟩
  refine ⟨l1 :: ls, rfl, by simp, ?_⟩
  intro l hl
  rcases List.mem_cons.1 hl with rfl | hl
  · exact h1
  · exact h2 l hl

/-! ## Line ends -/

omit h in
theorem filler_append {marks : List Str} {f g : Str} (hf : IsFiller marks f) (hg : IsFiller marks g) : IsFiller marks (f ++ g) := by
  induction hf with
  | nil => exact hg
  | blank c t hc _ ih => exact .blank c _ hc ih
  | newline c t hc _ ih => exact .newline c _ hc ih
  | comment w b c t hw hb hc _ ih => simpa using IsFiller.comment w b c _ hw hb hc ih

omit h in
theorem filler_blanks {marks : List Str} : ∀ {b : Str}, (∀ c ∈ b, isSpTab c = true) → IsFiller marks b
  | [], _ => .nil
  | c :: b, hb => .blank c b (blankChar_iff.1 (hb c List.mem_cons_self)) (filler_blanks fun d hd => hb d (List.mem_cons_of_mem _ hd))

omit h in
theorem filler_lineEnd {marks : List Str} {nl r : Str} (hl : LineEnd nl r) : IsFiller marks nl := by
  rcases hl with rfl | rfl | ⟨rfl, _⟩
  · exact .newline _ _ (Or.inl rfl) .nil
  · exact .newline _ _ (Or.inr rfl) (.newline _ _ (Or.inl rfl) .nil)
  · exact .newline _ _ (Or.inr rfl) .nil

theorem filler_nlOne {s r : Str} {ts : List (Tree R)} (ho : Out sk K (nlOne : Expr R) .nonAtomic s r ts) :
    IsFiller [] s ∧ s ≠ [] := by
  obtain ⟨s1, m, s2, t1, t2, rfl, hg, h1, h2, _⟩ := ho
  have hg : K m (s2 ++ r) := hg
  have hl := (out_newline_iff.1 h2).1
  have hs : ∀ c ∈ s1, isSpTab c = true := by
    refine out_star_ind h1 (fun s _ => ∀ c ∈ s, isSpTab c = true) (by simp) ?_
    intro m s ts s' ts' hm ho hq
    obtain ⟨c, rfl, hc, _⟩ := ((likeCls_spTab (sk := sk) (K := K) .nonAtomic h.uniform).out _ _ _).1 ho
    have hm : ∀ d ∈ m, isSpTab d = true := by
      rcases hm with rfl | hm
      · simp
      · exact h.isBlank (show K m _ from hm)
    intro d hd
    simp only [List.append_assoc, List.mem_append, List.mem_singleton] at hd
    rcases hd with hd | rfl | hd
    · exact hm d hd
    · exact hc
    · exact hq d hd
  refine ⟨filler_append (filler_append (filler_blanks hs) (filler_blanks (h.isBlank hg))) (filler_lineEnd hl), ?_⟩
  rcases hl with rfl | rfl | ⟨rfl, _⟩ <;> simp

theorem filler_NL {s r : Str} {ts : List (Tree R)} (ho : Out sk K (Base.NL : Expr R) .nonAtomic s r ts) :
    IsFiller [] s ∧ s ≠ [] := by
  obtain ⟨s1, t1, m, s2, t2, rfl, rfl, h1, hg, h2⟩ := out_plus_ind ho (fun s _ => IsFiller [] s) .nil (by
    intro m s ts s' ts' hg ho hq
    refine filler_append (filler_append ?_ (filler_nlOne h ho).1) hq
    rcases hg with rfl | hg
    · exact .nil
    · exact filler_blanks (h.isBlank (show K m _ from hg)))
  have h3 := filler_nlOne h h1
  exact ⟨filler_append (filler_append h3.1 (filler_blanks (h.isBlank (show K m _ from hg)))) h2, by simp [h3.2]⟩

omit h in
theorem break_of_filler {s r : Str} (hs : IsFiller [] s) (hne : s ≠ []) (hp : HeadNot isSpTab (s ++ r)) : IsBreak [] s := by
  cases hs with
  | nil => exact absurd rfl hne
  | blank c t hc _ =>
    have := headNot_cons.1 hp
    rw [blankChar_iff.2 hc] at this
    cases this
  | newline c t hc ht => exact ⟨c, t, rfl, hc, ht⟩
  | comment w b c t hw => cases hw

theorem toks_NL : Toks sk K (Base.NL : Expr R) fun l => ∃ f, l = [f] ∧ IsBreak [] f := by
  intro s m r ts ho hk h0
  obtain ⟨h1, h2⟩ := filler_NL h ho
  exact ⟨[s], ⟨s, rfl, break_of_filler h1 h2 (h.plain h0).1⟩, spaced_one h hk⟩

/-! ## Fields in front of a colon -/

theorem out_det {x : Expr R} (hp : plain x = true) (hw : wf x = true) {a : Atom} {s r s' r' : Str} {ts ts' : List (Tree R)}
    (h1 : Out sk K x a s r ts) (h2 : Out sk K x a s' r' ts') (e : s ++ r = s' ++ r') : s = s' ∧ r = r' := by
  have e1 := out_eval h.uniform h.exact x hp hw _ _ _ _ (⟨0, s ++ r, []⟩ : St) h1 rfl
  have e2 := out_eval h.uniform h.exact x hp hw _ _ _ _ (⟨0, s ++ r, []⟩ : St) h2 e
  rw [e1] at e2
  have : r = r' := congrArg (fun q : Res R => match q with | .ok st _ => st.rest | _ => []) e2
  subst this
  exact ⟨List.append_cancel_right e, rfl⟩

theorem colonText_chars {s r : Str} {ts : List (Tree R)} (ho : Out sk K (Base.colon_delimited_text : Expr R) .atomic s r ts) :
    ∀ c ∈ s, c ≠ ':' ∧ isNewlineChar c = false := by
  intro c hc
  refine ⟨?_, oneLine_until h rfl s r ts ho c hc⟩
  have := out_until_not (p := fun c => c == ':') (by decide) (fun c r pos stk hc he => ?_) ho c hc
  · simpa using this
  · have e : c = ':' := by simpa using hc
    subst e
    have hf := (fails_alt_iff (uniform_eval h.uniform Base.NL rfl _)).1 ⟨pos, stk, he⟩
    exact (fails_str.1 hf.2) ⟨r, rfl⟩

/-- A text up to a colon, and the colon. -/
theorem toks_field {q : R} {y : Expr R} {P : List Str → Prop} (hy : Toks sk K y P) :
    Toks sk K ((.rule q .atomic Base.colon_delimited_text) ⬝ (.str c!":") ⬝ y) fun l => ∃ v l', l = (v ++ c!":") :: l' ∧
      (∀ c ∈ v, c ≠ ':' ∧ isNewlineChar c = false) ∧ (∀ c, v.head? = some c → isSpTab c = false) ∧ P l' := by
  rintro s m r ts ⟨s1, m1, s2, t1, t2, rfl, hg, ⟨kids, o1, _⟩, ⟨s3, m3, s4, t3, t4, rfl, hg3, ⟨rfl, rfl⟩, o4, rfl⟩, rfl⟩ hk h0
  have hg : K m1 (c!":" ++ m3 ++ s4 ++ (m ++ r)) := hg
  have hg3 : K m3 (s4 ++ (m ++ r)) := hg3
  have o1 : Out sk K (Base.colon_delimited_text : Expr R) .atomic s1 (m1 ++ (c!":" ++ m3 ++ s4 ++ (m ++ r))) kids := o1
  have c1 := colonText_chars h o1
  have hb := h.isBlank hg
  have em : m1 = [] := by
    have o2 := out_colonText (R := R) (v := s1 ++ m1) (r := m3 ++ (s4 ++ (m ++ r))) h (fun c hc => by
      rcases List.mem_append.1 hc with hc | hc
      · exact c1 c hc
      · rcases blankChar_iff.1 (hb c hc) with rfl | rfl <;> decide)
    have := (out_det h rfl rfl o1 o2 (by simp)).1
    simpa using this
  subst em
  obtain ⟨l, h1, h2⟩ := hy s4 m r _ o4 hk (h.knil _ _ hg3)
  refine ⟨(s1 ++ c!":") :: l, ⟨s1, l, rfl, c1, ?_, h1⟩, ?_⟩
  · intro c hc
    cases s1 with
    | nil => cases hc
    | cons d s1 =>
      cases hc
      exact headNot_cons.1 (h.plain h0).1
  · have := Spaced.cons (s1 ++ c!":") m3 l _ (fun c hc => blankChar_iff.1 (h.isBlank hg3 c hc)) h2
    simpa using this

end

end Verif.Peg
