import Verif.Peg.Seg
import Verif.Peg.NewLines
/-!
# What an expression matched, with the text skipped behind it

`Txt sk K x Q`: whatever `x` matches, not starting with skipped text, satisfies together with the text skipped behind it
`Q` in front of the text that follows.
-/

namespace Verif.Peg
open Verif.Spec

variable {R : Type} {sk : St → Res R} {K : Str → Str → Prop}

/-- See above. -/
def Txt (sk : St → Res R) (K : Str → Str → Prop) (x : Expr R) (Q : Str → Str → Prop) : Prop :=
  ∀ s m r ts, Out sk K x .nonAtomic s (m ++ r) ts → K m r → K [] (s ++ (m ++ r)) → Q (s ++ m) r

/-- Texts in a row, each with a property in front of the ones that follow. -/
def Row (Q : Str → Str → Prop) : List Str → Str → Prop
  | [], _ => True
  | t :: l, r => Q t (l.flatten ++ r) ∧ Row Q l r

/-- Where nothing is skipped, no text is skipped. -/
def KOne (K : Str → Str → Prop) : Prop := ∀ m r, K m r → K [] (m ++ r) → m = []

theorem Txt.mono {x : Expr R} {P Q : Str → Str → Prop} (h : Txt sk K x P) (hq : ∀ t r, P t r → Q t r) : Txt sk K x Q :=
  fun s m r ts ho hk h0 => hq _ _ (h s m r ts ho hk h0)

theorem Txt.rule {q : R} {x : Expr R} {Q : Str → Str → Prop} (h : Txt sk K x Q) : Txt sk K (.rule q .normal x) Q := by
  rintro s m r ts ⟨kids, ho, _⟩ hk h0
  exact h s m r kids ho hk h0

theorem Txt.seq (kn : KNil K) {x y : Expr R} {P Q : Str → Str → Prop} (hx : Txt sk K x P) (hy : Txt sk K y Q) :
    Txt sk K (x ⬝ y) fun t r => ∃ t1 t2, t = t1 ++ t2 ∧ P t1 (t2 ++ r) ∧ Q t2 r := by
  rintro s m r ts ⟨s1, m1, s2, t1, t2, rfl, hg, o1, o2, rfl⟩ hk h0
  have hg : K m1 (s2 ++ (m ++ r)) := hg
  refine ⟨s1 ++ m1, s2 ++ m, by simp, ?_, hy s2 m r _ o2 hk (kn _ _ hg)⟩
  have := hx s1 m1 (s2 ++ (m ++ r)) _ o1 hg (by simpa using h0)
  simpa using this

theorem Txt.str {w : Str} : Txt sk K (.str w) fun t r => ∃ m, t = w ++ m ∧ K m r := by
  rintro s m r ts ⟨rfl, rfl⟩ hk _
  exact ⟨m, rfl, hk⟩

theorem Txt.opt (k1 : KOne K) {x : Expr R} {Q : Str → Str → Prop} (hx : Txt sk K x Q) : Txt sk K (.opt x) fun t r => Q t r ∨ t = [] := by
  rintro s m r ts (ho | ⟨rfl, rfl, _⟩) hk h0
  · exact Or.inl (hx s m r ts ho hk h0)
  · exact Or.inr (by rw [k1 _ _ hk (by simpa using h0)]; rfl)

/-- A first element and further ones, with skipped text in between. -/
theorem txt_parts (kn : KNil K) {x y : Expr R} {P Q : Str → Str → Prop} (hx : Txt sk K x P) (hy : Txt sk K y Q) {m r : Str} (hk : K m r) :
    ∀ (parts : List ((Str × Str) × List (Tree R))) (s1 : Str) (t1 : List (Tree R)),
      Out sk K x .nonAtomic s1 (partsText parts ++ (m ++ r)) t1 → Parts sk K y parts (m ++ r) →
      K [] (s1 ++ (partsText parts ++ (m ++ r))) →
      ∃ t l, s1 ++ (partsText parts ++ m) = t ++ l.flatten ∧ P t (l.flatten ++ r) ∧ Row Q l r := by
  intro parts
  induction parts generalizing x P with
  | nil =>
    intro s1 t1 ho _ h0
    have := hx s1 m r t1 (by simpa [partsText] using ho) hk (by simpa [partsText] using h0)
    exact ⟨s1 ++ m, [], by simp [partsText], by simpa using this, trivial⟩
  | cons p ps ih =>
    intro s1 t1 ho hp h0
    obtain ⟨⟨g, o⟩, hp⟩ := hp
    have g : K p.1.1 (p.1.2 ++ (partsText ps ++ (m ++ r))) := g
    have h1 := hx s1 p.1.1 (p.1.2 ++ (partsText ps ++ (m ++ r))) t1 (by simpa [partsText] using ho) g
      (by simpa [partsText] using h0)
    obtain ⟨t, l, e, h3, h4⟩ := ih hy p.1.2 p.2 o hp (kn _ _ g)
    refine ⟨s1 ++ p.1.1, t :: l, by simp [partsText, ← e], ?_, h3, h4⟩
    have e2 : (t :: l).flatten ++ r = p.1.2 ++ (partsText ps ++ (m ++ r)) := by
      rw [List.flatten_cons, ← e]; simp
    rw [e2]
    exact h1

theorem Txt.star (kn : KNil K) (k1 : KOne K) {x : Expr R} {Q : Str → Str → Prop} (hx : Txt sk K x Q) :
    Txt sk K (.star x) fun t r => ∃ l : List Str, t = l.flatten ∧ Row Q l r := by
  rintro s m r ts ho hk h0
  rcases ho with ⟨rfl, rfl, _⟩ | ⟨s1, t1, parts, rfl, rfl, o1, hp, _⟩
  · exact ⟨[], by rw [k1 _ _ hk (by simpa using h0)]; rfl, trivial⟩
  · obtain ⟨t, l, e, h, h'⟩ := txt_parts kn hx hx hk parts s1 t1 o1 hp (by simpa using h0)
    exact ⟨t :: l, by simpa using e, h, h'⟩

theorem Txt.plus (kn : KNil K) (k1 : KOne K) {x : Expr R} {Q : Str → Str → Prop} (hx : Txt sk K x Q) :
    Txt sk K (.plus x) fun t r => ∃ l : List Str, l ≠ [] ∧ t = l.flatten ∧ Row Q l r := by
  refine Txt.mono (x := x ⬝ (.star x)) (Txt.seq kn hx (Txt.star kn k1 hx)) ?_
  rintro _ r ⟨t1, _, rfl, h1, l, rfl, h2⟩
  exact ⟨t1 :: l, by simp, rfl, h1, h2⟩

/-! ## Grammars that skip blanks and comments up to the end of the line -/

variable {pw : Char → Bool} {marks : List Str}

theorem LineSkip.one (h : LineSkip sk K pw marks) : KOne K := by
  intro m r hk h0
  obtain ⟨sp, cm, rfl, h1, h2⟩ := (h.iff _ _).1 hk
  have hp := h.plain h0
  cases sp with
  | cons c sp =>
    have := headNot_cons.1 hp.1
    rw [h1 c List.mem_cons_self] at this
    cases this
  | nil =>
    rcases h2 with ⟨rfl, _⟩ | ⟨⟨w, hw, body, rfl, _⟩, _⟩
    · rfl
    · exact absurd ⟨w, hw, by simp⟩ hp.2

/-- `NEWLINE+`: a break, and possibly a comment in front of the next line end or the end of the file. -/
theorem txt_newlines (h : LineSkip sk K isSpTab marks) :
    Txt sk K (.plus .newline) fun t r => ∃ brk cm, t = brk ++ cm ∧ IsBreak marks brk ∧ (cm = [] ∨ (CommentText marks cm ∧ AtLineEnd r)) := by
  have h1 : Txt sk K (.newline : Expr R) fun t r => ∃ nl m, t = nl ++ m ∧ (nl = ['\n'] ∨ nl = ['\r', '\n'] ∨ nl = ['\r']) ∧ K m r := by
    rintro s m r ts ho hk _
    refine ⟨s, m, rfl, ?_, hk⟩
    rcases (out_newline_iff.1 ho).1 with h | h | ⟨h, _⟩
    · exact Or.inl h
    · exact Or.inr (Or.inl h)
    · exact Or.inr (Or.inr h)
  refine Txt.mono (Txt.plus h.knil h.one h1) ?_
  rintro _ r ⟨l, hne, rfl, hl⟩
  -- what follows a line end
  have fill : ∀ {sp t : Str}, (∀ c ∈ sp, isSpTab c = true) → IsFiller marks t → IsFiller marks (sp ++ t) := by
    intro sp t hs ht
    induction sp with
    | nil => exact ht
    | cons c sp ih =>
      exact .blank c _ (blankChar_iff.1 (hs c List.mem_cons_self)) (ih fun d hd => hs d (List.mem_cons_of_mem _ hd))
  induction l with
  | nil => exact absurd rfl hne
  | cons t l ih =>
    obtain ⟨⟨nl, m, rfl, hn, hk⟩, hl⟩ := hl
    obtain ⟨sp, cm, rfl, h2, h3⟩ := (h.iff _ _).1 hk
    have key : ∃ f cm', (sp ++ cm) ++ l.flatten = f ++ cm' ∧ IsFiller marks f ∧ (cm' = [] ∨ (CommentText marks cm' ∧ AtLineEnd r)) := by
      cases l with
      | nil =>
        refine ⟨sp, cm, by simp, by simpa using fill h2 .nil, ?_⟩
        rcases h3 with ⟨rfl, _⟩ | h3
        · exact Or.inl rfl
        · exact Or.inr (by simpa using h3)
      | cons t' l =>
        obtain ⟨brk, cm', e, ⟨c, f, rfl, hc, hf⟩, h5⟩ := ih (by simp) hl
        rw [e]
        rcases h3 with ⟨rfl, _⟩ | ⟨⟨w, hw, body, rfl, hb⟩, _⟩
        · exact ⟨sp ++ c :: f, cm', by simp, fill h2 (.newline c f hc hf), h5⟩
        · exact ⟨sp ++ (w ++ (body ++ c :: f)), cm', by simp, fill h2 (.comment w body c f hw (fun d hd => not_newline_iff.1 (hb d hd)) hc hf), h5⟩
    obtain ⟨f, cm', e, hf, h5⟩ := key
    rcases hn with rfl | rfl | rfl
    · exact ⟨'\n' :: f, cm', by simp [← e], ⟨_, _, rfl, by decide, hf⟩, h5⟩
    · exact ⟨'\r' :: '\n' :: f, cm', by simp [← e], ⟨_, _, rfl, by decide, .newline _ _ (by decide) hf⟩, h5⟩
    · exact ⟨'\r' :: f, cm', by simp [← e], ⟨_, _, rfl, by decide, hf⟩, h5⟩

end Verif.Peg
