import Verif.Peg.Block
import Verif.Peg.Solid
import Verif.Spec.Filler
import Verif.Grammar.Base
/-!
# Line ends

The rule `NL` of the grammars that skip blanks and comments, and texts that extend to the end of the line.
-/

namespace Verif.Peg
open Verif.Spec
variable {R : Type} {sk : St → Res R} {K : Str → Str → Prop}

/-- The implicit skip consumes blanks `pw` and then possibly a comment starting with one of `marks`. -/
structure LineSkip (sk : St → Res R) (K : Str → Str → Prop) (pw : Char → Bool) (marks : List Str) : Prop where
  ok : SkipOK K sk
  exact : SkipExact K sk
  uniform : Uniform sk
  iff : ∀ m r, K m r ↔ BlankText pw marks m r
  apart : Apart pw marks
  blank : ∀ c, isSpTab c = true → pw c = true

/-- Nothing is skipped here. -/
def Plain (pw : Char → Bool) (marks : List Str) (r : Str) : Prop := HeadNot pw r ∧ ¬ CommentStart marks r

variable {pw : Char → Bool} {marks : List Str}

theorem plain_lineEnd (ha : Apart pw marks) {r : Str} (h : AtLineEnd r) : Plain pw marks r := atLineEnd_not ha h

theorem LineSkip.nil (h : LineSkip sk K pw marks) {r : Str} (hr : Plain pw marks r) : K [] r :=
  (h.iff _ _).2 ⟨[], [], rfl, by simp, Or.inl ⟨rfl, hr⟩⟩

theorem LineSkip.spaces (h : LineSkip sk K pw marks) {m r : Str} (hm : ∀ c ∈ m, pw c = true) (hr : Plain pw marks r) :
    K m r := (h.iff _ _).2 ⟨m, [], by simp, hm, Or.inl ⟨rfl, hr⟩⟩

theorem LineSkip.plain (h : LineSkip sk K pw marks) {m r : Str} (hk : K m r) : Plain pw marks r := by
  obtain ⟨sp, cm, _, _, h1 | h1⟩ := (h.iff _ _).1 hk
  · exact h1.2
  · exact atLineEnd_not h.apart h1.2

theorem LineSkip.knil (h : LineSkip sk K pw marks) : KNil K := fun _ _ hk => h.nil (h.plain hk)

theorem newline_iff {c : Char} : isNewlineChar c = true ↔ IsNewline c := by simp [isNewlineChar, IsNewline]

theorem not_newline_iff {c : Char} : isNewlineChar c = false ↔ ¬ IsNewline c := by simp [isNewlineChar, IsNewline]

theorem blankChar_iff {c : Char} : isSpTab c = true ↔ IsBlankChar c := by simp [isSpTab, IsBlankChar]

theorem atLineEnd_cons {c : Char} {t : Str} (h : IsNewline c) : AtLineEnd (c :: t) :=
  headNot_cons.2 (by simp [newline_iff.2 h])

theorem break_lineEnd {f r : Str} (h : IsBreak marks f) : AtLineEnd (f ++ r) := by
  obtain ⟨c, t, rfl, hc, _⟩ := h
  exact atLineEnd_cons hc

/-- The first line of a filler. -/
theorem filler_first {f : Str} (h : IsFiller marks f) : (∀ c ∈ f, isSpTab c = true) ∨
    ∃ sp cm c t, f = (sp ++ cm) ++ c :: t ∧ (∀ d ∈ sp, isSpTab d = true) ∧ (cm = [] ∨ CommentText marks cm) ∧
      IsNewline c ∧ IsFiller marks t := by
  induction h with
  | nil => left; simp
  | blank c t hc _ ih =>
    rcases ih with ih | ⟨sp, cm, d, u, rfl, h1, h2, h3, h4⟩
    · left
      intro d hd
      rcases List.mem_cons.1 hd with rfl | hd
      · exact blankChar_iff.2 hc
      · exact ih d hd
    · right
      refine ⟨c :: sp, cm, d, u, by simp, ?_, h2, h3, h4⟩
      intro d hd
      rcases List.mem_cons.1 hd with rfl | hd
      · exact blankChar_iff.2 hc
      · exact h1 d hd
  | newline c t hc ht _ => exact Or.inr ⟨[], [], c, t, rfl, by simp, Or.inl rfl, hc, ht⟩
  | comment w body c t hw hb hc ht _ =>
    exact Or.inr ⟨[], w ++ body, c, t, by simp, by simp, Or.inr ⟨w, hw, body, rfl, fun d hd => not_newline_iff.2 (hb d hd)⟩, hc, ht⟩

/-- A filler starting with a line feed. -/
theorem filler_tail (ha : Apart pw marks) {t : Str} (h : IsFiller marks ('\n' :: t)) : IsFiller marks t := by
  generalize hs : '\n' :: t = s at h
  cases h with
  | nil => cases hs
  | blank c u hc hu =>
    cases hs
    rcases hc with hc | hc <;> exact absurd hc (by decide)
  | newline c u hc hu => cases hs; exact hu
  | comment w body c u hw hb hc hu =>
    obtain ⟨d, v, rfl, _, hd⟩ := ha.2 w hw
    cases hs
    exact absurd hd (by decide)

/-- One line end of `NL`. -/
abbrev nlOne : Expr R := (.star ((.str c!" ") ∥ (.str ['\t']))) ⬝ .newline

theorem out_nlOne (h : LineSkip sk K pw marks) {nl r : Str} (hl : LineEnd nl r) : Out sk K nlOne .nonAtomic nl r [] := by
  have he : AtLineEnd (nl ++ r) := by
    rcases hl with rfl | rfl | ⟨rfl, _⟩ <;> exact headNot_cons.2 (by decide)
  refine ⟨[], [], nl, [], [], by simp, h.nil (plain_lineEnd h.apart he), Or.inl ⟨rfl, rfl, ?_⟩, out_newline_iff.2 ⟨hl, rfl⟩, rfl⟩
  refine ((likeCls_spTab (sk := sk) (K := K) .nonAtomic h.uniform).fails _).2 ?_
  exact (atLineEnd_not apart_spTab he).1

theorem fails_nlOne (h : LineSkip sk K pw marks) {r : Str} (hp : Plain pw marks r) (hn : HeadNot isNewlineChar r) :
    Fails sk nlOne .nonAtomic r := by
  refine fails_of_not_out h.ok (by rfl) ?_
  rintro s r' ts rfl ⟨s1, m, s2, t1, t2, rfl, hg, h1, h2, _⟩
  have hg : K m (s2 ++ r') := hg
  have hl := (out_newline_iff.1 h2).1
  have e1 : s1 = [] := by
    rcases h1 with ⟨e, _⟩ | ⟨p1, u1, parts, rfl, _, o1, _⟩
    · exact e
    · exfalso
      obtain ⟨c, rfl, hc, _⟩ := ((likeCls_spTab (sk := sk) (K := K) .nonAtomic h.uniform).out _ _ _).1 o1
      have := headNot_cons.1 (show HeadNot pw (c :: _) by simpa using hp.1)
      rw [h.blank c hc] at this
      cases this
  subst e1
  have e2 : m = [] := by
    obtain ⟨sp, cm, rfl, h3, h4⟩ := (h.iff _ _).1 hg
    cases sp with
    | cons c sp =>
      have := headNot_cons.1 (show HeadNot pw (c :: _) by simpa using hp.1)
      rw [h3 c List.mem_cons_self] at this
      cases this
    | nil =>
      rcases h4 with ⟨rfl, _⟩ | ⟨⟨w, hw, body, rfl, _⟩, _⟩
      · rfl
      · exact absurd ⟨w, hw, by simp⟩ hp.2
  subst e2
  have : HeadNot isNewlineChar (s2 ++ r') := by simpa using hn
  rcases hl with rfl | rfl | ⟨rfl, _⟩ <;> exact absurd (headNot_cons.1 this) (by decide)

/-- The lines of a filler, followed by `cm`, which is skipped. -/
theorem filler_parts {x : Expr R} (h : LineSkip sk K pw marks)
    (hx : ∀ nl r, LineEnd nl r → Out sk K x .nonAtomic nl r []) {cm r : Str}
    (hp : ∀ sp, (∀ c ∈ sp, pw c = true) → K (sp ++ cm) r) (hr : HeadNot isNewlineChar (cm ++ r)) : ∀ (n : Nat) (f : Str), f.length ≤ n →
    IsFiller marks f → ∃ (parts : List ((Str × Str) × List (Tree R))) (fin : Str),
      f ++ cm = partsText parts ++ fin ∧ Parts sk K x parts (fin ++ r) ∧ K fin r ∧ parts.flatMap (·.2) = [] := by
  intro n
  induction n with
  | zero =>
    intro f hn _
    have : f = [] := by simpa using hn
    subst this
    exact ⟨[], cm, rfl, trivial, hp [] (by simp), rfl⟩
  | succ n ih =>
    intro f hn hf
    rcases filler_first hf with hs | ⟨sp, cm', c, t, rfl, h1, h2, hc, ht⟩
    · exact ⟨[], f ++ cm, rfl, trivial, hp f (fun c hc => h.blank c (hs c hc)), rfl⟩
    · -- the first line end
      have key : ∃ nl u, c :: t = nl ++ u ∧ LineEnd nl (u ++ (cm ++ r)) ∧ IsFiller marks u ∧ u.length ≤ t.length := by
        rcases hc with rfl | rfl
        · exact ⟨['\n'], t, rfl, Or.inl rfl, ht, Nat.le_refl _⟩
        · cases t with
          | nil =>
            refine ⟨['\r'], [], rfl, Or.inr (Or.inr ⟨rfl, ?_⟩), ht, Nat.le_refl _⟩
            intro e
            exact absurd (hr _ (by simpa using e)) (by decide)
          | cons d t =>
            by_cases hd : d = '\n'
            · subst hd
              exact ⟨['\r', '\n'], t, rfl, Or.inr (Or.inl rfl), filler_tail h.apart ht, by simp⟩
            · exact ⟨['\r'], d :: t, rfl, Or.inr (Or.inr ⟨rfl, by simpa using hd⟩), ht, Nat.le_refl _⟩
      obtain ⟨nl, u, e, hl, hu, hlen⟩ := key
      have hlt : u.length ≤ n := by
        simp only [List.length_append, List.length_cons] at hn
        omega
      obtain ⟨parts, fin, e2, p1, p2, p3⟩ := ih u hlt hu
      refine ⟨((sp ++ cm', nl), []) :: parts, fin, ?_, ⟨⟨?_, ?_⟩, p1⟩, p2, by simpa using p3⟩
      · rw [e]; simp [partsText, e2]
      · show K (sp ++ cm') (nl ++ _)
        have he : AtLineEnd (nl ++ (partsText parts ++ (fin ++ r))) := by
          rcases hl with rfl | rfl | ⟨rfl, _⟩ <;> exact headNot_cons.2 (by decide)
        refine (h.iff _ _).2 ⟨sp, cm', rfl, fun c hc => h.blank c (h1 c hc), ?_⟩
        rcases h2 with rfl | h2
        · exact Or.inl ⟨rfl, atLineEnd_not h.apart he⟩
        · exact Or.inr ⟨h2, he⟩
      · refine hx _ _ ?_
        have : u ++ (cm ++ r) = partsText parts ++ (fin ++ r) := by rw [← List.append_assoc, e2, List.append_assoc]
        rwa [this] at hl

/-- One or more line ends with everything up to the next line. -/
theorem blk_breaks {x : Expr R} (h : LineSkip sk K pw marks) (hx : ∀ nl r, LineEnd nl r → Out sk K x .nonAtomic nl r [])
    (hpl : plain x = true) {f cm r : Str} (hf : IsBreak marks f) (hp : ∀ sp, (∀ c ∈ sp, pw c = true) → K (sp ++ cm) r)
    (hr : HeadNot isNewlineChar (cm ++ r)) (hfail : Fails sk x .nonAtomic r) : Blk sk K (.plus x) (f ++ cm) r [] := by
  obtain ⟨c, t, rfl, hc, ht⟩ := hf
  obtain ⟨parts, fin, e, p1, p2, p3⟩ := filler_parts h hx hp hr _ (c :: t) (Nat.le_refl _) (.newline c t hc ht)
  have hu : Uniform (eval sk x .nonAtomic) := uniform_eval h.uniform _ hpl _
  cases parts with
  | nil =>
    exfalso
    simp only [partsText, List.flatMap_nil, List.nil_append] at e
    rw [← e] at p2
    obtain ⟨sp, cm', e', h3, h4⟩ := (h.iff _ _).1 p2
    cases sp with
    | cons d sp =>
      obtain ⟨rfl, _⟩ := List.cons.inj e'
      have := h.apart.1 c (newline_iff.2 hc)
      rw [h3 c List.mem_cons_self] at this
      cases this
    | nil =>
      rcases h4 with ⟨rfl, _⟩ | ⟨⟨w, hw, body, rfl, _⟩, _⟩
      · cases e'
      · obtain ⟨d, v, rfl, _, hd⟩ := h.apart.2 w hw
        obtain ⟨rfl, _⟩ := List.cons.inj e'
        rw [newline_iff.2 hc] at hd
        cases hd
  | cons p ps =>
    obtain ⟨⟨q1, q2⟩, q3⟩ := p1
    have hp1 : p.1.1 = [] := by
      have q1 : K p.1.1 _ := q1
      obtain ⟨sp, cm', e', h3, h4⟩ := (h.iff _ _).1 q1
      simp only [partsText, List.flatMap_cons] at e
      rw [e'] at e ⊢
      cases sp with
      | cons d sp =>
        obtain ⟨rfl, _⟩ := List.cons.inj e
        have := h.apart.1 c (newline_iff.2 hc)
        rw [h3 c List.mem_cons_self] at this
        cases this
      | nil =>
        rcases h4 with ⟨rfl, _⟩ | ⟨⟨w, hw, body, rfl, _⟩, _⟩
        · rfl
        · obtain ⟨d, v, rfl, _, hd⟩ := h.apart.2 w hw
          obtain ⟨rfl, _⟩ := List.cons.inj e
          rw [newline_iff.2 hc] at hd
          cases hd
    obtain ⟨s, m, e1, o, k⟩ := out_plus_build h.exact hu h.knil (s1 := p.1.2) (t1 := p.2) (parts := ps) q2 q3 p2
      hfail
    refine ⟨s, m, ?_, ?_, k⟩
    · rw [← e1, e]; simp [partsText, hp1]
    · have : p.2 ++ ps.flatMap (·.2) = [] := p3
      rw [this] at o
      exact o

/-- `NL` matches a line end with everything up to the next line. -/
theorem blk_NL (h : LineSkip sk K pw marks) {f r : Str} (hf : IsBreak marks f) (hp : Plain pw marks r)
    (hr : HeadNot isNewlineChar r) : Blk sk K Base.NL f r [] := by
  have := blk_breaks (cm := []) h (fun _ _ hl => out_nlOne h hl) rfl hf
    (fun sp hs => by simpa using h.spaces hs hp) hr (fails_nlOne h hp hr)
  rwa [List.append_nil] at this

/-- `NEWLINE+` matches a line end with everything up to the next line. -/
theorem blk_newlines (h : LineSkip sk K pw marks) {f r : Str} (hf : IsBreak marks f) (hp : Plain pw marks r)
    (hr : HeadNot isNewlineChar r) : Blk sk K (.plus .newline) f r [] := by
  have := blk_breaks (cm := []) h (fun _ _ hl => out_newline_iff.2 ⟨hl, rfl⟩) rfl hf
    (fun sp hs => by simpa using h.spaces hs hp) hr (fails_newline.2 hr)
  simpa using this

/-- `NEWLINE+` at the end of a file, in front of a comment. -/
theorem blk_newlines_end (h : LineSkip sk K pw marks) {f cm : Str} (hf : IsBreak marks f)
    (hc : cm = [] ∨ CommentText marks cm) : Blk sk K (.plus .newline) (f ++ cm) [] [] := by
  refine blk_breaks h (fun _ _ hl => out_newline_iff.2 ⟨hl, rfl⟩) rfl hf (fun sp hs => ?_) ?_ (fails_newline.2 (headNot_nil _))
  · refine (h.iff _ _).2 ⟨sp, cm, rfl, hs, ?_⟩
    rcases hc with rfl | hc
    · exact Or.inl ⟨rfl, plain_lineEnd h.apart (headNot_nil _)⟩
    · exact Or.inr ⟨hc, headNot_nil _⟩
  · rcases hc with rfl | ⟨w, hw, body, rfl, _⟩
    · exact headNot_nil _
    · obtain ⟨d, v, rfl, _, hd⟩ := h.apart.2 w hw
      exact headNot_cons.2 hd

/-! ## Texts up to the end of the line -/

/-- `NL` inside a token fails where no line end follows the blanks. -/
theorem fails_NL (h : LineSkip sk K pw marks) {t : Str}
    (ht : ∀ sp rest, t = sp ++ rest → (∀ c ∈ sp, isSpTab c = true) → HeadNot isNewlineChar rest) :
    Fails sk Base.NL .atomic t := by
  refine fails_plus (fails_of_not_out h.ok (by rfl) ?_)
  intro s r' ts e ho
  obtain ⟨s1, s2, t1, t2, rfl, rfl, h1, h2⟩ := (out_seq_atomic (by decide)).1 ho
  have hl := (out_newline_iff.1 h2).1
  have hs := ((likeCls_spTab (sk := sk) (K := K) .atomic h.uniform).star (by decide)).1 h1
  have := ht s1 (s2 ++ r') (by simp [e]) hs.1
  rcases hl with rfl | rfl | ⟨rfl, _⟩ <;> exact absurd (headNot_cons.1 this) (by decide)

theorem nl_ok (h : LineSkip sk K pw marks) {c : Char} {t : Str} (hc : isNewlineChar c = true) :
    ∃ pos stk st ts, eval sk (Base.NL : Expr R) .atomic ⟨pos, c :: t, stk⟩ = .ok st ts := by
  have h1 : ∃ st ts, eval sk (nlOne : Expr R) .atomic ⟨0, c :: t, []⟩ = .ok st ts := by
    cases he : eval sk (nlOne : Expr R) .atomic ⟨0, c :: t, []⟩ with
    | ok st ts => exact ⟨st, ts, rfl⟩
    | diverge => exact absurd he (eval_ne_diverge h.ok _ (by rfl) _ _)
    | fail =>
      exfalso
      have hf : Fails sk ((.str c!" ") ∥ (.str ['\t'])) .atomic (c :: t) := by
        refine ((likeCls_spTab (sk := sk) (K := K) .atomic h.uniform).fails _).2 (headNot_cons.2 ?_)
        rcases newline_iff.1 hc with rfl | rfl <;> decide
      have hf := (uniform_eval h.uniform ((.str c!" ") ∥ (.str ['\t'])) rfl .atomic).fail_of hf ⟨0, c :: t, []⟩ rfl
      obtain ⟨st, ts, hn⟩ := eval_newline_ok (sk := sk) (a := .atomic) c t 0 [] hc
      simp only [eval] at he hf
      simp only [hf, Res.ok_bind, skipIf] at he
      rw [hn] at he
      simp at he
  obtain ⟨st, ts, h2⟩ := plus_ok h.ok (x := nlOne) (a := .atomic) (by rfl) h1
  exact ⟨0, [], st, ts, h2⟩

/-- What `NL` matches starts with a line end behind blanks. -/
theorem out_NL_head (h : LineSkip sk K pw marks) {a : Atom} (ha : a ≠ .nonAtomic) {s r : Str} {ts : List (Tree R)}
    (ho : Out sk K Base.NL a s r ts) : ∃ sp c t, s = sp ++ c :: t ∧ (∀ d ∈ sp, isSpTab d = true) ∧ isNewlineChar c = true := by
  obtain ⟨s1, s2, t1, t2, rfl, rfl, h1, _⟩ := (out_seq_atomic ha).1 ho
  obtain ⟨s3, s4, t3, t4, rfl, rfl, h3, h4⟩ := (out_seq_atomic ha).1 h1
  have hs := ((likeCls_spTab (sk := sk) (K := K) a h.uniform).star ha).1 h3
  rcases (out_newline_iff.1 h4).1 with rfl | rfl | ⟨rfl, _⟩
  · exact ⟨s3, '\n', s2, by simp, hs.1, by decide⟩
  · exact ⟨s3, '\r', '\n' :: s2, by simp, hs.1, by decide⟩
  · exact ⟨s3, '\r', s2, by simp, hs.1, by decide⟩

/-- `NL` matches at a line end behind blanks. -/
theorem nl_ok_blanks (h : LineSkip sk K pw marks) {a : Atom} (ha : a ≠ .nonAtomic) {sp t : Str} {c : Char}
    (hs : ∀ d ∈ sp, isSpTab d = true) (hc : isNewlineChar c = true) :
    ∃ st ts, eval sk (Base.NL : Expr R) a ⟨0, sp ++ c :: t, []⟩ = .ok st ts := by
  refine plus_ok h.ok (x := nlOne) (a := a) (by rfl) ?_
  have o1 : ∀ nl r, LineEnd nl r → Out sk K (nlOne : Expr R) a (sp ++ nl) r [] := fun nl r hl => by
    refine (out_seq_atomic ha).2 ⟨sp, nl, [], [], rfl, rfl, ?_, out_newline_iff.2 ⟨hl, rfl⟩⟩
    refine ((likeCls_spTab (sk := sk) (K := K) a h.uniform).star ha).2 ⟨hs, ?_, rfl⟩
    rcases hl with rfl | rfl | ⟨rfl, _⟩ <;> exact headNot_cons.2 (by decide)
  have key : ∀ nl r, LineEnd nl r → c :: t = nl ++ r → ∃ st ts, eval sk (nlOne : Expr R) a ⟨0, sp ++ c :: t, []⟩ = .ok st ts := fun nl r hl e =>
    ⟨_, _, out_eval h.uniform h.exact nlOne (by rfl) (by rfl) a _ _ _ ⟨0, sp ++ c :: t, []⟩ (o1 nl r hl) (by simp [e])⟩
  rcases newline_iff.1 hc with rfl | rfl
  · exact key ['\n'] t (Or.inl rfl) rfl
  · by_cases ht : t.head? = some '\n'
    · cases t with
      | nil => cases ht
      | cons d t => cases ht; exact key ['\r', '\n'] t (Or.inr (Or.inl rfl)) rfl
    · exact key ['\r'] t (Or.inr (Or.inr ⟨rfl, ht⟩)) rfl

/-- The blanks in front of a text without line end in its way. -/
theorem no_lineEnd {v r : Str} (hv : ∀ c ∈ v, isNewlineChar c = false)
    (hr : (∃ c ∈ v, isSpTab c = false) ∨ ∃ c t, r = c :: t ∧ isSpTab c = false ∧ isNewlineChar c = false) :
    ∀ sp rest, v ++ r = sp ++ rest → (∀ c ∈ sp, isSpTab c = true) → HeadNot isNewlineChar rest := by
  intro sp rest e hs
  rcases List.append_eq_append_iff.1 e with ⟨a, rfl, rfl⟩ | ⟨a, rfl, rfl⟩
  · rcases hr with ⟨c, hc, h⟩ | ⟨c, t, e2, h1, h2⟩
    · rw [hs c (by simp [hc])] at h; cases h
    · cases a with
      | nil =>
        rw [List.nil_append] at e2
        rw [e2]
        exact headNot_cons.2 h2
      | cons d a =>
        cases e2
        rw [hs c (by simp)] at h1; cases h1
  · cases a with
    | nil =>
      rw [List.nil_append]
      rcases hr with ⟨c, hc, h⟩ | ⟨c, t, rfl, h1, h2⟩
      · rw [hs c (by simpa using hc)] at h; cases h
      · exact headNot_cons.2 h2
    | cons d a => exact headNot_cons.2 (hv d (by simp))

/-- `(!(NL | ":") ~ ANY)*` in front of a colon. -/
theorem out_colonText (h : LineSkip sk K pw marks) {v r : Str}
    (hv : ∀ c ∈ v, c ≠ ':' ∧ isNewlineChar c = false) :
    Out sk K Base.colon_delimited_text .atomic v (':' :: r) [] := by
  refine out_until_text (by decide) (fun p c q e => ?_) ?_
  · refine (fails_alt_iff (uniform_eval h.uniform Base.NL rfl _)).2 ⟨fails_NL h ?_, fails_str.2 ?_⟩
    · have := no_lineEnd (v := c :: q) (r := ':' :: r) (fun d hd => (hv d (by simp [e, List.mem_cons.1 hd])).2)
        (Or.inr ⟨':', r, rfl, by decide, by decide⟩)
      simpa using this
    · simp only [List.cons_prefix_cons, List.nil_prefix, and_true]
      exact fun e' => (hv c (by simp [e])).1 e'.symm
  · exact fails_until_ok (alt_ok_right h.ok (by rfl) (str_ok (w := c!":") (r := r)))

/-- `(!(NL | ":") ~ ANY)*` at the end of a line. -/
theorem out_colonText_last (h : LineSkip sk K pw marks) {v r : Str}
    (hv : ∀ c ∈ v, c ≠ ':' ∧ isNewlineChar c = false) (hl : ∀ c, v.getLast? = some c → isSpTab c = false)
    (hr : AtLineEnd r) : Out sk K Base.colon_delimited_text .atomic v r [] := by
  refine out_until_text (by decide) (fun p c q e => ?_) ?_
  · refine (fails_alt_iff (uniform_eval h.uniform Base.NL rfl _)).2 ⟨fails_NL h ?_, fails_str.2 ?_⟩
    · have := no_lineEnd (v := c :: q) (r := r) (fun d hd => (hv d (by simp [e, List.mem_cons.1 hd])).2)
        (Or.inl ⟨(c :: q).getLast (by simp), List.getLast_mem _, hl _ (by
          rw [e, List.getLast?_append, List.getLast?_eq_some_getLast (by simp : c :: q ≠ [])]; rfl)⟩)
      simpa using this
    · simp only [List.cons_prefix_cons, List.nil_prefix, and_true]
      exact fun e' => (hv c (by simp [e])).1 e'.symm
  · cases r with
    | nil => exact fails_until_nil h.ok (by rfl) (by decide)
    | cons c t =>
      obtain ⟨pos, stk, st, ts, h1⟩ := nl_ok h (t := t) (c := c) (by simpa using headNot_cons.1 hr)
      refine fails_until_ok ⟨pos, stk, st, ts, ?_⟩
      simp only [eval, h1]

end Verif.Peg
