import Verif.Peg.Numbers
import Verif.Spec.Icao
/-!
# Tables with tabs

The rule `NL` and the texts of the grammars whose implicit skip need not know tabs.
-/

namespace Verif.Peg
open Verif.Spec
variable {R : Type} {sk : St → Res R} {K : Str → Str → Prop}

/-- The implicit skip consumes blanks, possibly tabs, and then possibly a comment. -/
structure TabSkip (sk : St → Res R) (K : Str → Str → Prop) (pw : Char → Bool) (marks : List Str) : Prop where
  ok : SkipOK K sk
  exact : SkipExact K sk
  uniform : Uniform sk
  iff : ∀ m r, K m r ↔ BlankText pw marks m r
  apart : Apart pw marks
  space : pw ' ' = true
  sub : ∀ c, pw c = true → isSpTab c = true
  marks : ∀ w ∈ marks, ∀ c, w.head? = some c → isSpTab c = false

namespace TabSkip
variable {pw : Char → Bool} {marks : List Str}

theorem nil (h : TabSkip sk K pw marks) {r : Str} (hr : Plain pw marks r) : K [] r :=
  (h.iff _ _).2 ⟨[], [], rfl, by simp, Or.inl ⟨rfl, hr⟩⟩

theorem spaces (h : TabSkip sk K pw marks) {m r : Str} (hm : ∀ c ∈ m, pw c = true) (hr : Plain pw marks r) :
    K m r := (h.iff _ _).2 ⟨m, [], by simp, hm, Or.inl ⟨rfl, hr⟩⟩

theorem plain (h : TabSkip sk K pw marks) {m r : Str} (hk : K m r) : Plain pw marks r := by
  obtain ⟨sp, cm, _, _, h1 | h1⟩ := (h.iff _ _).1 hk
  · exact h1.2
  · exact atLineEnd_not h.apart h1.2

theorem knil (h : TabSkip sk K pw marks) : KNil K := fun _ _ hk => h.nil (h.plain hk)

theorem lineEnd (h : TabSkip sk K pw marks) {r : Str} (hr : AtLineEnd r) : Plain pw marks r := atLineEnd_not h.apart hr

/-- A gap does not start with a line end. -/
theorem head (h : TabSkip sk K pw marks) {m r : Str} (hk : K m r) (hr : HeadNot isNewlineChar r) : HeadNot isNewlineChar (m ++ r) := by
  obtain ⟨sp, cm, rfl, h1, h2⟩ := (h.iff _ _).1 hk
  cases sp with
  | cons c sp =>
    refine headNot_cons.2 ?_
    cases hc : isNewlineChar c with
    | false => rfl
    | true => have := h.apart.1 c hc; rw [h1 c List.mem_cons_self] at this; cases this
  | nil =>
    rcases h2 with ⟨rfl, _⟩ | ⟨⟨w, hw, body, rfl, _⟩, _⟩
    · exact hr
    · obtain ⟨c, t, rfl, _, hc⟩ := h.apart.2 w hw
      exact headNot_cons.2 hc

/-- A tab that is not skipped. -/
theorem tab_plain (h : TabSkip sk K pw marks) (ht : pw '\t' = false) {r : Str} : Plain pw marks ('\t' :: r) := by
  refine ⟨headNot_cons.2 ht, ?_⟩
  rintro ⟨w, hw, hp⟩
  obtain ⟨c, t, rfl, _⟩ := h.apart.2 w hw
  rw [List.cons_prefix_cons] at hp
  have := h.marks _ hw c rfl
  rw [hp.1] at this
  exact absurd this (by decide)

/-- The blanks of a line: what the skip consumes, and what is left for `NL`. -/
theorem blanks_split (h : TabSkip sk K pw marks) (s : Str) (hs : ∀ c ∈ s, isSpTab c = true) :
    ∃ a b, s = a ++ b ∧ (∀ c ∈ a, pw c = true) ∧ (b = [] ∨ (pw '\t' = false ∧ ∃ t, b = '\t' :: t)) := by
  induction s with
  | nil => exact ⟨[], [], rfl, by simp, Or.inl rfl⟩
  | cons c s ih =>
    by_cases hc : pw c = true
    · obtain ⟨a, b, rfl, h1, h2⟩ := ih fun d hd => hs d (by simp [hd])
      refine ⟨c :: a, b, rfl, ?_, h2⟩
      intro d hd
      rcases List.mem_cons.1 hd with rfl | hd
      · exact hc
      · exact h1 d hd
    · have h1 := hs c (by simp)
      have : c = '\t' := by
        simp only [isSpTab, Bool.or_eq_true, beq_iff_eq] at h1
        rcases h1 with rfl | rfl
        · exact absurd h.space hc
        · rfl
      subst this
      exact ⟨[], '\t' :: s, rfl, by simp, Or.inr ⟨by simpa using hc, s, rfl⟩⟩

abbrev blankExpr : Expr R := (.str c!" ") ∥ (.str ['\t'])

theorem gapEnd (h : TabSkip sk K pw marks) {a cm r : Str} (ha : ∀ c ∈ a, pw c = true) (hc : cm = [] ∨ CommentText marks cm)
    (hr : AtLineEnd r) : K (a ++ cm) r := by
  refine (h.iff _ _).2 ⟨a, cm, rfl, ha, ?_⟩
  rcases hc with rfl | hc
  · exact Or.inl ⟨rfl, h.lineEnd hr⟩
  · exact Or.inr ⟨hc, hr⟩

/-- Tabs with blanks between them, up to a line end. -/
theorem blks_tabs (h : TabSkip sk K pw marks) (ht : pw '\t' = false) : ∀ (n : Nat) (b cm r : Str), b.length ≤ n →
    (∀ c ∈ b, isSpTab c = true) → (cm = [] ∨ CommentText marks cm) → AtLineEnd r →
    ∃ l : List (Str × List (Tree R)), Blks sk K blankExpr l r ∧ l.flatMap (·.1) = '\t' :: b ++ cm ∧ l.flatMap (·.2) = [] := by
  intro n
  induction n with
  | zero =>
    intro b cm r hn _ hc hr
    have : b = [] := by simpa using hn
    subst this
    refine ⟨[(['\t'] ++ cm, [])], ⟨blk_gap (s := ['\t']) ?_ (h.gapEnd (a := []) (by simp) hc hr), trivial⟩, by simp, rfl⟩
    exact ((likeCls_spTab (sk := sk) (K := K) .nonAtomic h.uniform).out _ _ _).2 ⟨'\t', rfl, by decide, rfl⟩
  | succ n ih =>
    intro b cm r hn hs hc hr
    obtain ⟨a, b', rfl, h1, h2⟩ := blanks_split h b hs
    have o : ∀ r, Out sk K (blankExpr : Expr R) .nonAtomic ['\t'] r [] := fun r =>
      ((likeCls_spTab (sk := sk) (K := K) .nonAtomic h.uniform).out _ _ _).2 ⟨'\t', rfl, by decide, rfl⟩
    rcases h2 with rfl | ⟨_, t, rfl⟩
    · exact ⟨[(['\t'] ++ (a ++ cm), [])], ⟨blk_gap (s := ['\t']) (o _) (h.gapEnd h1 hc hr), trivial⟩, by simp, rfl⟩
    · obtain ⟨l, h3, h4, h5⟩ := ih t cm r (by simp at hn; omega) (fun d hd => hs d (by simp [hd])) hc hr
      refine ⟨(['\t'] ++ a, []) :: l, ⟨blk_gap (s := ['\t']) (o _) (h.spaces h1 ?_), h3⟩, by simp [h4], by simpa using h5⟩
      rw [h4]
      exact h.tab_plain ht

theorem out_newline_of {nl r : Str} (hl : LineEnd nl r) {a : Atom} : Out sk K .newline a nl r [] := out_newline_iff.2 ⟨hl, rfl⟩

theorem lineEnd_at {nl r : Str} (hl : LineEnd nl r) : AtLineEnd (nl ++ r) := by
  rcases hl with rfl | rfl | ⟨rfl, _⟩ <;> exact headNot_cons.2 (by decide)

theorem fails_blank (h : TabSkip sk K pw marks) {r : Str} (hr : HeadNot isSpTab r) : Fails sk (blankExpr : Expr R) .nonAtomic r :=
  ((likeCls_spTab (sk := sk) (K := K) .nonAtomic h.uniform).fails _).2 hr

/-- One line without data: a gap and a match of the inner part of `NL`. -/
theorem out_line (h : TabSkip sk K pw marks) {sp cm nl r : Str} (hs : ∀ c ∈ sp, isSpTab c = true) (hc : cm = [] ∨ CommentText marks cm)
    (hl : LineEnd nl r) : ∃ m s, sp ++ cm ++ nl = m ++ s ∧ K m (s ++ r) ∧ Out sk K nlOne .nonAtomic s r [] ∧
      (sp = [] → cm = [] → m = []) := by
  have he := lineEnd_at hl
  have hf : Fails sk (blankExpr : Expr R) .nonAtomic (nl ++ r) := h.fails_blank (atLineEnd_not apart_spTab he).1
  obtain ⟨a, b, rfl, h1, h2⟩ := blanks_split h sp hs
  rcases h2 with rfl | ⟨ht, t, rfl⟩
  · refine ⟨a ++ cm, nl, by simp, h.gapEnd h1 hc he, ⟨[], [], nl, [], [], by simp, h.nil (h.lineEnd he), Or.inl ⟨rfl, rfl, hf⟩,
      out_newline_of hl, rfl⟩, ?_⟩
    intro e1 e2
    rw [e2]; simpa using e1
  · obtain ⟨l, h3, h4, h5⟩ := blks_tabs h ht _ t cm (nl ++ r) (Nat.le_refl _) (fun d hd => hs d (by simp [hd])) hc he
    obtain ⟨s, m, e, o, k⟩ := blk_star h.exact (uniform_eval h.uniform _ rfl _) h3 hf (h.nil (h.lineEnd he))
    rw [h4] at e
    rw [h5] at o
    refine ⟨a, s ++ m ++ nl, ?_, h.spaces h1 ?_, ⟨s, m, nl, [], [], rfl, k, o, out_newline_of hl, rfl⟩, by simp⟩
    · rw [← e]; simp
    · rw [← e]
      exact h.tab_plain ht

theorem fails_nlOne (h : TabSkip sk K pw marks) {r : Str} (hp : Plain pw marks r) (hb : HeadNot isSpTab r) (hn : HeadNot isNewlineChar r) :
    Fails sk (nlOne : Expr R) .nonAtomic r := by
  refine fails_of_not_out h.ok (by rfl) ?_
  rintro s r' ts rfl ⟨s1, m, s2, t1, t2, rfl, hg, h1, h2, _⟩
  have hg : K m (s2 ++ r') := hg
  have hl := (out_newline_iff.1 h2).1
  have e1 : s1 = [] := by
    rcases h1 with ⟨e, _⟩ | ⟨p1, u1, parts, rfl, _, o1, _⟩
    · exact e
    · exfalso
      obtain ⟨c, rfl, hc, _⟩ := ((likeCls_spTab (sk := sk) (K := K) .nonAtomic h.uniform).out _ _ _).1 o1
      have := headNot_cons.1 (show HeadNot isSpTab (c :: _) by simpa using hb)
      rw [hc] at this
      cases this
  subst e1
  have e2 : m = [] := by
    obtain ⟨sp, cm, rfl, h3, h4⟩ := (h.iff _ _).1 hg
    cases sp with
    | cons c sp =>
      have := headNot_cons.1 (show HeadNot pw (c :: _) by simpa using hp.1)
      rw [h3 c List.mem_cons_self] at this
      cases this
    | nil =>
      rcases h4 with ⟨rfl, _⟩ | ⟨⟨w, hw, body, rfl, _⟩, _⟩
      · rfl
      · exact absurd ⟨w, hw, by simp⟩ hp.2
  subst e2
  have : HeadNot isNewlineChar (s2 ++ r') := by simpa using hn
  rcases hl with rfl | rfl | ⟨rfl, _⟩ <;> exact absurd (headNot_cons.1 this) (by decide)

/-- Lines without data, each with its line end. -/
inductive Lns (marks : List Str) : Str → Prop
  | nil : Lns marks []
  | cons (sp cm : Str) (c : Char) (t : Str) : (∀ d ∈ sp, isSpTab d = true) → (cm = [] ∨ CommentText marks cm) → IsNewline c →
      Lns marks t → Lns marks (sp ++ cm ++ c :: t)

theorem lns_tail (h : TabSkip sk K pw marks) {t : Str} (hl : Lns marks ('\n' :: t)) : Lns marks t := by
  generalize hs : '\n' :: t = s at hl
  cases hl with
  | nil => cases hs
  | cons sp cm c u h1 h2 h3 h4 =>
    cases sp with
    | cons d sp =>
      cases hs
      exact absurd (h1 '\n' (by simp)) (by decide)
    | nil =>
      rcases h2 with rfl | ⟨w, hw, body, rfl, _⟩
      · cases hs; exact h4
      · obtain ⟨d, v, rfl, _, hd⟩ := h.apart.2 w hw
        cases hs
        exact absurd hd (by decide)

theorem lns_parts (h : TabSkip sk K pw marks) : ∀ (n : Nat) (f r : Str), f.length ≤ n → Lns marks f → HeadNot isNewlineChar r →
    ∃ parts : List ((Str × Str) × List (Tree R)), f = partsText parts ∧ Parts sk K nlOne parts r ∧ parts.flatMap (·.2) = [] := by
  intro n
  induction n with
  | zero =>
    intro f r hn _ _
    have : f = [] := by simpa using hn
    subst this
    exact ⟨[], rfl, trivial, rfl⟩
  | succ n ih =>
    intro f r hn hf hr
    cases hf with
    | nil => exact ⟨[], rfl, trivial, rfl⟩
    | cons sp cm c t h1 h2 hc ht =>
      have key : ∃ nl u, c :: t = nl ++ u ∧ LineEnd nl (u ++ r) ∧ Lns marks u ∧ u.length ≤ t.length := by
        rcases hc with rfl | rfl
        · exact ⟨['\n'], t, rfl, Or.inl rfl, ht, Nat.le_refl _⟩
        · cases t with
          | nil =>
            refine ⟨['\r'], [], rfl, Or.inr (Or.inr ⟨rfl, ?_⟩), ht, Nat.le_refl _⟩
            intro e
            exact absurd (hr _ (by simpa using e)) (by decide)
          | cons d t =>
            by_cases hd : d = '\n'
            · subst hd
              exact ⟨['\r', '\n'], t, rfl, Or.inr (Or.inl rfl), lns_tail h ht, by simp⟩
            · exact ⟨['\r'], d :: t, rfl, Or.inr (Or.inr ⟨rfl, by simpa using hd⟩), ht, Nat.le_refl _⟩
      obtain ⟨nl, u, e, hl, hu, hlen⟩ := key
      have hlt : u.length ≤ n := by
        simp only [List.length_append, List.length_cons] at hn
        omega
      obtain ⟨parts, rfl, p1, p2⟩ := ih u r hlt hu hr
      obtain ⟨m, s, e1, k, o, _⟩ := out_line h h1 h2 hl
      refine ⟨((m, s), []) :: parts, ?_, ⟨⟨?_, o⟩, p1⟩, by simpa using p2⟩
      · rw [e, show sp ++ cm ++ (nl ++ partsText parts) = (sp ++ cm ++ nl) ++ partsText parts by simp, e1]
        simp [partsText]
      · simpa using k

/-- Where the inner part of `NL` matches and nothing is skipped there is a tab or a line end. -/
theorem nlOne_head (h : TabSkip sk K pw marks) {s r : Str} {ts : List (Tree R)} (ho : Out sk K (nlOne : Expr R) .nonAtomic s r ts)
    (hp : Plain pw marks (s ++ r)) : ∃ c v, s = c :: v ∧ ((c = '\t' ∧ pw '\t' = false) ∨ IsNewline c) := by
  obtain ⟨s1, m, s2, t1, t2, rfl, hg, h1, h2, _⟩ := ho
  have hg : K m (s2 ++ r) := hg
  have hl := (out_newline_iff.1 h2).1
  rcases h1 with ⟨rfl, _⟩ | ⟨p1, u1, parts, rfl, _, o1, _⟩
  · have e2 : m = [] := by
      obtain ⟨sp, cm, rfl, h3, h4⟩ := (h.iff _ _).1 hg
      cases sp with
      | cons c sp =>
        have := headNot_cons.1 (show HeadNot pw (c :: _) by simpa using hp.1)
        rw [h3 c List.mem_cons_self] at this
        cases this
      | nil =>
        rcases h4 with ⟨rfl, _⟩ | ⟨⟨w, hw, body, rfl, _⟩, _⟩
        · rfl
        · exact absurd ⟨w, hw, by simp⟩ hp.2
    subst e2
    rcases hl with rfl | rfl | ⟨rfl, _⟩
    · exact ⟨'\n', [], rfl, Or.inr (Or.inl rfl)⟩
    · exact ⟨'\r', ['\n'], rfl, Or.inr (Or.inr rfl)⟩
    · exact ⟨'\r', [], rfl, Or.inr (Or.inr rfl)⟩
  · obtain ⟨c, rfl, hc, _⟩ := ((likeCls_spTab (sk := sk) (K := K) .nonAtomic h.uniform).out _ _ _).1 o1
    have hpc := headNot_cons.1 (show HeadNot pw (c :: _) by simpa using hp.1)
    refine ⟨c, _, rfl, Or.inl ?_⟩
    simp only [isSpTab, Bool.or_eq_true, beq_iff_eq] at hc
    rcases hc with rfl | rfl
    · rw [h.space] at hpc; cases hpc
    · exact ⟨rfl, hpc⟩

/-- `NL` behind an item: the rest of its line, and all lines without data up to the next item. -/
theorem blk_lines (h : TabSkip sk K pw marks) {f fin r : Str} (hf : Lns marks f) (hne : f ≠ []) (hk : K fin r) (hb : HeadNot isSpTab r)
    (hr : HeadNot isNewlineChar r) : ∃ m t, f ++ fin = m ++ t ∧ K m (t ++ r) ∧ Blk sk K (Base.NL : Expr R) t r [] ∧
      ∃ c v, t = c :: v ∧ ((c = '\t' ∧ pw '\t' = false) ∨ IsNewline c) := by
  obtain ⟨parts, rfl, p1, p2⟩ := lns_parts h _ f (fin ++ r) (Nat.le_refl _) hf (h.head hk hr)
  cases parts with
  | nil => exact absurd rfl hne
  | cons p ps =>
    obtain ⟨⟨q1, q2⟩, q3⟩ := p1
    obtain ⟨s, m, e1, o, k⟩ := out_plus_build h.exact (uniform_eval h.uniform _ rfl _) h.knil (s1 := p.1.2) (t1 := p.2) (parts := ps) q2 q3 hk
      (fails_nlOne h (h.plain hk) hb hr)
    have e2 : p.2 ++ ps.flatMap (·.2) = [] := p2
    rw [e2] at o
    have q1 : K p.1.1 (p.1.2 ++ (ps.flatMap (fun p => p.1.1 ++ p.1.2) ++ (fin ++ r))) := q1
    refine ⟨p.1.1, s ++ m, ?_, ?_, ⟨s, m, rfl, o, k⟩, ?_⟩
    · rw [← e1]; simp [partsText]
    · rw [← e1]
      simpa [partsText] using q1
    · obtain ⟨c, v, e3, hc⟩ := nlOne_head h q2 (h.plain q1)
      refine ⟨c, v ++ (partsText ps ++ fin), ?_, hc⟩
      rw [← e1, e3]
      rfl

/-! ## Texts -/

theorem fails_NL (h : TabSkip sk K pw marks) {t : Str}
    (ht : ∀ sp rest, t = sp ++ rest → (∀ c ∈ sp, isSpTab c = true) → HeadNot isNewlineChar rest) :
    Fails sk (Base.NL : Expr R) .atomic t := by
  refine fails_plus (fails_of_not_out h.ok (by rfl) ?_)
  intro s r' ts e ho
  obtain ⟨s1, s2, t1, t2, rfl, rfl, h1, h2⟩ := (out_seq_atomic (by decide)).1 ho
  have hl := (out_newline_iff.1 h2).1
  have hs := ((likeCls_spTab (sk := sk) (K := K) .atomic h.uniform).star (by decide)).1 h1
  have := ht s1 (s2 ++ r') (by simp [e]) hs.1
  rcases hl with rfl | rfl | ⟨rfl, _⟩ <;> exact absurd (headNot_cons.1 this) (by decide)

/-- Where `(!(NL | (" "* ~ "\t")) ~ ANY)*` stops: at the end, at a line end behind blanks, or at a tab behind blanks. -/
def TabStop (r : Str) : Prop := r = [] ∨ (∃ sp c t, r = sp ++ c :: t ∧ (∀ d ∈ sp, isSpTab d = true) ∧ IsNewline c) ∨
  ∃ sp t, r = sp ++ '\t' :: t ∧ ∀ d ∈ sp, d = ' '

theorem nl_ok (h : TabSkip sk K pw marks) {sp t : Str} {c : Char} (hs : ∀ d ∈ sp, isSpTab d = true) (hc : IsNewline c) :
    ∃ pos stk st ts, eval sk (Base.NL : Expr R) .atomic ⟨pos, sp ++ c :: t, stk⟩ = .ok st ts := by
  refine ⟨0, [], plus_ok h.ok (x := nlOne) (a := .atomic) (by rfl) ?_⟩
  have o1 : ∀ nl r, LineEnd nl r → Out sk K (nlOne : Expr R) .atomic (sp ++ nl) r [] := fun nl r hl => by
    refine (out_seq_atomic (by decide)).2 ⟨sp, nl, [], [], rfl, rfl, ?_, out_newline_iff.2 ⟨hl, rfl⟩⟩
    refine ((likeCls_spTab (sk := sk) (K := K) .atomic h.uniform).star (by decide)).2 ⟨hs, ?_, rfl⟩
    rcases hl with rfl | rfl | ⟨rfl, _⟩ <;> exact headNot_cons.2 (by decide)
  have key : ∀ nl r, LineEnd nl r → c :: t = nl ++ r → ∃ st ts, eval sk (nlOne : Expr R) .atomic ⟨0, sp ++ c :: t, []⟩ = .ok st ts := fun nl r hl e =>
    ⟨_, _, out_eval h.uniform h.exact nlOne (by rfl) (by rfl) .atomic _ _ _ ⟨0, sp ++ c :: t, []⟩ (o1 nl r hl) (by simp [e])⟩
  rcases hc with rfl | rfl
  · exact key ['\n'] t (Or.inl rfl) rfl
  · by_cases ht : t.head? = some '\n'
    · cases t with
      | nil => cases ht
      | cons d t => cases ht; exact key ['\r', '\n'] t (Or.inr (Or.inl rfl)) rfl
    · exact key ['\r'] t (Or.inr (Or.inr ⟨rfl, ht⟩)) rfl

abbrev spTabExpr : Expr R := (.star (.str c!" ")) ⬝ (.str ['\t'])

theorem spTab_ok (h : TabSkip sk K pw marks) {sp t : Str} (hs : ∀ d ∈ sp, d = ' ') :
    ∃ pos stk st ts, eval sk (spTabExpr : Expr R) .atomic ⟨pos, sp ++ '\t' :: t, stk⟩ = .ok st ts := by
  refine ⟨0, [], _, _, out_eval h.uniform h.exact spTabExpr (by rfl) (by rfl) .atomic (sp ++ ['\t']) t [] ⟨0, sp ++ '\t' :: t, []⟩ ?_ (by simp)⟩
  refine (out_seq_atomic (by decide)).2 ⟨sp, ['\t'], [], [], rfl, rfl, ?_, rfl, rfl⟩
  exact ((likeCls_char (sk := sk) (K := K) ' ' .atomic).star (by decide)).2 ⟨fun c hc => by simp [hs c hc], headNot_cons.2 (by decide), rfl⟩

theorem fails_spTab (h : TabSkip sk K pw marks) {t : Str} (ht : ∀ sp rest, t = sp ++ rest → (∀ c ∈ sp, c = ' ') → rest.head? ≠ some '\t') :
    Fails sk (spTabExpr : Expr R) .atomic t := by
  refine fails_of_not_out h.ok (by rfl) ?_
  intro s r' ts e ho
  obtain ⟨s1, s2, t1, t2, rfl, rfl, h1, rfl, _⟩ := (out_seq_atomic (by decide)).1 ho
  have hs := ((likeCls_char (sk := sk) (K := K) ' ' .atomic).star (by decide)).1 h1
  exact ht s1 (['\t'] ++ r') (by simp [e]) (fun c hc => by simpa using hs.1 c hc) rfl

/-- A text without tabs and line ends up to a stop. -/
theorem out_tabText (h : TabSkip sk K pw marks) {v r : Str} (hv : ∀ c ∈ v, c ≠ '\t' ∧ ¬ IsNewline c)
    (hl : r ≠ [] → v.getLast? ≠ some ' ') (hr : TabStop r) : Out sk K (Base.tab_delimited_text : Expr R) .atomic v r [] := by
  refine out_until_text (by decide) (fun p c q e => ?_) ?_
  · have last : ∀ sp rest, c :: q ++ r = sp ++ rest → (∀ d ∈ sp, d = ' ' ∨ d = '\t') →
        (∃ d t, rest = d :: t ∧ d ∈ c :: q) ∨ (rest = [] ∧ r = []) := by
      intro sp rest e2 hs
      rcases List.append_eq_append_iff.1 e2 with ⟨a, e3, e4⟩ | ⟨a, e3, e4⟩
      · by_cases hr0 : r = []
        · subst hr0
          exact Or.inr ⟨(List.append_eq_nil_iff.1 e4.symm).2, rfl⟩
        · exfalso
          obtain ⟨x, hx⟩ : ∃ x, (c :: q).getLast? = some x := ⟨_, List.getLast?_eq_some_getLast (by simp)⟩
          have hm := List.mem_of_getLast? hx
          have hvl : v.getLast? = some x := by rw [e, List.getLast?_append, hx]; rfl
          rcases hs x (by rw [e3]; exact List.mem_append_left _ hm) with rfl | rfl
          · exact hl hr0 hvl
          · exact (hv '\t' (List.mem_of_getLast? hvl)).1 rfl
      · cases a with
        | nil =>
          by_cases hr0 : r = []
          · subst hr0; exact Or.inr ⟨by simpa using e4, rfl⟩
          · exfalso
            rw [List.append_nil] at e3
            obtain ⟨x, hx⟩ : ∃ x, (c :: q).getLast? = some x := ⟨_, List.getLast?_eq_some_getLast (by simp)⟩
            have hm := List.mem_of_getLast? hx
            have hvl : v.getLast? = some x := by rw [e, List.getLast?_append, hx]; rfl
            rcases hs x (by rw [← e3]; exact hm) with rfl | rfl
            · exact hl hr0 hvl
            · exact (hv '\t' (List.mem_of_getLast? hvl)).1 rfl
        | cons d a => exact Or.inl ⟨d, a ++ r, by simpa using e4, by rw [e3]; simp⟩
    have mem : ∀ d ∈ c :: q, d ∈ v := fun d hd => by rw [e]; exact List.mem_append_right _ hd
    refine (fails_alt_iff (uniform_eval h.uniform Base.NL rfl _)).2 ⟨fails_NL h ?_, fails_spTab h ?_⟩
    · intro sp rest e2 hs
      rcases last sp rest (by simpa using e2) (fun d hd => by simpa [isSpTab] using hs d hd) with ⟨d, t, rfl, hd⟩ | ⟨rfl, _⟩
      · exact headNot_cons.2 (not_newline_iff.2 (hv d (mem d hd)).2)
      · exact headNot_nil _
    · intro sp rest e2 hs e3
      rcases last sp rest (by simpa using e2) (fun d hd => Or.inl (hs d hd)) with ⟨d, t, rfl, hd⟩ | ⟨rfl, _⟩
      · cases e3
        exact (hv _ (mem _ hd)).1 rfl
      · cases e3
  · rcases hr with rfl | ⟨sp, c, t, rfl, hs, hc⟩ | ⟨sp, t, rfl, hs⟩
    · exact fails_until_nil h.ok (by rfl) (by decide)
    · obtain ⟨pos, stk, st, ts, h1⟩ := nl_ok h (t := t) hs hc
      refine fails_until_ok ⟨pos, stk, st, ts, ?_⟩
      simp only [eval, h1]
    · exact fails_until_ok (alt_ok_right h.ok (by rfl) (spTab_ok h hs))

end TabSkip
end Verif.Peg
