import Verif.Peg.Seg
import Verif.Peg.Safe
import Verif.Proofs.Asr
import Verif.Spec.TopskySettings
import Verif.Parse.TopskySettings
import Verif.Tokens.TopskySettings
/-!
# Lemmas about TopSky settings: the lines
-/

namespace Verif.Proofs.TopskySettings
open Verif.Peg Verif.Spec Verif.Spec.TopskySettings Verif.Parse.TopskySettings
open Verif.Peg.TopskySettings (Rule skip)
open Verif.Colours (Colour fromRgb)

/-- What the skip of this grammar consumes. -/
abbrev K : Str → Str → Prop := Blank [Peg.TopskySettings.WHITESPACE, Peg.TopskySettings.COMMENT]

theorem like_ws : LikeCls noSkip NoGap Peg.TopskySettings.WHITESPACE .atomic isSpTab :=
  (likeCls_spTab _ uniform_noSkip).quiet

theorem like_comment : LikeComment Peg.TopskySettings.COMMENT commentMarks := by
  have hc : LikeCls (R := Rule) noSkip NoGap ((.not Peg.TopskySettings.NL) ⬝ .any) .atomic (fun c => !isNewlineChar c) :=
    likeCls_notNewlines (by decide) noSkip_ok uniform_noSkip
  refine ⟨fun s r ts => ?_, fun r => ?_⟩
  · show Out noSkip NoGap (((.str c!";") ∥ (.str c!"//")) ⬝ (.star ((.not Peg.TopskySettings.NL) ⬝ .any))) .atomic s r ts ↔ _
    rw [out_seq_atomic (by simp)]
    simp only [hc.star (by simp)]
    constructor
    · rintro ⟨s1, s2, t1, t2, rfl, rfl, h1, h2, h3, rfl⟩
      have : (s1 = c!";" ∨ s1 = c!"//") ∧ t1 = [] := by
        rcases h1 with ⟨rfl, rfl⟩ | ⟨⟨rfl, rfl⟩, _⟩ <;> simp
      obtain ⟨hs1, rfl⟩ := this
      refine ⟨⟨s1, ?_, s2, rfl, fun c hc => by simpa using h2 c hc⟩, h3, rfl⟩
      rcases hs1 with rfl | rfl <;> simp [commentMarks]
    · rintro ⟨⟨w, hw, body, rfl, hb⟩, h3, rfl⟩
      refine ⟨w, body, [], [], rfl, rfl, ?_, fun c hc => by simp [hb c hc], h3, rfl⟩
      simp only [commentMarks, List.mem_cons, List.not_mem_nil, or_false] at hw
      rcases hw with rfl | rfl
      · exact Or.inl ⟨rfl, rfl⟩
      · exact Or.inr ⟨⟨rfl, rfl⟩, fails_str.2 (by simp)⟩
  · show Fails noSkip (((.str c!";") ∥ (.str c!"//")) ⬝ (.star ((.not Peg.TopskySettings.NL) ⬝ .any))) .atomic r ↔ _
    rw [fails_seq_iff noSkip_ok (eval_star_ok noSkip_ok rfl _),
      fails_alt_iff (uniform_eval uniform_noSkip _ rfl _), fails_str, fails_str]
    simp [CommentStart, commentMarks]

theorem lineSkip : LineSkip skip K isSpTab commentMarks where
  ok := skipBoth_ok rfl rfl
  exact := skipBoth_exact rfl rfl rfl rfl (disjoint_of like_ws like_comment apart_spTab rfl)
  uniform := uniform_skipBoth rfl rfl
  iff := blank_iff like_ws like_comment apart_spTab
  apart := apart_spTab
  blank := fun _ h => h

/-! ## Pieces of lines -/

def isNameChar (c : Char) : Bool := c == '/' || (c == '_' || (isAsciiAlpha c || isAsciiDigit c))

theorem nameChar_iff {c : Char} : isNameChar c = true ↔ IsNameChar c := by
  simp [isNameChar, IsNameChar, isAsciiAlpha, or_assoc]

theorem like_name (a : Atom) : LikeCls skip K
    ((.str c!"/") ∥ (.str c!"_") ∥ (.cls isAsciiAlpha) ∥ (.cls isAsciiDigit)) a isNameChar :=
  (likeCls_char '/' a).alt ((likeCls_char '_' a).alt ((likeCls_cls isAsciiAlpha a).alt (likeCls_cls isAsciiDigit a)
    (uniform_eval lineSkip.uniform _ rfl _)) (uniform_eval lineSkip.uniform _ rfl _)) (uniform_eval lineSkip.uniform _ rfl _)

theorem out_name {s r : Str} (h : IsName s) (hr : HeadNot isNameChar r) :
    Out skip K Peg.TopskySettings.name .nonAtomic s r [.node .name s []] :=
  out_rule_atomic (((like_name .atomic).plus (by decide)).2 ⟨h.1, fun c hc => nameChar_iff.2 (h.2.1 c hc), hr, rfl⟩)

theorem fails_name {r : Str} (hr : HeadNot isNameChar r) : Fails skip Peg.TopskySettings.name .nonAtomic r :=
  fails_rule (fails_plus (((like_name .atomic).fails r).2 hr))

theorem out_number {s r : Str} (h : IsDigits s) (hr : HeadNot isAsciiDigit r) :
    Out skip K Peg.TopskySettings.number .nonAtomic s r [.node .number s []] :=
  out_rule_atomic (out_digits_build (by decide) h hr)

abbrev Pl : Str → Prop := Plain isSpTab commentMarks

theorem pl_cons {c : Char} {t : Str} (h : c ≠ ' ' ∧ c ≠ '\t' ∧ c ≠ ';' ∧ c ≠ '/') : Pl (c :: t) := by
  refine ⟨headNot_cons.2 ?_, ?_⟩
  · cases hb : isSpTab c with
    | false => rfl
    | true => rcases blankChar_iff.1 hb with rfl | rfl <;> simp at h
  · rintro ⟨w, hw, hp⟩
    simp only [commentMarks, List.mem_cons, List.not_mem_nil, or_false] at hw
    rcases hw with rfl | rfl
    · rw [List.cons_prefix_cons] at hp
      exact h.2.2.1 hp.1.symm
    · rw [List.cons_prefix_cons] at hp
      exact h.2.2.2 hp.1.symm

theorem nameChar_line {c : Char} (h : IsNameChar c) : isSpTab c = false ∧ c ≠ ';' ∧ isNewlineChar c = false := by
  have key : ∀ d, d ∈ c!" \t;\n\r" → c ≠ d := by
    rintro d hd rfl
    have : isNameChar c = true := nameChar_iff.2 h
    simp only [List.mem_cons, List.not_mem_nil, or_false] at hd
    rcases hd with rfl | rfl | rfl | rfl | rfl <;> exact absurd this (by decide)
  refine ⟨?_, key _ (by decide), ?_⟩
  · cases hb : isSpTab c with
    | false => rfl
    | true => rcases blankChar_iff.1 hb with rfl | rfl <;> exact absurd rfl (key _ (by decide))
  · cases hb : isNewlineChar c with
    | false => rfl
    | true => rcases newline_iff.1 hb with rfl | rfl <;> exact absurd rfl (key _ (by decide))

theorem pl_name {s r : Str} (h : IsName s) (hr : HeadNot isNameChar r) : Pl (s ++ r) := by
  obtain ⟨h1, h2, h3⟩ := h
  cases s with
  | nil => exact absurd rfl h1
  | cons c s =>
    have hc := nameChar_line (h2 c List.mem_cons_self)
    refine ⟨headNot_cons.2 hc.1, ?_⟩
    rintro ⟨w, hw, hp⟩
    simp only [commentMarks, List.mem_cons, List.not_mem_nil, or_false] at hw
    rcases hw with rfl | rfl
    · rw [List.cons_append, List.cons_prefix_cons] at hp
      exact hc.2.1 hp.1.symm
    · cases s with
      | nil =>
        rw [List.singleton_append, List.cons_prefix_cons] at hp
        obtain ⟨rfl, t, ht⟩ := hp
        rw [← ht] at hr
        exact absurd (headNot_cons.1 hr) (by decide)
      | cons d s =>
        rw [List.cons_append, List.cons_append, List.cons_prefix_cons, List.cons_prefix_cons] at hp
        refine h3 ?_
        rw [← hp.1, ← hp.2.1]
        exact ⟨s, rfl⟩

theorem k_nil {r : Str} (h : Pl r) : K [] r := lineSkip.nil h

theorem k_blanks {g r : Str} (hg : AreBlanks g) (h : Pl r) : K g r :=
  lineSkip.spaces (fun c hc => blankChar_iff.2 (hg c hc)) h

theorem commentText {s : Str} (h : IsComment s) : CommentText commentMarks s := by
  obtain ⟨w, hw, body, e, hb⟩ := h
  exact ⟨w, hw, body, e, fun c hc => not_newline_iff.2 (hb c hc)⟩

theorem k_tail {s r : Str} (h : IsTail s) (hr : AtLineEnd r) : K s r := by
  obtain ⟨sp, cm, rfl, h1, h2⟩ := h
  refine (lineSkip.iff _ _).2 ⟨sp, cm, rfl, fun c hc => blankChar_iff.2 (h1 c hc), ?_⟩
  rcases h2 with rfl | h2
  · exact Or.inl ⟨rfl, plain_lineEnd apart_spTab hr⟩
  · exact Or.inr ⟨commentText h2, hr⟩

theorem tail_blanks {g s : Str} (hg : AreBlanks g) (h : IsTail s) : IsTail (g ++ s) := by
  obtain ⟨sp, cm, rfl, h1, h2⟩ := h
  refine ⟨g ++ sp, cm, by simp, ?_, h2⟩
  intro c hc
  rcases List.mem_append.1 hc with hc | hc
  · exact hg c hc
  · exact h1 c hc

theorem pl_end {r : Str} (h : AtLineEnd r) : Pl r := plain_lineEnd apart_spTab h

theorem headNot_blanks {p : Char → Bool} (hp : p ' ' = false ∧ p '\t' = false) {g r : Str} (hg : AreBlanks g) (hr : HeadNot p r) :
    HeadNot p (g ++ r) := by
  cases g with
  | nil => exact hr
  | cons c g =>
    refine headNot_cons.2 ?_
    rcases hg c List.mem_cons_self with rfl | rfl
    · exact hp.1
    · exact hp.2

/-! ## Values -/

/-- One character of a value. -/
abbrev valueChar : Expr Rule := (.not (Peg.TopskySettings.NL ∥ (.eoi .EOI))) ⬝ .any

theorem fails_stop {c : Char} {t : Str} (h : isNewlineChar c = false) :
    Fails skip (Peg.TopskySettings.NL ∥ (.eoi .EOI)) .nonAtomic (c :: t) := by
  refine (fails_alt_iff (uniform_eval lineSkip.uniform _ rfl _)).2 ⟨fails_plus (fails_newline.2 (headNot_cons.2 h)), 0, [], ?_⟩
  simp [eval]

theorem out_valueChar {c : Char} {t : Str} (h : isNewlineChar c = false) (hp : Pl (c :: t)) :
    Out skip K valueChar .nonAtomic [c] t [] :=
  ⟨[], [], [c], [], [], rfl, k_nil hp, ⟨rfl, rfl, fails_stop h⟩, ⟨c, rfl, rfl, rfl⟩, rfl⟩

theorem fails_valueChar {r : Str} (h : AtLineEnd r) : Fails skip valueChar .nonAtomic r := by
  have key : ∃ pos stk st ts, eval skip (Peg.TopskySettings.NL ∥ (.eoi Rule.EOI)) .nonAtomic ⟨pos, r, stk⟩ = .ok st ts := by
    cases r with
    | nil =>
      refine alt_ok_right lineSkip.ok rfl ⟨0, [], ?_⟩
      exact ⟨_, _, rfl⟩
    | cons c t =>
      obtain ⟨pos, stk, st, ts, h2⟩ := newlines_ok (R := Rule) (a := .nonAtomic) lineSkip.ok (c := c) (t := t) (by simpa using headNot_cons.1 h)
      refine ⟨pos, stk, st, ts, ?_⟩
      rw [show Peg.TopskySettings.NL = .plus .newline from rfl, eval, h2]
  obtain ⟨pos, stk, st, ts, h2⟩ := key
  refine ⟨pos, stk, ?_⟩
  simp only [eval] at h2
  simp only [eval, h2]
  rfl

/-- No comment starts inside `v`, in front of `r`. -/
def NoComment (v r : Str) : Prop := ∀ p c q, v = p ++ c :: q → ¬ CommentStart commentMarks (c :: (q ++ r))

theorem value_parts {r : Str} : ∀ (n : Nat) (v : Str), v.length ≤ n → (∀ c ∈ v, isNewlineChar c = false) → NoComment v r →
    (∀ c, v.getLast? = some c → isSpTab c = false) →
    ∃ parts : List ((Str × Str) × List (Tree Rule)), v = partsText parts ∧ Parts skip K valueChar parts r ∧ parts.flatMap (·.2) = [] := by
  intro n
  induction n with
  | zero =>
    intro v hn _ _ _
    have : v = [] := by simpa using hn
    subst this
    exact ⟨[], rfl, trivial, rfl⟩
  | succ n ih =>
    intro v hn h1 h2 h3
    by_cases hv : v = []
    · subst hv; exact ⟨[], rfl, trivial, rfl⟩
    -- the blanks in front
    have hsplit : ∃ sp c q, v = sp ++ c :: q ∧ (∀ d ∈ sp, isSpTab d = true) ∧ isSpTab c = false := by
      clear ih h1 h2 hn
      induction v with
      | nil => exact absurd rfl hv
      | cons d v ihv =>
        cases hd : isSpTab d with
        | false => exact ⟨[], d, v, rfl, by simp, hd⟩
        | true =>
          have hv' : v ≠ [] := by
            rintro rfl
            have := h3 d rfl
            rw [hd] at this; cases this
          obtain ⟨sp, c, q, rfl, e1, e2⟩ := ihv (fun c hc => h3 c (by
            rw [List.getLast?_cons]; simp [hc])) hv'
          refine ⟨d :: sp, c, q, rfl, ?_, e2⟩
          intro x hx
          rcases List.mem_cons.1 hx with rfl | hx
          · exact hd
          · exact e1 x hx
    obtain ⟨sp, c, q, rfl, e1, e2⟩ := hsplit
    have hq : q.length ≤ n := by
      simp only [List.length_append, List.length_cons] at hn; omega
    obtain ⟨parts, e3, p1, p2⟩ := ih q hq (fun d hd => h1 d (by simp [hd])) (fun p d u e => by
        have := h2 (sp ++ c :: p) d u (by simp [e])
        exact this) (fun d hd => h3 d (by
          rw [List.getLast?_append, List.getLast?_cons, hd]; rfl))
    refine ⟨((sp, [c]), []) :: parts, by simp [partsText, e3], ⟨⟨?_, ?_⟩, p1⟩, by simpa using p2⟩
    · have hp : Pl (c :: (q ++ r)) := ⟨headNot_cons.2 e2, h2 sp c q rfl⟩
      have := lineSkip.spaces (m := sp) e1 hp
      show K sp ([c] ++ _)
      rw [e3] at this
      exact this
    · have hp : Pl (c :: (q ++ r)) := ⟨headNot_cons.2 e2, h2 sp c q rfl⟩
      rw [e3] at hp
      exact out_valueChar (h1 c (by simp)) hp

theorem out_value {v m r : Str} (hv : v ≠ []) (h1 : ∀ c ∈ v, isNewlineChar c = false) (h2 : NoComment v (m ++ r))
    (h3 : ∀ c, v.getLast? = some c → isSpTab c = false) (h4 : ∀ c, v.head? = some c → isSpTab c = false)
    (hm : K m r) (hr : AtLineEnd r) :
    Out skip K Peg.TopskySettings.setting_value .nonAtomic v (m ++ r) [.node .setting_value v []] := by
  refine out_rule_normal ?_
  obtain ⟨parts, e, p1, p2⟩ := value_parts (r := m ++ r) _ v (Nat.le_refl _) h1 h2 h3
  cases parts with
  | nil => exact absurd e hv
  | cons p ps =>
    obtain ⟨⟨q1, q2⟩, q3⟩ := p1
    have hp1 : p.1.1 = [] := by
      have q1 : K p.1.1 _ := q1
      cases hpp : p.1.1 with
      | nil => rfl
      | cons c t =>
        exfalso
        rw [hpp] at q1
        have hc := h4 c (by rw [e]; simp [partsText, hpp])
        obtain ⟨sp, cm, e', h5, h6⟩ := (lineSkip.iff _ _).1 q1
        cases sp with
        | cons d sp =>
          cases e'
          rw [h5 c List.mem_cons_self] at hc; cases hc
        | nil =>
          rcases h6 with ⟨rfl, _⟩ | ⟨⟨w, hw, body, rfl, _⟩, _⟩
          · cases e'
          · refine h2 [] c (t ++ (p.1.2 ++ partsText ps)) (by rw [e]; simp [partsText, hpp]) ⟨w, hw, ?_⟩
            have : w <+: c :: t := ⟨body, by simpa using e'.symm⟩
            exact this.trans ⟨p.1.2 ++ partsText ps ++ (m ++ r), by simp⟩
    refine Or.inr ⟨p.1.2, p.2, ps, ?_, ?_, q2, q3, 0, [], ?_⟩
    · rw [e]; simp [partsText, hp1]
    · simpa using p2.symm
    · rw [skipIf_exact (a := .nonAtomic) (m := m) (r := r) lineSkip.exact hm rfl, Res.ok_bind]
      exact (uniform_eval lineSkip.uniform valueChar rfl _).fail_of (fails_valueChar hr) _ rfl

theorem noComment {v tail r : Str} (hv : ∀ w ∈ marks, ¬ w <:+: v) (ht : v.getLast? = some '/' → tail.head? ≠ some '/')
    (hr : AtLineEnd r) : NoComment v (tail ++ r) := by
  rintro p c q rfl ⟨w, hw, hp⟩
  simp only [commentMarks, List.mem_cons, List.not_mem_nil, or_false] at hw
  rcases hw with rfl | rfl
  · rw [List.cons_prefix_cons] at hp
    exact hv c!";" (by decide) ⟨p, q, by rw [hp.1]; simp⟩
  · rw [List.cons_prefix_cons] at hp
    obtain ⟨rfl, u, hu⟩ := hp
    cases q with
    | cons d q =>
      rw [List.singleton_append, List.cons_append] at hu
      cases hu
      exact hv c!"//" (by decide) ⟨p, q, by simp⟩
    | nil =>
      have := ht (by simp)
      cases tail with
      | cons d t => cases hu; exact this rfl
      | nil =>
        rw [List.nil_append, List.nil_append] at hu
        rw [← hu] at hr
        exact absurd (headNot_cons.1 hr) (by decide)

/-- `= value` up to the end of the line. -/
theorem blk_value {g v tail r : Str} (hg : AreBlanks g) (hv : IsValue v) (ht : IsTail tail)
    (hs : v.getLast? = some '/' → tail.head? ≠ some '/') (hr : AtLineEnd r) :
    Blk skip K ((.str c!"=") ⬝ Peg.TopskySettings.setting_value) ('=' :: (g ++ (v ++ tail))) r [.node .setting_value v []] := by
  obtain ⟨h1, h2, h3, h4⟩ := hv
  have nb : ∀ {c}, ¬ IsBlankChar c → isSpTab c = false := fun {c} h => by
    cases hb : isSpTab c with
    | false => rfl
    | true => exact absurd (blankChar_iff.1 hb) h
  by_cases hv : v = []
  · subst hv
    have b1 : Blk skip K (.str c!"=") (c!"=" ++ (g ++ tail)) ([] ++ r) [] :=
      blk_gap out_str0 (k_tail (tail_blanks hg ht) hr)
    have b2 : Blk skip K Peg.TopskySettings.setting_value [] r [.node .setting_value [] []] :=
      blk_of_out (out_rule_normal (Or.inl ⟨rfl, rfl, fails_valueChar hr⟩)) (k_nil (pl_end hr))
    have := blk_seq b1 b2
    simpa using this
  · have hn : NoComment v (tail ++ r) := noComment h2 hs hr
    have b2 : Blk skip K Peg.TopskySettings.setting_value (v ++ tail) r [.node .setting_value v []] :=
      blk_gap (out_value hv (fun c hc => not_newline_iff.2 (h1 c hc)) hn (fun c hc => nb (h4 c hc)) (fun c hc => nb (h3 c hc)) (k_tail ht hr) hr) (k_tail ht hr)
    have hp : Pl (v ++ tail ++ r) := by
      cases v with
      | nil => exact absurd rfl hv
      | cons c v =>
        exact ⟨headNot_cons.2 (nb (h3 c rfl)), by simpa using hn [] c v rfl⟩
    have b1 : Blk skip K (.str c!"=") (c!"=" ++ g) (v ++ tail ++ r) [] := blk_gap out_str0 (k_blanks hg hp)
    have := blk_seq b1 b2
    simpa using this

/-! ## Lines -/

/-- What reading a line gives. -/
def meaning : Entry → Option Setting
  | .setting n v => some (.other n v)
  | .colour n r g b => (colourOf n (.colour n r g b)).map fun c => .colour ⟨n, c⟩
  | .bare _ => none

theorem eq_head {t : Str} : HeadNot isNameChar ('=' :: t) := headNot_cons.2 (by decide)

theorem eq_pl {t : Str} : Pl ('=' :: t) := pl_cons (by decide)

theorem comma_pl {t : Str} : Pl (',' :: t) := pl_cons (by decide)

theorem digit_pl {s r : Str} (h : IsDigits s) : Pl (s ++ r) := by
  cases s with
  | nil => exact absurd rfl h.1
  | cons c s =>
    have hc := h.2 c List.mem_cons_self
    refine pl_cons ⟨?_, ?_, ?_, ?_⟩ <;> (rintro rfl; exact absurd hc (by decide))

theorem blk_name {n g r : Str} (h : IsName n) (hg : AreBlanks g) (hr : HeadNot isNameChar r) (hp : Pl r) :
    Blk skip K Peg.TopskySettings.name (n ++ g) r [.node .name n []] :=
  blk_gap (out_name h (headNot_blanks (by decide) hg hr)) (k_blanks hg hp)

theorem blk_number {n g r : Str} (h : IsDigits n) (hg : AreBlanks g) (hr : HeadNot isAsciiDigit r) (hp : Pl r) :
    Blk skip K Peg.TopskySettings.number (n ++ g) r [.node .number n []] :=
  blk_gap (out_number h (headNot_blanks (by decide) hg hr)) (k_blanks hg hp)

theorem blk_char {c : Char} {g r : Str} (hg : AreBlanks g) (hp : Pl r) : Blk (R := Rule) skip K (.str [c]) (c :: g) r [] :=
  blk_gap (s := [c]) out_str0 (k_blanks hg hp)

theorem tail_digits {s r : Str} (h : IsTail s) (hr : AtLineEnd r) : HeadNot isAsciiDigit (s ++ r) := by
  have he : HeadNot isAsciiDigit r := by
    cases r with
    | nil => exact headNot_nil _
    | cons c t =>
      have := headNot_cons.1 hr
      simp only [Bool.not_eq_false'] at this
      rcases newline_iff.1 this with rfl | rfl <;> exact headNot_cons.2 (by decide)
  obtain ⟨sp, cm, rfl, h1, h2⟩ := h
  rw [List.append_assoc]
  refine headNot_blanks (by decide) h1 ?_
  rcases h2 with rfl | ⟨w, hw, body, rfl, _⟩
  · exact he
  · simp only [List.mem_cons, List.not_mem_nil, or_false] at hw
    rcases hw with rfl | rfl <;> exact headNot_cons.2 (by decide)

theorem tail_name {s r : Str} (h : IsTail s) (hs : s.head? ≠ some '/') (hr : AtLineEnd r) : HeadNot isNameChar (s ++ r) := by
  have he : HeadNot isNameChar r := by
    cases r with
    | nil => exact headNot_nil _
    | cons c t =>
      have := headNot_cons.1 hr
      simp only [Bool.not_eq_false'] at this
      rcases newline_iff.1 this with rfl | rfl <;> exact headNot_cons.2 (by decide)
  obtain ⟨sp, cm, rfl, h1, h2⟩ := h
  cases sp with
  | cons c sp =>
    rcases h1 c List.mem_cons_self with rfl | rfl <;> exact headNot_cons.2 (by decide)
  | nil =>
    rcases h2 with rfl | ⟨w, hw, body, rfl, _⟩
    · exact he
    · simp only [List.mem_cons, List.not_mem_nil, or_false] at hw
      rcases hw with rfl | rfl
      · exact headNot_cons.2 (by decide)
      · exact absurd rfl hs

/-- The three numbers of a colour. -/
theorem blk_rgb {r g3 g4 g g5 g6 b tail rest : Str} (h1 : IsDigits r) (h2 : AreBlanks g3) (h3 : AreBlanks g4) (h4 : IsDigits g)
    (h5 : AreBlanks g5) (h6 : AreBlanks g6) (h7 : IsDigits b) (h8 : IsTail tail) (hr : AtLineEnd rest) :
    ∃ s, Blk skip K Peg.TopskySettings.colour_setting_rgb (r ++ (g3 ++ (',' :: (g4 ++ (g ++ (g5 ++ (',' :: (g6 ++ (b ++ tail))))))))) rest
      [.node .colour_setting_rgb s [.node .number r [], .node .number g [], .node .number b []]] := by
  have b1 : Blk skip K Peg.TopskySettings.number (r ++ g3) (',' :: (g4 ++ (g ++ (g5 ++ (',' :: (g6 ++ (b ++ tail)))))) ++ rest) [.node .number r []] :=
    blk_number h1 h2 (headNot_cons.2 (by decide)) comma_pl
  have b2 : Blk (R := Rule) skip K (.str c!",") (',' :: g4) ((g ++ (g5 ++ (',' :: (g6 ++ (b ++ tail))))) ++ rest) [] :=
    blk_char h3 (by rw [List.append_assoc]; exact digit_pl h4)
  have b3 : Blk skip K Peg.TopskySettings.number (g ++ g5) (',' :: (g6 ++ (b ++ tail)) ++ rest) [.node .number g []] :=
    blk_number h4 h5 (headNot_cons.2 (by decide)) comma_pl
  have b4 : Blk (R := Rule) skip K (.str c!",") (',' :: g6) ((b ++ tail) ++ rest) [] :=
    blk_char h6 (by rw [List.append_assoc]; exact digit_pl h7)
  have b5 : Blk skip K Peg.TopskySettings.number (b ++ tail) rest [.node .number b []] :=
    blk_gap (out_number h7 (tail_digits h8 hr)) (k_tail h8 hr)
  have c4 := blk_seq b4 b5
  have c3 := blk_seq (t2 := ',' :: g6 ++ (b ++ tail)) (by simpa using b3) c4
  have c2 := blk_seq (t2 := g ++ g5 ++ (',' :: g6 ++ (b ++ tail))) (by simpa using b2) c3
  have c1 := blk_seq (t2 := ',' :: g4 ++ (g ++ g5 ++ (',' :: g6 ++ (b ++ tail)))) (by simpa using b1) c2
  obtain ⟨s, hs⟩ := blk_rule (q := Rule.colour_setting_rgb) c1
  exact ⟨s, by simpa [Peg.TopskySettings.colour_setting_rgb] using hs⟩

theorem parseU8_digits {s : Str} (h : IsDigits s) : parseU8 s = byte s := by
  unfold parseU8 byte
  rw [parseUnsigned_digits h]
  by_cases hb : digitsValue s < 256
  · simp [hb]
  · simp [hb]

theorem prefix_name {n X : Str} (hX : HeadNot isNameChar X) (h : prefix_ <+: n ++ X) : prefix_ <+: n := by
  rcases List.prefix_or_prefix_of_prefix h (List.prefix_append n X) with h' | ⟨t, ht⟩
  · exact h'
  · cases t with
    | nil => rw [List.append_nil] at ht; rw [ht]; exact List.prefix_refl _
    | cons d t =>
      exfalso
      rw [← ht, List.prefix_append_right_inj] at h
      obtain ⟨u, rfl⟩ := h
      have hd := headNot_cons.1 hX
      have : d ∈ prefix_ := by rw [← ht]; simp
      have key : ∀ x ∈ prefix_, isNameChar x = true := by decide
      rw [key d this] at hd
      cases hd

theorem tail_newline {s : Str} (h : IsTail s) : ∀ c ∈ s, ¬ IsNewline c := by
  obtain ⟨sp, cm, rfl, h1, h2⟩ := h
  intro c hc
  rcases List.mem_append.1 hc with hc | hc
  · rcases h1 c hc with rfl | rfl <;> decide
  · rcases h2 with rfl | ⟨w, hw, body, rfl, hb⟩
    · cases hc
    · rcases List.mem_append.1 hc with hc | hc
      · have key : ∀ w ∈ marks, ∀ c ∈ w, ¬ IsNewline c := by decide
        exact key w hw c hc
      · exact hb c hc

/-- A setting with an ordinary name is no colour. -/
theorem fails_colour {n g t r : Str} (hn : IsName n) (h : NoColour n) (hg : AreBlanks g) (ht : ∀ c ∈ t, ¬ IsNewline c) (hr : AtLineEnd r) :
    Fails skip Peg.TopskySettings.colour_setting .nonAtomic (n ++ (g ++ '=' :: (t ++ r))) := by
  refine fails_rule ?_
  by_cases hp : prefix_ <+: n
  · rcases h hp with rfl | ⟨u, rfl⟩
    · have b : Blk (R := Rule) skip K (.str prefix_) (prefix_ ++ g) ('=' :: (t ++ r)) [] := blk_gap out_str0 (k_blanks hg eq_pl)
      have := fails_seq_right (y := Peg.TopskySettings.name ⬝ (.opt ((.str c!"=") ⬝ Peg.TopskySettings.colour_setting_rgb)))
        lineSkip.uniform lineSkip.exact rfl rfl (uniform_eval lineSkip.uniform _ rfl _) b (fails_seq_left (fails_name eq_head))
      rw [List.append_assoc] at this
      exact this
    · have hc : IsTail (c!"//" ++ (u ++ (g ++ '=' :: t))) := by
        refine ⟨[], _, rfl, by simp [AreBlanks], Or.inr ⟨c!"//", by decide, _, rfl, ?_⟩⟩
        intro c hc
        simp only [List.mem_append, List.mem_cons] at hc
        rcases hc with hc | hc | rfl | hc
        · exact not_newline_iff.1 (nameChar_line (hn.2.1 c (by simp [hc]))).2.2
        · rcases hg c hc with rfl | rfl <;> decide
        · decide
        · exact ht c hc
      have b : Blk (R := Rule) skip K (.str prefix_) (prefix_ ++ (c!"//" ++ (u ++ (g ++ '=' :: t)))) r [] := blk_gap out_str0 (k_tail hc hr)
      have he : HeadNot isNameChar r := by
        cases r with
        | nil => exact headNot_nil _
        | cons c t =>
          have := headNot_cons.1 hr
          simp only [Bool.not_eq_false'] at this
          rcases newline_iff.1 this with rfl | rfl <;> exact headNot_cons.2 (by decide)
      have := fails_seq_right (y := Peg.TopskySettings.name ⬝ (.opt ((.str c!"=") ⬝ Peg.TopskySettings.colour_setting_rgb)))
        lineSkip.uniform lineSkip.exact rfl rfl (uniform_eval lineSkip.uniform _ rfl _) b (fails_seq_left (fails_name he))
      simpa using this
  · exact fails_seq_left (fails_str.2 fun h' => hp (prefix_name (headNot_blanks (by decide) hg eq_head) h'))

theorem line_blk {e : Entry} {line r : Str} (h : IsLine e line) (hr : AtLineEnd r) :
    ∃ t, Pb skip K Peg.TopskySettings.setting line r [t] ∧ parseSetting t = .ok (meaning e) := by
  cases h with
  | setting n g1 g2 v tail h1 h2 h3 h4 h5 h6 h7 =>
    have b1 : Blk skip K Peg.TopskySettings.name (n ++ g1) ('=' :: (g2 ++ (v ++ tail)) ++ r) [.node .name n []] :=
      blk_name h1 h3 eq_head eq_pl
    obtain ⟨s, b⟩ := blk_rule (q := Rule.other_setting) (blk_seq b1 (blk_value h4 h5 h6 h7 hr))
    rw [List.append_assoc] at b
    refine ⟨_, ⟨blk_alt_right ?_ b, ?_⟩, rfl⟩
    · have := fails_colour (n := n) (g := g1) (t := g2 ++ (v ++ tail)) (r := r) h1 h2 h3 (by
        intro c hc
        rcases List.mem_append.1 hc with hc | hc
        · rcases h4 c hc with rfl | rfl <;> decide
        · rcases List.mem_append.1 hc with hc | hc
          · exact h5.1 c hc
          · exact tail_newline h6 c hc) hr
      simpa using this
    · refine k_nil ?_
      rw [List.append_assoc]
      refine pl_name h1 ?_
      rw [List.append_assoc]
      exact headNot_blanks (by decide) h3 eq_head
  | colour g0 n g1 g2 cr g3 g4 cg g5 g6 cb tail h0 h1 h2 h3 h4 h5 h6 h7 h8 h9 h10 h11 =>
    obtain ⟨s, b4⟩ := blk_rgb h4 h5 h6 h7 h8 h9 h10 h11 hr
    have b3 : Blk (R := Rule) skip K (.str c!"=") ('=' :: g2) ((cr ++ (g3 ++ (',' :: (g4 ++ (cg ++ (g5 ++ (',' :: (g6 ++ (cb ++ tail))))))))) ++ r) [] :=
      blk_char h3 (by rw [List.append_assoc]; exact digit_pl h4)
    have c3 := blk_opt_some (blk_seq b3 b4)
    have b2 : Blk skip K Peg.TopskySettings.name (n ++ g1) (('=' :: g2 ++ (cr ++ (g3 ++ (',' :: (g4 ++ (cg ++ (g5 ++ (',' :: (g6 ++ (cb ++ tail)))))))))) ++ r) [.node .name n []] :=
      blk_name h1 h2 eq_head eq_pl
    have c2 := blk_seq b2 c3
    have b1 : Blk (R := Rule) skip K (.str prefix_) (prefix_ ++ g0) ((n ++ g1 ++ ('=' :: g2 ++ (cr ++ (g3 ++ (',' :: (g4 ++ (cg ++ (g5 ++ (',' :: (g6 ++ (cb ++ tail))))))))))) ++ r) [] := by
      refine blk_gap out_str0 (k_blanks h0 ?_)
      simp only [List.append_assoc]
      exact pl_name h1 (headNot_blanks (by decide) h2 eq_head)
    obtain ⟨s2, b⟩ := blk_rule (q := Rule.colour_setting) (blk_seq b1 c2)
    refine ⟨_, ⟨blk_alt_left (y := Peg.TopskySettings.other_setting) (by simpa [Peg.TopskySettings.colour_setting] using b), k_nil (pl_cons (by decide))⟩, ?_⟩
    simp only [parseSetting, Tree.asRule, Tree.inner, Tree.asStr, next_cons, run_ok_bind, parseColour,
      parseU8_digits h4, parseU8_digits h7, parseU8_digits h10, meaning, colourOf, if_true]
    cases byte cr with
    | none => rfl
    | some x =>
      cases byte cg with
      | none => rfl
      | some y => cases byte cb <;> rfl
  | bare g0 n tail h0 h1 h2 h3 =>
    have hn := tail_name h2 h3 hr
    have b2 : Blk skip K Peg.TopskySettings.name (n ++ tail) ([] ++ r) [.node .name n []] :=
      blk_gap (out_name h1 hn) (k_tail h2 hr)
    have b3 : Blk skip K (.opt ((.str c!"=") ⬝ Peg.TopskySettings.colour_setting_rgb)) [] r [] := by
      refine blk_opt_none (fails_seq_left (fails_str.2 ?_)) (k_nil (pl_end hr))
      rintro ⟨t, rfl⟩
      exact absurd (headNot_cons.1 hr) (by decide)
    have b1 : Blk (R := Rule) skip K (.str prefix_) (prefix_ ++ g0) ((n ++ tail ++ []) ++ r) [] := by
      refine blk_gap out_str0 (k_blanks h0 ?_)
      simp only [List.append_assoc]
      exact pl_name h1 hn
    obtain ⟨s2, b⟩ := blk_rule (q := Rule.colour_setting) (blk_seq b1 (blk_seq b2 b3))
    exact ⟨_, ⟨blk_alt_left (y := Peg.TopskySettings.other_setting) (by simpa [Peg.TopskySettings.colour_setting] using b), k_nil (pl_cons (by decide))⟩, rfl⟩

end Verif.Proofs.TopskySettings
