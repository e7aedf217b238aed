import Verif.Proofs.SctPanic
/-!
# Building the tokens of .sct files
-/

namespace Verif.Proofs.Sct
open Verif.Proofs Verif.Peg Verif.Spec Verif.Spec.Sct Verif.Dms Verif.Parse
open Verif.Spec.Ese (DmsText Fits number)
open Verif.Peg.Sct (Rule skip)

set_option linter.unusedSectionVars false

/-! ## What follows a token -/

/-- A blank, a line end or a comment. -/
def isStop (c : Char) : Bool := isBlank c || (isNewlineChar c || (c == ';' || c == '/'))

/-- A blank, the end of the line or a comment follows. -/
def Stop (r : Str) : Prop := HeadNot (fun c => !isStop c) r

/-- A blank follows. -/
def GapHead (r : Str) : Prop := ∃ c t, r = c :: t ∧ isBlank c = true

theorem isStop_mem {c : Char} (h : isStop c = true) : c ∈ [' ', '\t', '﻿', '\n', '\r', ';', '/'] := by
  simp only [isStop, isBlank, isNewlineChar, Bool.or_eq_true, beq_iff_eq, decide_eq_true_eq] at h
  simp only [List.mem_cons, List.not_mem_nil, or_false]
  rcases h with (h | h | h) | (h | h) | h | h <;> simp [h]

theorem stop_not {p : Char → Bool} (h : ∀ c ∈ [' ', '\t', '﻿', '\n', '\r', ';', '/'], p c = false) {r : Str} (hr : Stop r) :
    HeadNot p r := fun c hc => by
  have := hr c hc
  simp only [Bool.not_eq_false'] at this
  exact h c (isStop_mem this)

theorem gap_head {g r : Str} (h : IsGap g) : GapHead (g ++ r) := by
  cases g with
  | nil => exact absurd rfl h.1
  | cons c g => exact ⟨c, g ++ r, rfl, blank_iff'.2 (h.2 c List.mem_cons_self)⟩

theorem stop_gapHead {r : Str} (h : GapHead r) : Stop r := by
  obtain ⟨c, t, rfl, hc⟩ := h
  exact headNot_cons.2 (by simp [isStop, hc])

theorem stop_gap {g r : Str} (h : IsGap g) : Stop (g ++ r) := stop_gapHead (gap_head h)

theorem stop_lineEnd {r : Str} (h : AtLineEnd r) : Stop r := fun c hc => by
  have := h c hc
  simp only [Bool.not_eq_false'] at this
  simp [isStop, this]

theorem stop_tail {t r : Str} (h : IsTail t) (hr : AtLineEnd r) : Stop (t ++ r) := by
  obtain ⟨sp, cm, rfl, h1, h2⟩ := h
  cases sp with
  | cons c sp => exact headNot_cons.2 (by simp [isStop, blank_iff'.2 (h1 c List.mem_cons_self)])
  | nil =>
    rcases h2 with rfl | ⟨w, hw, body, rfl, _⟩
    · exact stop_lineEnd (by simpa using hr)
    · simp only [List.mem_cons, List.not_mem_nil, or_false] at hw
      rcases hw with rfl | rfl <;> exact headNot_cons.2 (by decide)

abbrev Pl := Plain isBlank commentMarks

theorem k_plain {r : Str} (h : Pl r) : K [] r := lineSkip.nil h

theorem plain_k {m r : Str} (h : K m r) : Pl r := lineSkip.plain h

theorem k_end {r : Str} (h : AtLineEnd r) : K [] r := k_plain (plain_lineEnd apart h)

theorem k_gap {g r : Str} (h : AreBlanks g) (hr : K [] r) : K g r :=
  lineSkip.spaces (fun c hc => blank_iff'.2 (h c hc)) (plain_k hr)

theorem k_start {r : Str} (h : Start r) : K [] r := k_plain h.1

theorem commentText_of {cm : Str} (h : ∃ w ∈ Spec.Sct.marks, ∃ body, cm = w ++ body ∧ ∀ c ∈ body, ¬ IsNewline c) :
    CommentText commentMarks cm := by
  obtain ⟨w, hw, body, e, hb⟩ := h
  exact ⟨w, hw, body, e, fun c hc => not_newline_iff.2 (hb c hc)⟩

theorem k_tail {t r : Str} (h : IsTail t) (hr : AtLineEnd r) : K t r := by
  obtain ⟨sp, cm, rfl, h1, h2⟩ := h
  refine (lineSkip.iff _ _).2 ⟨sp, cm, rfl, fun c hc => blank_iff'.2 (h1 c hc), ?_⟩
  rcases h2 with rfl | h2
  · exact Or.inl ⟨rfl, plain_lineEnd apart hr⟩
  · exact Or.inr ⟨commentText_of h2, hr⟩

theorem tail_nil : IsTail [] := ⟨[], [], rfl, by simp [AreBlanks], Or.inl rfl⟩

theorem tail_blanks {sp : Str} (h : ∀ c ∈ sp, IsBlankChar c) : IsTail sp :=
  ⟨sp, [], by simp, fun c hc => Or.inl (h c hc), Or.inl rfl⟩

theorem areBlanks_of {sp : Str} (h : ∀ c ∈ sp, IsBlankChar c) : AreBlanks sp := fun c hc => Or.inl (h c hc)

/-- Neither a blank nor the start of a comment nor a line end. -/
def Head (c : Char) : Prop := isStop c = false

instance (c : Char) : Decidable (Head c) := inferInstanceAs (Decidable (_ = _))

theorem head_parts {c : Char} (h : Head c) : isBlank c = false ∧ isNewlineChar c = false ∧ c ≠ ';' ∧ c ≠ '/' := by
  simpa [Head, isStop] using h

theorem plain_cons {c : Char} {t : Str} (h : Head c) : Pl (c :: t) := by
  have h := head_parts h
  refine ⟨headNot_cons.2 h.1, ?_⟩
  rintro ⟨w, hw, hp⟩
  simp only [commentMarks, List.mem_cons, List.not_mem_nil, or_false] at hw
  rcases hw with rfl | rfl <;> rw [List.cons_prefix_cons] at hp
  · exact h.2.2.1 hp.1.symm
  · exact h.2.2.2 hp.1.symm

theorem k_cons {c : Char} {t : Str} (h : Head c) : K [] (c :: t) := k_plain (plain_cons h)

theorem start_cons {c : Char} {t : Str} (h : Head c) : Start (c :: t) := ⟨plain_cons h, headNot_cons.2 (head_parts h).2.1⟩

theorem plain_nil : Pl [] := plain_lineEnd apart (headNot_nil _)

theorem start_nil : Start [] := ⟨plain_nil, headNot_nil _⟩

theorem isStart_plain {s r : Str} (h : IsStart s) (hne : s ≠ []) (hr : ∀ t, s = ['/'] → r ≠ '/' :: t) : Pl (s ++ r) := by
  obtain ⟨h1, h2⟩ := h
  cases s with
  | nil => exact absurd rfl hne
  | cons c t =>
    refine ⟨headNot_cons.2 ?_, ?_⟩
    · cases hb : isBlank c with
      | false => rfl
      | true => exact absurd (blank_iff'.1 hb) (h1 c rfl)
    · rintro ⟨w, hw, hp⟩
      have hw' := hw
      simp only [commentMarks, List.mem_cons, List.not_mem_nil, or_false] at hw
      rcases hw with rfl | rfl
      · rw [List.cons_append, List.cons_prefix_cons] at hp
        refine h2 _ hw' ?_
        rw [hp.1, List.cons_prefix_cons]
        exact ⟨rfl, List.nil_prefix⟩
      · rw [List.cons_append, List.cons_prefix_cons] at hp
        obtain ⟨rfl, hp⟩ := hp
        cases t with
        | nil =>
          obtain ⟨u, hu⟩ := hp
          exact hr u rfl hu.symm
        | cons d t =>
          rw [List.cons_append, List.cons_prefix_cons] at hp
          refine h2 _ hw' ?_
          rw [List.cons_prefix_cons, List.cons_prefix_cons]
          exact ⟨rfl, hp.1, List.nil_prefix⟩

/-! ## Putting tokens together -/

section
variable {C : Str → Prop} {x y : Expr Rule} {v g t r tl : Str} {u u1 u2 : List (Tree Rule)}

theorem pb_gap (h : S C x v u) (hg : AreBlanks g) (hc : C (g ++ r)) (hk : K [] r) : P x (v ++ g) r u :=
  ⟨blk_gap (h _ hc).1 (k_gap hg hk), by rw [List.append_assoc]; exact (h _ hc).2⟩

/-- A token, blanks and more. -/
theorem pb_then (h : S C x v u1) (hg : AreBlanks g) (hc : C (g ++ (t ++ r))) (h2 : P y t r u2) :
    P (x ⬝ y) (v ++ (g ++ t)) r (u1 ++ u2) := by
  rw [← List.append_assoc]
  exact pb_seq (pb_gap h hg hc h2.2) h2.1

theorem pb_thenStop (h : S Stop x v u1) (hg : IsGap g) (h2 : P y t r u2) : P (x ⬝ y) (v ++ (g ++ t)) r (u1 ++ u2) :=
  pb_then h hg.2 (stop_gap hg) h2

/-- The last token of a line. -/
theorem pb_tail (h : S Stop x v u) (ht : IsTail tl) (hr : AtLineEnd r) : P x (v ++ tl) r u :=
  ⟨blk_gap (h _ (stop_tail ht hr)).1 (k_tail ht hr), by rw [List.append_assoc]; exact (h _ (stop_tail ht hr)).2⟩

theorem seg_str {c : Char} {w : Str} (h : Head c) : S C (.str (c :: w)) (c :: w) [] := fun _ _ => ⟨out_str0, k_cons h⟩

theorem seg_atomic {q : Rule} (h : ∀ r, C r → Out skip K x .atomic v r []) (hk : ∀ r, C r → K [] (v ++ r)) :
    S C (.rule q .atomic x) v [.node q v []] := fun r hr => ⟨out_rule_atomic (h r hr), hk r hr⟩
end

/-! ## Characters -/

theorem hu (a : Atom) (e : Expr Rule) (h : plain e = true) : Uniform (eval skip e a) := uniform_eval lineSkip.uniform e h _

def isDesChar (c : Char) : Bool := isAsciiUpper c || isAsciiDigit c

theorem like_des (a : Atom) : LikeCls skip K ((.cls isAsciiUpper) ∥ (.cls isAsciiDigit)) a isDesChar :=
  (likeCls_cls _ a).alt (likeCls_cls _ a) (hu a _ rfl)

theorem des_iff {v : Str} : IsDesignator v ↔ v ≠ [] ∧ ∀ c ∈ v, isDesChar c = true := by
  simp [IsDesignator, isDesChar]

theorem head_of {p : Char → Bool} (h : ∀ c ∈ [' ', '\t', '﻿', '\n', '\r', ';', '/'], p c = false) {c : Char} (hc : p c = true) : Head c := by
  cases hs : isStop c with
  | false => exact hs
  | true => rw [h c (isStop_mem hs)] at hc; cases hc

theorem des_head {v : Str} (h : IsDesignator v) : ∃ c t, v = c :: t ∧ isDesChar c = true := by
  rw [des_iff] at h
  cases v with
  | nil => exact absurd rfl h.1
  | cons c t => exact ⟨c, t, rfl, h.2 c List.mem_cons_self⟩

theorem k_des {v r : Str} (h : IsDesignator v) : K [] (v ++ r) := by
  obtain ⟨c, t, rfl, hc⟩ := des_head h
  exact k_cons (head_of (by decide) hc)

theorem out_des_build {a : Atom} (ha : a ≠ .nonAtomic) {v r : Str} (h : IsDesignator v) (hr : HeadNot isDesChar r) :
    Out skip K (.plus ((.cls isAsciiUpper) ∥ (.cls isAsciiDigit))) a v r [] :=
  ((like_des a).plus ha).2 ⟨(des_iff.1 h).1, (des_iff.1 h).2, hr, rfl⟩

theorem seg_des {v : Str} (h : IsDesignator v) : S (HeadNot isDesChar) Peg.Sct.designator v [.node .designator v []] :=
  seg_atomic (fun _ hr => out_des_build (by decide) h hr) fun _ _ => k_des h

theorem desEnd_stop {r : Str} (h : Stop r) : HeadNot isDesChar r := stop_not (by decide) h

theorem seg_designator {v : Str} (h : IsDesignator v) : S Stop Peg.Sct.designator v [.node .designator v []] :=
  seg_mono (seg_des h) fun _ => desEnd_stop

theorem fails_des {r : Str} (h : HeadNot isDesChar r) : Fails skip Peg.Sct.designator .nonAtomic r :=
  fails_rule (fails_plus (((like_des .atomic).fails _).2 h))

def isColourChar (c : Char) : Bool := isAsciiAlphanumeric c || (c == '-' || c == '_')

theorem like_colour (a : Atom) : LikeCls skip K ((.cls isAsciiAlphanumeric) ∥ (.str c!"-") ∥ (.str c!"_")) a isColourChar :=
  (likeCls_cls _ a).alt ((likeCls_char '-' a).alt (likeCls_char '_' a) (hu a _ rfl)) (hu a _ rfl)

theorem colour_iff {v : Str} : IsColourName v ↔ v ≠ [] ∧ ∀ c ∈ v, isColourChar c = true := by
  simp [IsColourName, isColourChar]

theorem colour_head {v : Str} (h : IsColourName v) : ∃ c t, v = c :: t ∧ isColourChar c = true := by
  rw [colour_iff] at h
  cases v with
  | nil => exact absurd rfl h.1
  | cons c t => exact ⟨c, t, rfl, h.2 c List.mem_cons_self⟩

theorem k_colour {v r : Str} (h : IsColourName v) : K [] (v ++ r) := by
  obtain ⟨c, t, rfl, hc⟩ := colour_head h
  exact k_cons (head_of (by decide) hc)

theorem seg_colourName {v : Str} (h : IsColourName v) : S Stop Peg.Sct.colour_name v [.node .colour_name v []] :=
  seg_atomic (fun _ hr => ((like_colour .atomic).plus (by decide)).2 ⟨(colour_iff.1 h).1, (colour_iff.1 h).2, stop_not (by decide) hr, rfl⟩)
    fun _ _ => k_colour h

theorem fails_colourName {r : Str} (h : HeadNot isColourChar r) : Fails skip Peg.Sct.colour_name .nonAtomic r :=
  fails_rule (fails_plus (((like_colour .atomic).fails _).2 h))

def isCallChar (c : Char) : Bool := isAsciiAlphanumeric c || c == '_'

theorem seg_callsign {v : Str} (h : IsCallsign v) : S Stop Peg.Sct.sector_callsign v [.node .sector_callsign v []] := by
  have hl : LikeCls skip K ((.cls isAsciiAlphanumeric) ∥ (.str c!"_")) .atomic isCallChar :=
    (likeCls_cls _ _).alt (likeCls_char '_' _) (hu _ _ rfl)
  have hc : ∀ c ∈ v, isCallChar c = true := fun c hc => by simpa [isCallChar] using h.2 c hc
  refine seg_atomic (fun _ hr => (hl.plus (by decide)).2 ⟨h.1, hc, stop_not (by decide) hr, rfl⟩) fun _ _ => ?_
  cases v with
  | nil => exact absurd rfl h.1
  | cons c t => exact k_cons (head_of (by decide) (hc c List.mem_cons_self))

section
variable [UnicodeTables]

def isFixChar (c : Char) : Bool :=
  UnicodeTables.letter c || (isAsciiDigit c || (c == '!' || (c == '(' || (c == ')' || (c == '/' || (c == '-' || (c == '_' ||
    (c == '.' || (c == '[' || c == ']')))))))))

theorem letter_not {c : Char} (h1 : c.toNat < 128) (h2 : isAsciiUpper c = false) (h3 : isAsciiLower c = false) :
    UnicodeTables.letter c = false := by
  rw [UnicodeTables.letter_ascii c h1]
  simp [h2, h3]

theorem like_fix (a : Atom) : LikeCls skip K ((.cls UnicodeTables.letter) ∥ (.cls isAsciiDigit) ∥ (.str c!"!") ∥ (.str c!"(") ∥ (.str c!")") ∥ (.str c!"/") ∥
      (.str c!"-") ∥ (.str c!"_") ∥ (.str c!".") ∥ (.str c!"[") ∥ (.str c!"]")) a isFixChar :=
  (likeCls_cls _ _).alt ((likeCls_cls _ _).alt ((likeCls_char '!' _).alt ((likeCls_char '(' _).alt ((likeCls_char ')' _).alt
    ((likeCls_char '/' _).alt ((likeCls_char '-' _).alt ((likeCls_char '_' _).alt ((likeCls_char '.' _).alt ((likeCls_char '[' _).alt (likeCls_char ']' _)
    (hu _ _ rfl)) (hu _ _ rfl)) (hu _ _ rfl)) (hu _ _ rfl)) (hu _ _ rfl)) (hu _ _ rfl)) (hu _ _ rfl)) (hu _ _ rfl)) (hu _ _ rfl)) (hu _ _ rfl)

theorem fixName_iff {v : Str} : IsFixName v ↔ v ≠ [] ∧ ∀ c ∈ v, isFixChar c = true := by
  simp [IsFixName, isFixChar]

theorem fixChar_not {c : Char} (h : c ∈ [' ', '\t', '\n', '\r', ';', '#', '"']) : isFixChar c = false := by
  have h1 : UnicodeTables.letter c = false := by
    refine letter_not ?_ ?_ ?_ <;> revert c <;> decide
  have : (isAsciiDigit c || (c == '!' || (c == '(' || (c == ')' || (c == '/' || (c == '-' || (c == '_' ||
    (c == '.' || (c == '[' || c == ']'))))))))) = false := by
    clear h1
    revert c
    decide
  rw [isFixChar, h1, this]
  rfl

/-- No character of the name of a fix follows. -/
abbrev FixEnd : Str → Prop := HeadNot isFixChar

theorem fixEnd_gap {g r : Str} (h : IsPlainGap g) : FixEnd (g ++ r) := by
  cases g with
  | nil => exact absurd rfl h.1.1
  | cons c g => exact headNot_cons.2 (fixChar_not (by rcases h.2 c rfl with rfl | rfl <;> simp))

theorem seg_fix {v : Str} (h : IsFixName v) (hs : IsStart v) :
    S (fun r => FixEnd r ∧ GapHead r) Peg.Sct.fix_designator v [.node .fix_designator v []] := by
  rw [fixName_iff] at h
  refine seg_atomic (fun _ hr => ((like_fix .atomic).plus (by decide)).2 ⟨h.1, h.2, hr.1, rfl⟩) fun _ hr => ?_
  refine k_plain (isStart_plain hs h.1 fun t _ => ?_)
  rintro rfl
  obtain ⟨c, t, e, hc⟩ := hr.2
  cases e
  exact absurd hc (by decide)
end

/-! ## Numbers -/

theorem decimal_head {v : Str} (h : IsDecimal v) : ∃ c t, v = c :: t ∧ (isAsciiDigit c = true ∨ c ∈ c!"+-.") := by
  obtain ⟨sg, ds, fs, rfl, h1, h2, h3⟩ := h
  rcases h1 with rfl | rfl | rfl
  · cases ds with
    | cons c t => exact ⟨c, t ++ fs, rfl, Or.inl (h2 c List.mem_cons_self)⟩
    | nil =>
      rcases h3 with ⟨_, h⟩ | ⟨d, rfl, _⟩
      · exact absurd rfl h
      · exact ⟨'.', d, rfl, Or.inr (by simp)⟩
  · exact ⟨'-', ds ++ fs, rfl, Or.inr (by simp)⟩
  · exact ⟨'+', ds ++ fs, rfl, Or.inr (by simp)⟩

def isNumChar (c : Char) : Bool := isAsciiDigit c || decide (c ∈ c!"+-.")

theorem decimal_head' {v : Str} (h : IsDecimal v) : ∃ c t, v = c :: t ∧ isNumChar c = true := by
  obtain ⟨c, t, e, hc⟩ := decimal_head h
  exact ⟨c, t, e, by simpa [isNumChar] using hc⟩

theorem k_decimal {v r : Str} (h : IsDecimal v) : K [] (v ++ r) := by
  obtain ⟨c, t, rfl, hc⟩ := decimal_head' h
  exact k_cons (head_of (by decide) hc)

theorem numEnd_stop {r : Str} (h : Stop r) : NumEnd r := stop_not (by decide) h

theorem seg_decimal {v : Str} (h : IsDecimal v) : S Stop Peg.Sct.decimal v [.node .decimal v []] :=
  seg_atomic (fun _ hr => out_decimal_build lineSkip.ok lineSkip.uniform (by decide) h (numEnd_stop hr)) fun _ _ => k_decimal h

theorem seg_frequency {v : Str} (h : IsDecimal v) : S Stop Peg.Sct.frequency v [.node .frequency v []] :=
  seg_atomic (fun _ hr => ⟨[], out_decimal_build lineSkip.ok lineSkip.uniform (by decide) h (numEnd_stop hr), rfl⟩) fun _ _ => k_decimal h

theorem fails_decimal {r : Str} (h : HeadNot isNumChar r) : Fails skip Peg.Sct.decimal .nonAtomic r := by
  refine fails_rule (fails_of_not_out lineSkip.ok (by rfl) ?_)
  rintro s r' ts rfl ho
  obtain ⟨c, t, rfl, hc⟩ := decimal_head' (out_decimal (by decide) ho).2
  rw [headNot_cons.1 h] at hc
  cases hc

theorem fails_frequency {r : Str} (h : HeadNot isNumChar r ∨ ∃ t, r = '.' :: t ∧ HeadNot isAsciiDigit t) :
    Fails skip Peg.Sct.frequency .nonAtomic r := by
  refine fails_rule (fails_of_not_out lineSkip.ok (by rfl) ?_)
  rintro s r' ts rfl ho
  obtain ⟨kids, ho, _⟩ := ho
  have hd := (out_decimal (by decide) ho).2
  rcases h with h | ⟨t, e, ht⟩
  · obtain ⟨c, t, rfl, hc⟩ := decimal_head' hd
    rw [headNot_cons.1 h] at hc
    cases hc
  · obtain ⟨sg, ds, fs, rfl, h1, h2, h3⟩ := hd
    rcases h1 with rfl | rfl | rfl
    · cases ds with
      | cons c ds =>
        cases e
        exact absurd (h2 '.' List.mem_cons_self) (by decide)
      | nil =>
        rcases h3 with ⟨_, h⟩ | ⟨d, rfl, hd⟩
        · exact h rfl
        · cases e
          cases d with
          | nil => exact hd.1 rfl
          | cons c d =>
            have := headNot_cons.1 ht
            rw [hd.2 c List.mem_cons_self] at this
            cases this
    · cases e
    · cases e

theorem seg_posInteger {v : Str} (h : IsPosInteger v) : S Stop Peg.Sct.pos_integer v [.node .pos_integer v []] := by
  obtain ⟨hi, hm⟩ := h
  refine seg_atomic (fun r hr => ?_) fun _ _ => k_decimal hi.isDecimal
  obtain ⟨sg, ds, rfl, h1, h2⟩ := hi
  refine (out_seq_atomic (by decide)).2 ⟨sg, ds, [], [], rfl, rfl, ?_, out_digits_build (by decide) h2 (numEnd_stop hr).digit⟩
  rcases h1 with rfl | rfl | rfl
  · refine Or.inr ⟨rfl, rfl, fails_str.2 ?_⟩
    rintro ⟨t, ht⟩
    exact (digits_no_sign (r := r) h2).2 (by rw [← ht]; rfl)
  · exact absurd rfl hm
  · exact Or.inl out_str0

theorem out_suffix {a : Atom} {t r : Str} (ht : t = [] ∧ HeadNot (fun c => c ∈ c!"LCRG") r ∨ ∃ c ∈ c!"LCRG", t = [c]) :
    Out skip K (.opt ((.str c!"L") ∥ (.str c!"C") ∥ (.str c!"R") ∥ (.str c!"G"))) a t r [] := by
  have hl : LikeCls skip K ((.str c!"L") ∥ (.str c!"C") ∥ (.str c!"R") ∥ (.str c!"G")) a _ :=
    (likeCls_char 'L' _).alt ((likeCls_char 'C' _).alt ((likeCls_char 'R' _).alt (likeCls_char 'G' _) (hu _ _ rfl)) (hu _ _ rfl)) (hu _ _ rfl)
  rcases ht with ⟨rfl, h⟩ | ⟨c, hc, rfl⟩
  · refine Or.inr ⟨rfl, rfl, (hl.fails _).2 ?_⟩
    intro c hc
    have := h c hc
    simpa using this
  · refine Or.inl ((hl.out _ _ _).2 ⟨c, rfl, ?_, rfl⟩)
    simpa using hc

theorem digit_char_head {c : Char} (h : isAsciiDigit c = true) : Head c := head_of (p := isAsciiDigit) (by decide) h

theorem seg_runway {v : Str} (h : Spec.Sct.IsRunway v) : S Stop Peg.Sct.runway_designator v [.node .runway_designator v []] := by
  refine seg_atomic (fun r hr => ?_) fun r _ => ?_
  · obtain ⟨x, y, t, rfl, hx, hy, ht⟩ := h
    refine (out_seq_atomic (by decide)).2 ⟨[x, y], t, [], [], rfl, rfl, ?_, out_suffix ?_⟩
    · exact (out_seq_atomic (by decide)).2 ⟨[x], [y], [], [], rfl, rfl, ⟨x, rfl, hx, rfl⟩, ⟨y, rfl, hy, rfl⟩⟩
    · rcases ht with rfl | h
      · exact Or.inl ⟨rfl, stop_not (by decide) hr⟩
      · exact Or.inr h
  · obtain ⟨x, y, t, rfl, hx, _⟩ := h
    exact k_cons (digit_char_head hx)

/-! ## Coordinates -/

theorem hemi_head {c : Char} (h : c ∈ c!"NSWEnswe") : Head c := by
  revert c
  decide

theorem seg_dms' {a : Atom} {d : DmsText} {r : Str} (h : d.Valid) (hr : Stop r) : Out skip K Peg.Sct.sct_coord_part a d.text r [dmsTree d] := by
  obtain ⟨h1, h2, h3, h4⟩ := h
  have dot : ∀ r, HeadNot isAsciiDigit ('.' :: r) := fun r => headNot_cons.2 (by decide)
  refine ⟨[.node .hemi [d.hemi] [], .node .deg d.deg [], .node .min d.min [], .node .sec d.sec []], ?_, by cases a <;> rfl⟩
  show Out skip K _ .compound _ _ _
  have b5 : Out skip K Peg.Sct.sec .compound d.sec r [.node .sec d.sec []] :=
    ⟨[], ⟨[], out_decimal_build lineSkip.ok lineSkip.uniform (by decide) h4 (numEnd_stop hr), rfl⟩, rfl⟩
  have b3 : ∀ r, Out skip K Peg.Sct.min .compound d.min ('.' :: r) [.node .min d.min []] := fun r =>
    ⟨[], out_digits_build (by decide) h3 (dot _), rfl⟩
  have b2 : ∀ r, Out skip K Peg.Sct.deg .compound d.deg ('.' :: r) [.node .deg d.deg []] := fun r =>
    ⟨[], out_digits_build (by decide) h2 (dot _), rfl⟩
  have b1 : ∀ r, Out skip K Peg.Sct.hemi .compound [d.hemi] r [.node .hemi [d.hemi] []] := fun r =>
    ⟨[], out_hemi_build lineSkip.uniform h1, rfl⟩
  have b0 : ∀ r, Out skip K (.str c!".") .compound ['.'] r ([] : List (Tree Rule)) := fun r => out_str0
  have sq : ∀ {x y : Expr Rule} {s1 s2 r : Str} {u1 u2 : List (Tree Rule)}, Out skip K x .compound s1 (s2 ++ r) u1 →
      Out skip K y .compound s2 r u2 → Out skip K (x ⬝ y) .compound (s1 ++ s2) r (u1 ++ u2) := fun a b =>
    (out_seq_atomic (by decide)).2 ⟨_, _, _, _, rfl, rfl, a, b⟩
  have c5 := sq (b0 _) b5
  have c4 := sq (s2 := '.' :: d.sec) (r := r) (b3 _) c5
  have c3 := sq (b0 _) c4
  have c2 := sq (s2 := '.' :: (d.min ++ '.' :: d.sec)) (r := r) (b2 _) c3
  exact sq (b1 _) c2

theorem dms_head {d : DmsText} (h : d.Valid) : ∃ c t, d.text = c :: t ∧ c ∈ c!"NSWEnswe" := ⟨_, _, rfl, h.1⟩

theorem seg_dms {d : DmsText} (h : d.Valid) : S Stop Peg.Sct.sct_coord_part d.text [dmsTree d] := fun _ hr =>
  ⟨seg_dms' h hr, k_cons (hemi_head h.1)⟩

theorem out_gap {a : Atom} (ha : a ≠ .nonAtomic) {g r : Str} (h : IsGap g) (hr : HeadNot isBlank r) :
    Out skip K (.plus Peg.Sct.WHITESPACE) a g r [] :=
  ((likeWs lineSkip.uniform a).plus ha).2 ⟨h.1, fun c hc => blank_iff'.2 (h.2 c hc), hr, rfl⟩

def coordTree (c : CoordText) : Tree Rule := .node .sct_coordinate c.text [dmsTree c.lat, dmsTree c.lng]

theorem out_coord_build {a : Atom} {c : CoordText} {r : Str} (h : c.Valid) (hr : Stop r) :
    Out skip K Peg.Sct.sct_coordinate a c.text r [coordTree c] := by
  obtain ⟨h1, h2, h3⟩ := h
  refine ⟨[dmsTree c.lat, dmsTree c.lng], ?_, by cases a <;> rfl⟩
  show Out skip K _ .compound _ _ _
  refine (out_seq_atomic (by decide)).2 ⟨c.lat.text, c.gap ++ c.lng.text, [_], [_], rfl, rfl, ?_, ?_⟩
  · exact seg_dms' h1 (by rw [List.append_assoc]; exact stop_gap h2)
  · refine (out_seq_atomic (by decide)).2 ⟨c.gap, c.lng.text, [], [_], rfl, rfl, ?_, seg_dms' h3 hr⟩
    refine out_gap (by decide) h2 ?_
    exact headNot_cons.2 (head_parts (hemi_head h3.1)).1

theorem seg_coord {c : CoordText} (h : c.Valid) : S Stop Peg.Sct.sct_coordinate c.text [coordTree c] := fun _ hr =>
  ⟨out_coord_build h hr, k_cons (hemi_head h.1.1)⟩

theorem out_coordinate {a : Atom} {s r : Str} {ts : List (Tree Rule)} (h : Out skip K Peg.Sct.sct_coordinate a s r ts) :
    ∃ c : CoordText, c.Valid ∧ s = c.text ∧ ts = [coordTree c] := by
  obtain ⟨d, g, d', h1, h2, h3, e, e'⟩ := out_coord h
  exact ⟨⟨d, g, d'⟩, ⟨h1, h2, h3⟩, e, by rw [e', e]; rfl⟩

/-- A coordinate starts with a letter for a hemisphere. -/
theorem fails_coord {a : Atom} {r : Str} (h : HeadNot (fun c => decide (c ∈ c!"NSWEnswe")) r) : Fails skip Peg.Sct.sct_coordinate a r := by
  refine fails_of_not_out lineSkip.ok (by rfl) ?_
  rintro s r' ts rfl ho
  obtain ⟨c, hc, rfl, _⟩ := out_coordinate ho
  have := headNot_cons.1 h
  simp only [decide_eq_false_iff_not] at this
  exact this hc.1.1

/-! ## Locations -/

/-- The first character outside a class. -/
theorem first_outside {p : Char → Bool} {u v : Str} {c d : Char} {a b : Str} (hu : ∀ x ∈ u, p x = true) (hv : ∀ x ∈ v, p x = true)
    (hc : p c = false) (hd : p d = false) (e : u ++ c :: a = v ++ d :: b) : u = v ∧ c = d ∧ a = b := by
  rcases List.append_eq_append_iff.1 e with ⟨w, e1, e2⟩ | ⟨w, e1, e2⟩
  · cases w with
    | nil =>
      simp only [List.append_nil, List.nil_append] at e1 e2
      exact ⟨e1.symm, (List.cons.inj e2).1, (List.cons.inj e2).2⟩
    | cons x w =>
      have := (List.cons.inj e2).1
      subst this
      rw [hv c (by simp [e1])] at hc
      cases hc
  · cases w with
    | nil =>
      simp only [List.append_nil, List.nil_append] at e1 e2
      exact ⟨e1, (List.cons.inj e2).1.symm, (List.cons.inj e2).2.symm⟩
    | cons x w =>
      have := (List.cons.inj e2).1
      subst this
      rw [hu d (by simp [e1])] at hd
      cases hd

theorem fix_no_coord {a : Atom} {v r : Str} (h : IsDesignator v) (hr : GapHead r) : Fails skip Peg.Sct.sct_coordinate a (v ++ r) := by
  refine fails_of_not_out lineSkip.ok (by rfl) ?_
  intro s r' ts e ho
  obtain ⟨c, hc, rfl, _⟩ := out_coordinate ho
  obtain ⟨d, t, rfl, hd⟩ := hr
  have e' : v ++ d :: t = (c.lat.hemi :: c.lat.deg) ++ '.' :: ((c.lat.min ++ '.' :: c.lat.sec) ++ (c.gap ++ c.lng.text) ++ r') := by
    rw [e]; simp [CoordText.text, DmsText.text]
  have key := first_outside (p := isAsciiAlphanumeric) ?_ ?_ ?_ ?_ e'
  · rw [key.2.1] at hd
    exact absurd hd (by decide)
  · intro x hx
    rcases h.2 x hx with h | h <;> simp [isAsciiAlphanumeric, isAsciiAlpha, h]
  · intro x hx
    rcases List.mem_cons.1 hx with rfl | hx
    · have := hc.1.1
      revert this
      generalize c.lat.hemi = y
      revert y
      decide
    · simp [isAsciiAlphanumeric, hc.1.2.1.2 x hx]
  · rcases blank_iff'.1 hd with (rfl | rfl) | rfl <;> decide
  · decide

def locTree : LocText → Tree Rule
  | .coord c => coordTree c
  | .fix name gap => .node .airway_fix (name ++ (gap ++ name)) [.node .designator name []]

theorem out_fix_build {a : Atom} {v g r : Str} (h : IsDesignator v) (hg : IsGap g) :
    Out skip K Peg.Sct.airway_fix a (v ++ (g ++ v)) r [.node .airway_fix (v ++ (g ++ v)) [.node .designator v []]] := by
  refine ⟨[.node .designator v []], ?_, by cases a <;> rfl⟩
  show Out skip K _ .compound _ _ _
  refine ⟨v, g, [.node .designator v []], [], rfl, ⟨[], out_des_build (by decide) h ?_, rfl⟩, out_gap (by decide) hg ?_, rfl⟩
  · exact desEnd_stop (stop_gap hg)
  · obtain ⟨c, t, rfl, hc⟩ := des_head h
    exact headNot_cons.2 (head_parts (head_of (by decide) hc)).1

abbrev locExpr : Expr Rule := Peg.Sct.sct_coordinate ∥ Peg.Sct.airway_fix

theorem seg_loc {l : LocText} (h : l.Valid) : S Stop locExpr l.text [locTree l] := by
  cases l with
  | coord c => exact seg_alt_left (seg_coord h)
  | fix name gap =>
    refine seg_alt_right (fun r _ => ?_) fun r _ => ⟨out_fix_build h.1 h.2, ?_⟩
    · show Fails skip _ _ (name ++ (gap ++ name) ++ r)
      rw [List.append_assoc]
      exact fix_no_coord h.1 (by rw [List.append_assoc]; exact gap_head h.2)
    · show K [] (name ++ (gap ++ name) ++ r)
      rw [List.append_assoc]
      exact k_des h.1

theorem out_fix {a : Atom} {s r : Str} {ts : List (Tree Rule)} (h : Out skip K Peg.Sct.airway_fix a s r ts) :
    ∃ v g, IsDesignator v ∧ IsGap g ∧ s = v ++ (g ++ v) := by
  obtain ⟨kids, ho, _⟩ := h
  obtain ⟨v, g, t1, t2, rfl, ⟨k1, o1, _⟩, o2, _⟩ := ho
  have := ((like_des (inside .atomic (inside .compound a))).plus (by cases a <;> decide)).1 o1
  exact ⟨v, g, des_iff.2 ⟨this.1, this.2.1⟩, (out_ws (by cases a <;> decide) o2).1, rfl⟩

theorem out_loc {a : Atom} {s r : Str} {ts : List (Tree Rule)} (h : Out skip K locExpr a s r ts) :
    ∃ l : LocText, l.Valid ∧ s = l.text := by
  rcases h with h | ⟨h, _⟩
  · obtain ⟨c, hc, rfl, _⟩ := out_coordinate h
    exact ⟨.coord c, hc, rfl⟩
  · obtain ⟨v, g, hv, hg, rfl⟩ := out_fix h
    exact ⟨.fix v g, ⟨hv, hg⟩, rfl⟩

theorem loc_head {l : LocText} (h : l.Valid) : ∃ c t, l.text = c :: t ∧ isAsciiAlphanumeric c = true := by
  cases l with
  | coord c =>
    refine ⟨_, _, rfl, ?_⟩
    have := h.1.1
    revert this
    generalize c.lat.hemi = y
    revert y
    decide
  | fix v g =>
    obtain ⟨c, t, rfl, hc⟩ := des_head h.1
    refine ⟨c, _, rfl, ?_⟩
    simp only [isDesChar, Bool.or_eq_true] at hc
    rcases hc with h | h <;> simp [isAsciiAlphanumeric, isAsciiAlpha, h]

end Verif.Proofs.Sct
