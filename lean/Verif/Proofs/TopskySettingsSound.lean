import Verif.Peg.Txt
import Verif.Proofs.TopskySettingsBad
/-!
# TopSky settings: everything that is accepted has the described form
-/

namespace Verif.Proofs.TopskySettings
open Verif.Peg Verif.Spec Verif.Spec.TopskySettings Verif.Parse.TopskySettings
open Verif.Peg.TopskySettings (Rule skip)

theorem isTail_of_k {m r : Str} (h : K m r) : IsTail m := by
  obtain ⟨sp, cm, rfl, h1, h2⟩ := (lineSkip.iff _ _).1 h
  refine ⟨sp, cm, rfl, fun c hc => blankChar_iff.1 (h1 c hc), ?_⟩
  rcases h2 with ⟨rfl, _⟩ | ⟨⟨w, hw, body, e, hb⟩, _⟩
  · exact Or.inl rfl
  · exact Or.inr ⟨w, hw, body, e, fun c hc => not_newline_iff.1 (hb c hc)⟩

/-- In front of something on the same line only blanks are skipped. -/
theorem blanks_of_k {m r : Str} (h : K m r) (hr : ¬ AtLineEnd r) : AreBlanks m := by
  obtain ⟨sp, cm, rfl, h1, h2⟩ := (lineSkip.iff _ _).1 h
  rcases h2 with ⟨rfl, _⟩ | ⟨_, h2⟩
  · rw [List.append_nil]
    exact fun c hc => blankChar_iff.1 (h1 c hc)
  · exact absurd h2 hr

theorem not_end {c : Char} {t : Str} (h : isNewlineChar c = false) : ¬ AtLineEnd (c :: t) := by
  intro he
  have := headNot_cons.1 he
  rw [h] at this
  cases this

/-! ## Names and numbers -/

theorem txt_name : Txt skip K Peg.TopskySettings.name fun t r =>
    ∃ n m, t = n ++ m ∧ IsName n ∧ HeadNot isNameChar (m ++ r) ∧ K m r := by
  rintro s m r ts ⟨kids, ho, _⟩ hk h0
  have ho : Out skip K (.plus ((.str c!"/") ∥ (.str c!"_") ∥ (.cls isAsciiAlpha) ∥ (.cls isAsciiDigit))) .atomic s (m ++ r) kids := ho
  obtain ⟨h1, h2, h3, _⟩ := ((like_name .atomic).plus (by decide)).1 ho
  refine ⟨s, m, rfl, ⟨h1, fun c hc => nameChar_iff.1 (h2 c hc), ?_⟩, h3, hk⟩
  rintro ⟨t, rfl⟩
  exact (lineSkip.plain h0).2 ⟨c!"//", by decide, by simp⟩

theorem name_not_end {n r : Str} (h : IsName n) : ¬ AtLineEnd (n ++ r) := by
  obtain ⟨h1, h2, _⟩ := h
  cases n with
  | nil => exact absurd rfl h1
  | cons c n => exact not_end (nameChar_line (h2 c List.mem_cons_self)).2.2

theorem txt_number : Txt skip K Peg.TopskySettings.number fun t r => ∃ n m, t = n ++ m ∧ IsDigits n ∧ K m r := by
  rintro s m r ts ⟨kids, ho, _⟩ hk h0
  have ho : Out skip K (.plus (.cls isAsciiDigit)) .atomic s (m ++ r) kids := ho
  obtain ⟨h1, h2, _⟩ := ((likeCls_cls isAsciiDigit .atomic).plus (by decide)).1 ho
  exact ⟨s, m, rfl, ⟨h1, h2⟩, hk⟩

theorem digits_not_end {n r : Str} (h : IsDigits n) : ¬ AtLineEnd (n ++ r) := by
  obtain ⟨h1, h2⟩ := h
  cases n with
  | nil => exact absurd rfl h1
  | cons c n =>
    refine not_end ?_
    cases hc : isNewlineChar c with
    | false => rfl
    | true =>
      have := h2 c List.mem_cons_self
      rcases newline_iff.1 hc with rfl | rfl <;> exact absurd this (by decide)

/-! ## Values -/

theorem txt_valueChar : Txt skip K valueChar fun t r => ∃ c g, t = c :: g ∧ isNewlineChar c = false ∧ Pl (c :: (g ++ r)) ∧ K g r := by
  rintro s m r ts ⟨s1, m1, s2, t1, t2, rfl, hg, ⟨rfl, _, hf⟩, ⟨c, rfl, _⟩, _⟩ hk h0
  have hg : K m1 ([c] ++ (m ++ r)) := hg
  have : m1 = [] := lineSkip.one _ _ hg (by simpa using h0)
  subst this
  refine ⟨c, m, rfl, ?_, by simpa using lineSkip.plain h0, hk⟩
  cases hc : isNewlineChar c with
  | false => rfl
  | true =>
    exfalso
    have hf : Fails skip (Peg.TopskySettings.NL ∥ (.eoi .EOI)) .nonAtomic (c :: (m ++ r)) := by simpa using hf
    have := ((fails_alt_iff (uniform_eval lineSkip.uniform _ rfl _)).1 hf).1
    obtain ⟨pos, stk, st, ts, h2⟩ := newlines_ok (R := Rule) (a := .nonAtomic) lineSkip.ok (c := c) (t := m ++ r) hc
    have e := (uniform_eval lineSkip.uniform Peg.TopskySettings.NL rfl .nonAtomic).fail_of this ⟨pos, c :: (m ++ r), stk⟩ rfl
    rw [show Peg.TopskySettings.NL = .plus .newline from rfl, h2] at e
    cases e

theorem value_row {r : Str} : ∀ l : List Str, l ≠ [] →
    Row (fun t r => ∃ c g, t = c :: g ∧ isNewlineChar c = false ∧ Pl (c :: (g ++ r)) ∧ K g r) l r →
    ∃ c v m, l.flatten = c :: v ++ m ∧ (∀ d ∈ c :: v, isNewlineChar d = false) ∧ NoComment (c :: v) (m ++ r) ∧
      isSpTab c = false ∧ (∀ d, (c :: v).getLast? = some d → isSpTab d = false) ∧ K m r
  | [], h, _ => absurd rfl h
  | [t], _, ⟨⟨c, g, e, h1, h2, h3⟩, _⟩ => by
    subst e
    refine ⟨c, [], g, by simp, by simpa using h1, ?_, headNot_cons.1 h2.1, ?_, by simpa using h3⟩
    · intro p d q e
      have : p = [] ∧ d = c ∧ q = [] := by
        cases p with
        | nil => simpa using e.symm
        | cons a p => simp at e
      obtain ⟨rfl, rfl, rfl⟩ := this
      simpa using h2.2
    · intro d hd
      have : c = d := by simpa using hd
      subst this
      exact headNot_cons.1 h2.1
  | t :: t' :: l, _, ⟨⟨c, g, e, h1, h2, h3⟩, hl⟩ => by
    subst e
    obtain ⟨c', v, m, e, a1, a2, a3, a4, a5⟩ := value_row (t' :: l) (by simp) hl
    rw [e] at h2 h3
    have hg : AreBlanks g := blanks_of_k h3 (not_end (a1 c' List.mem_cons_self))
    refine ⟨c, g ++ c' :: v, m, by rw [List.flatten_cons, e]; simp, ?_, ?_, headNot_cons.1 h2.1, ?_, a5⟩
    · intro d hd
      rcases List.mem_cons.1 hd with rfl | hd
      · exact h1
      · rcases List.mem_append.1 hd with hd | hd
        · exact not_newline_iff.2 (by rcases hg d hd with rfl | rfl <;> decide)
        · exact a1 d hd
    · intro p d q e2
      cases p with
      | nil =>
        have e2 : c :: (g ++ c' :: v) = d :: q := e2
        cases e2
        simpa using h2.2
      | cons a p =>
        have e2 : c :: (g ++ c' :: v) = a :: (p ++ d :: q) := e2
        have e2 := (List.cons.inj e2).2
        rcases List.append_eq_append_iff.1 e2 with ⟨u, rfl, e3⟩ | ⟨u, rfl, e3⟩
        · exact a2 u d q e3
        · cases u with
          | nil => exact a2 [] d q (by simpa using e3.symm)
          | cons b u =>
            have e3 : d :: q = b :: (u ++ c' :: v) := e3
            cases e3
            have hb := hg d (by simp)
            rintro ⟨w, hw, hp⟩
            simp only [commentMarks, List.mem_cons, List.not_mem_nil, or_false] at hw
            rcases hw with rfl | rfl
            · rw [List.cons_prefix_cons] at hp
              rcases hb with rfl | rfl <;> exact absurd hp.1 (by decide)
            · rw [List.cons_prefix_cons] at hp
              rcases hb with rfl | rfl <;> exact absurd hp.1 (by decide)
    · intro d hd
      refine a4 d ?_
      rw [List.getLast?_cons, List.getLast?_append] at hd
      rw [List.getLast?_cons] at hd ⊢
      simpa using hd

/-- A value and what follows on its line. -/
theorem txt_value : Txt skip K Peg.TopskySettings.setting_value fun t r => t = [] ∨
    ∃ v tail, t = v ++ tail ∧ ¬ AtLineEnd (v ++ (tail ++ r)) ∧ IsValue v ∧ IsTail tail ∧ (v.getLast? = some '/' → tail.head? ≠ some '/') := by
  refine Txt.rule (Txt.mono (Txt.star lineSkip.knil lineSkip.one txt_valueChar) ?_)
  rintro _ r ⟨l, rfl, hl⟩
  by_cases h : l = []
  · subst h; exact Or.inl rfl
  · right
    obtain ⟨c, v, m, e, a1, a2, a3, a4, a5⟩ := value_row l h hl
    have nb : ∀ {d}, isSpTab d = false → ¬ IsBlankChar d := fun {d} h hb => by
      rw [blankChar_iff.2 hb] at h; cases h
    refine ⟨c :: v, m, e, not_end (a1 c List.mem_cons_self), ⟨fun d hd => not_newline_iff.1 (a1 d hd), ?_, ?_, fun d hd => nb (a4 d hd)⟩, isTail_of_k a5, ?_⟩
    · rintro w hw ⟨p, q, e2⟩
      have hne : w ≠ [] := by rintro rfl; exact absurd hw (by decide)
      cases w with
      | nil => exact absurd rfl hne
      | cons d w =>
        refine a2 p d (w ++ q) (by rw [← e2]; simp) ⟨d :: w, hw, ?_⟩
        exact ⟨q ++ (m ++ r), by simp⟩
    · intro d hd
      have : c = d := by simpa using hd
      subst this
      exact nb a3
    · intro hl hm
      obtain ⟨p, e2⟩ : ∃ p, c :: v = p ++ ['/'] := by
        rcases List.eq_nil_or_concat (c :: v) with h | ⟨p, x, h⟩
        · cases h
        · rw [h] at hl
          have : x = '/' := by simpa using hl
          exact ⟨p, by rw [h, this]; simp⟩
      cases m with
      | nil => cases hm
      | cons d m =>
        have : d = '/' := by simpa using hm
        subst this
        exact a2 p '/' [] e2 ⟨c!"//", by decide, ⟨m ++ r, by simp⟩⟩

/-! ## Lines -/

theorem txt_rgb : Txt skip K Peg.TopskySettings.colour_setting_rgb fun t r => ∃ cr g3 g4 cg g5 g6 cb tail,
    t = cr ++ (g3 ++ (',' :: (g4 ++ (cg ++ (g5 ++ (',' :: (g6 ++ (cb ++ tail)))))))) ∧ IsDigits cr ∧ AreBlanks g3 ∧ AreBlanks g4 ∧
      IsDigits cg ∧ AreBlanks g5 ∧ AreBlanks g6 ∧ IsDigits cb ∧ IsTail tail := by
  have kn := lineSkip.knil
  refine Txt.rule (Txt.mono (Txt.seq kn txt_number (Txt.seq kn Txt.str (Txt.seq kn txt_number (Txt.seq kn Txt.str txt_number)))) ?_)
  rintro _ r ⟨_, _, rfl, ⟨a, g3, rfl, h1, k1⟩, _, _, rfl, ⟨g4, rfl, k2⟩, _, _, rfl, ⟨b, g5, rfl, h2, k3⟩, _, _, rfl, ⟨g6, rfl, k4⟩, c, tail, rfl, h3, k5⟩
  refine ⟨a, g3, g4, b, g5, g6, c, tail, by simp, h1, ?_, ?_, h2, ?_, ?_, h3, isTail_of_k k5⟩
  · exact blanks_of_k k1 (not_end (by decide))
  · exact blanks_of_k k2 (by rw [List.append_assoc, List.append_assoc]; exact digits_not_end h2)
  · exact blanks_of_k k3 (not_end (by decide))
  · exact blanks_of_k k4 (by rw [List.append_assoc]; exact digits_not_end h3)

theorem txt_colour : Txt skip K Peg.TopskySettings.colour_setting fun t _ => ∃ e, IsLine e t := by
  have kn := lineSkip.knil
  refine Txt.rule (Txt.mono (Txt.seq kn Txt.str (Txt.seq kn txt_name (Txt.opt lineSkip.one (Txt.seq kn Txt.str txt_rgb)))) ?_)
  rintro _ r ⟨_, _, rfl, ⟨g0, rfl, k0⟩, _, _, rfl, ⟨n, g1, rfl, h1, h2, k1⟩, h⟩
  have b0 : AreBlanks g0 := blanks_of_k k0 (by simp only [List.append_assoc]; exact name_not_end h1)
  rcases h with ⟨_, _, rfl, ⟨g2, rfl, k2⟩, cr, g3, g4, cg, g5, g6, cb, tail, rfl, a1, a2, a3, a4, a5, a6, a7, a8⟩ | rfl
  · refine ⟨.colour n cr cg cb, ?_⟩
    have b1 : AreBlanks g1 := blanks_of_k k1 (not_end (by decide))
    have b2 : AreBlanks g2 := blanks_of_k k2 (by rw [List.append_assoc]; exact digits_not_end a1)
    have := IsLine.colour g0 n g1 g2 cr g3 g4 cg g5 g6 cb tail b0 h1 b1 b2 a1 a2 a3 a4 a5 a6 a7 a8
    simpa using this
  · refine ⟨.bare n, ?_⟩
    have := IsLine.bare g0 n g1 b0 h1 (isTail_of_k k1) (by
      intro hs
      cases g1 with
      | nil => cases hs
      | cons c g =>
        have : c = '/' := by simpa using hs
        subst this
        exact absurd (headNot_cons.1 h2) (by decide))
    simpa using this

/-- A colour fails only where it is not one. -/
theorem noColour {n r : Str} (h : IsName n) (hr : HeadNot isNameChar r)
    (hf : Fails skip Peg.TopskySettings.colour_setting .nonAtomic (n ++ r)) : NoColour n := by
  rintro ⟨u, rfl⟩
  by_cases hu : u = []
  · subst hu; exact Or.inl (by simp)
  · by_cases hc : c!"//" <+: u
    · obtain ⟨w, rfl⟩ := hc
      exact Or.inr ⟨w, by simp⟩
    · exfalso
      have hn : IsName u := ⟨hu, fun c hc => h.2.1 c (by simp [hc]), hc⟩
      have hp : Pl (u ++ r) := pl_name hn hr
      have e1 := out_eval lineSkip.uniform lineSkip.exact (.str prefix_ : Expr Rule) rfl rfl .nonAtomic prefix_ (u ++ r) []
        (⟨0, prefix_ ++ u ++ r, []⟩ : St) ⟨rfl, rfl⟩ (by simp)
      have e2 := skipIf_exact (a := .nonAtomic) (m := []) (r := u ++ r) lineSkip.exact (k_nil hp)
        (st := (⟨0, prefix_ ++ u ++ r, []⟩ : St).past prefix_ (u ++ r)) (by simp)
      rw [St.past_nil (by simp)] at e2
      have e3 := out_eval lineSkip.uniform lineSkip.exact Peg.TopskySettings.name rfl rfl .nonAtomic u r _
        ((⟨0, prefix_ ++ u ++ r, []⟩ : St).past prefix_ (u ++ r)) (out_name hn hr) (by simp)
      obtain ⟨st4, e4, _⟩ := lineSkip.ok (((⟨0, prefix_ ++ u ++ r, []⟩ : St).past prefix_ (u ++ r)).past u r)
      have e4 : skipIf skip .nonAtomic (((⟨0, prefix_ ++ u ++ r, []⟩ : St).past prefix_ (u ++ r)).past u r) = .ok st4 [] := e4
      have hd := eval_ne_diverge lineSkip.ok ((.str c!"=") ⬝ Peg.TopskySettings.colour_setting_rgb) rfl .nonAtomic st4
      have e5 := (uniform_eval lineSkip.uniform Peg.TopskySettings.colour_setting rfl .nonAtomic).fail_of hf ⟨0, prefix_ ++ u ++ r, []⟩ (by simp)
      have e6 : ∃ st ts, eval skip (.opt ((.str c!"=") ⬝ Peg.TopskySettings.colour_setting_rgb)) .nonAtomic st4 = .ok st ts := by
        rw [eval]
        cases he : eval skip ((.str c!"=") ⬝ Peg.TopskySettings.colour_setting_rgb) .nonAtomic st4 with
        | fail => exact ⟨_, _, rfl⟩
        | diverge => exact absurd he hd
        | ok st ts => exact ⟨_, _, rfl⟩
      obtain ⟨st, ts, e6⟩ := e6
      have e7 : eval skip ((.str prefix_) ⬝ Peg.TopskySettings.name ⬝ (.opt ((.str c!"=") ⬝ Peg.TopskySettings.colour_setting_rgb)))
          .nonAtomic ⟨0, prefix_ ++ u ++ r, []⟩ ≠ .fail := by
        rw [eval, e1, Res.ok_bind, e2, Res.ok_bind, eval, e3, Res.ok_bind, e4, Res.ok_bind, e6]
        simp
      rw [show Peg.TopskySettings.colour_setting = .rule .colour_setting .normal ((.str prefix_) ⬝ Peg.TopskySettings.name ⬝
        (.opt ((.str c!"=") ⬝ Peg.TopskySettings.colour_setting_rgb))) from rfl, eval, inside_normal] at e5
      revert e5 e7
      cases eval skip ((.str prefix_) ⬝ Peg.TopskySettings.name ⬝ (.opt ((.str c!"=") ⬝ Peg.TopskySettings.colour_setting_rgb)))
          .nonAtomic ⟨0, prefix_ ++ u ++ r, []⟩ <;> simp

theorem txt_setting : Txt skip K Peg.TopskySettings.setting fun t _ => ∃ e, IsLine e t := by
  rintro s m r ts (ho | ⟨ho, hf⟩) hk h0
  · exact txt_colour s m r ts ho hk h0
  · have kn := lineSkip.knil
    have c : Txt skip K Peg.TopskySettings.other_setting fun t r => Fails skip Peg.TopskySettings.colour_setting .nonAtomic (t ++ r) →
        ∃ e, IsLine e t := by
      refine Txt.rule (Txt.mono (Txt.seq kn txt_name (Txt.seq kn Txt.str txt_value)) ?_)
      rintro _ r ⟨_, _, rfl, ⟨n, g1, rfl, h1, h2, k1⟩, _, _, rfl, ⟨g2, rfl, k2⟩, h⟩ hf
      have b1 : AreBlanks g1 := blanks_of_k k1 (not_end (by decide))
      have hn : NoColour n := noColour h1 h2 (by simpa using hf)
      rcases h with rfl | ⟨v, tail, rfl, a0, a1, a2, a3⟩
      · refine ⟨.setting n [], ?_⟩
        have := IsLine.setting n g1 [] [] g2 h1 hn b1 (by simp [AreBlanks]) (by refine ⟨by simp, ?_, by simp, by simp⟩; decide) (isTail_of_k k2) (by simp)
        simpa using this
      · refine ⟨.setting n v, ?_⟩
        have b2 : AreBlanks g2 := blanks_of_k k2 (by simpa using a0)
        have := IsLine.setting n g1 g2 v tail h1 hn b1 b2 a1 a2 a3
        simpa using this
    exact c s m r ts ho hk h0 (by simpa using hf)

theorem line_not_end {e : Entry} {line r : Str} (h : IsLine e line) : ¬ AtLineEnd (line ++ r) := by
  have h1 := line_head (r := r) h
  have h2 := line_ne h
  cases line with
  | nil => exact absurd rfl h2
  | cons c t => exact not_end (headNot_cons.1 h1)

theorem break_of {brk cm r : Str} (h : IsBreak marks brk) (hc : cm = [] ∨ (CommentText commentMarks cm ∧ AtLineEnd r)) (hr : ¬ AtLineEnd r) :
    IsBreak marks (brk ++ cm) := by
  rcases hc with rfl | ⟨_, hc⟩
  · rw [List.append_nil]; exact h
  · exact absurd hc hr

theorem txt_lines : Txt skip K (.star (Foll Peg.TopskySettings.setting)) fun t _ => ∃ es, IsLines es t := by
  have kn := lineSkip.knil
  refine Txt.mono (Txt.star kn lineSkip.one (Txt.seq kn (txt_newlines lineSkip) txt_setting)) ?_
  rintro _ r ⟨l, rfl, hl⟩
  induction l with
  | nil => exact ⟨[], .nil⟩
  | cons t l ih =>
    obtain ⟨⟨_, line, rfl, ⟨brk, cm, rfl, h1, h2⟩, e, h3⟩, hl⟩ := hl
    obtain ⟨es, h4⟩ := ih hl
    refine ⟨e :: es, ?_⟩
    have := IsLines.cons e es (brk ++ cm) line l.flatten (break_of h1 h2 (line_not_end h3)) h3 h4
    simpa using this

/-- A section. -/
def IsSection (t : Str) : Prop := ∃ head es lines, t = head ++ lines ∧ IsHead head ∧ IsLines es lines

theorem txt_section : Txt skip K Peg.TopskySettings.section_ fun t _ => IsSection t := by
  have kn := lineSkip.knil
  have hh : Txt skip K (((.str c!"[") ⬝ Peg.TopskySettings.name ⬝ (.str c!"]")) ∥ ((.str c!"{") ⬝ Peg.TopskySettings.name ⬝ (.str c!"}")))
      fun t _ => IsHead t := by
    rintro s m r ts (ho | ⟨ho, _⟩) hk h0
    · obtain ⟨_, _, e, ⟨g1, rfl, k1⟩, _, _, rfl, ⟨n, g2, rfl, h1, h2, k2⟩, tail, rfl, k3⟩ :=
        Txt.seq kn Txt.str (Txt.seq kn txt_name Txt.str) s m r ts ho hk h0
      rw [e]
      have := IsHead.brackets g1 n g2 tail (blanks_of_k k1 (by simp only [List.append_assoc]; exact name_not_end h1)) h1
        (blanks_of_k k2 (not_end (by decide))) (isTail_of_k k3)
      simpa using this
    · obtain ⟨_, _, e, ⟨g1, rfl, k1⟩, _, _, rfl, ⟨n, g2, rfl, h1, h2, k2⟩, tail, rfl, k3⟩ :=
        Txt.seq kn Txt.str (Txt.seq kn txt_name Txt.str) s m r ts ho hk h0
      rw [e]
      have := IsHead.braces g1 n g2 tail (blanks_of_k k1 (by simp only [List.append_assoc]; exact name_not_end h1)) h1
        (blanks_of_k k2 (not_end (by decide))) (isTail_of_k k3)
      simpa using this
  refine Txt.rule (Txt.mono (Txt.seq kn hh txt_lines) ?_)
  rintro _ r ⟨head, lines, rfl, h1, es, h2⟩
  exact ⟨head, es, lines, rfl, h1, h2⟩

theorem section_not_end {t r : Str} (h : IsSection t) : ¬ AtLineEnd (t ++ r) := by
  obtain ⟨head, es, lines, rfl, h1, _⟩ := h
  obtain ⟨c, t, e, hc⟩ := head_start (r := lines ++ r) h1
  rw [List.append_assoc, e]
  rcases hc with rfl | rfl <;> exact not_end (by decide)

theorem rows_sections {r : Str} : ∀ {l : List Str}, Row (fun t r => ∃ t1 t2, t = t1 ++ t2 ∧
      (∃ brk cm, t1 = brk ++ cm ∧ IsBreak marks brk ∧ (cm = [] ∨ (CommentText commentMarks cm ∧ AtLineEnd (t2 ++ r)))) ∧ IsSection t2) l r →
    IsSections l.flatten
  | [], _ => .nil
  | t :: l, ⟨⟨t1, _, e, ⟨brk, cm, e1, h1, h2⟩, h3⟩, hl⟩ => by
    subst e e1
    have h4 := rows_sections hl
    have hb := break_of h1 h2 (section_not_end h3)
    obtain ⟨head, es, lines, rfl, h5, h6⟩ := h3
    have := IsSections.cons (brk ++ cm) head es lines l.flatten hb h5 h6 h4
    simpa using this

theorem rows_lines {r : Str} : ∀ {l : List Str}, Row (fun t r => ∃ t1 t2, t = t1 ++ t2 ∧
      (∃ brk cm, t1 = brk ++ cm ∧ IsBreak marks brk ∧ (cm = [] ∨ (CommentText commentMarks cm ∧ AtLineEnd (t2 ++ r)))) ∧ ∃ e, IsLine e t2) l r →
    ∃ es, IsLines es l.flatten
  | [], _ => ⟨[], .nil⟩
  | t :: l, ⟨⟨t1, line, e, ⟨brk, cm, e1, h1, h2⟩, en, h3⟩, hl⟩ => by
    subst e e1
    obtain ⟨es, h4⟩ := rows_lines hl
    refine ⟨en :: es, ?_⟩
    have := IsLines.cons en es (brk ++ cm) line l.flatten (break_of h1 h2 (line_not_end h3)) h3 h4
    simpa using this

theorem txt_end : Txt skip K ((.opt Peg.TopskySettings.NL) ⬝ (.eoi Rule.EOI)) fun t r => r = [] ∧ IsEnd t := by
  have heoi : Txt skip K (.eoi Rule.EOI) fun t r => t = [] ∧ r = [] := by
    rintro s m r ts ⟨rfl, hr, _⟩ _ _
    have : m ++ r = [] := hr
    simpa using this
  refine Txt.mono (Txt.seq lineSkip.knil (Txt.opt lineSkip.one (txt_newlines lineSkip)) heoi) ?_
  rintro _ r ⟨t1, _, rfl, h, rfl, rfl⟩
  refine ⟨rfl, ?_⟩
  rw [List.append_nil]
  rcases h with ⟨brk, cm, rfl, h1, h2⟩ | rfl
  · refine Or.inr ⟨brk, cm, rfl, h1, ?_⟩
    rcases h2 with rfl | ⟨⟨w, hw, body, e, hb⟩, _⟩
    · exact Or.inl rfl
    · exact Or.inr ⟨w, hw, body, e, fun c hc => not_newline_iff.1 (hb c hc)⟩
  · exact Or.inl rfl

theorem txt_rest : Txt skip K ((.star (Foll Peg.TopskySettings.section_)) ⬝ (.opt Peg.TopskySettings.NL) ⬝ (.eoi Rule.EOI))
    fun t r => r = [] ∧ ∃ secs fin, t = secs ++ fin ∧ IsSections secs ∧ IsEnd fin := by
  have kn := lineSkip.knil
  refine Txt.mono (Txt.seq kn (Txt.star kn lineSkip.one (Txt.seq kn (txt_newlines lineSkip) txt_section)) txt_end) ?_
  rintro _ r ⟨_, fin, rfl, ⟨l, rfl, hl⟩, rfl, h⟩
  exact ⟨rfl, _, fin, rfl, rows_sections hl, h⟩

theorem txt_all : Txt skip K ((.star (Foll Peg.TopskySettings.setting)) ⬝ (.star (Foll Peg.TopskySettings.section_)) ⬝
    (.opt Peg.TopskySettings.NL) ⬝ (.eoi Rule.EOI))
    fun t r => r = [] ∧ ∃ es lines secs fin, t = lines ++ (secs ++ fin) ∧ IsLines es lines ∧ IsSections secs ∧ IsEnd fin := by
  refine Txt.mono (Txt.seq lineSkip.knil txt_lines txt_rest) ?_
  rintro _ r ⟨lines, _, rfl, ⟨es, h1⟩, rfl, secs, fin, rfl, h2, h3⟩
  exact ⟨rfl, es, lines, secs, fin, rfl, h1, h2, h3⟩

/-! ## The start of the file -/

theorem skip_past (st : St) : ∃ m r, skipIf skip .nonAtomic st = .ok (st.past m r) [] ∧ st.rest = m ++ r ∧ K m r := by
  obtain ⟨st', h1, m, h2, h3⟩ := skipIf_spec lineSkip.ok .nonAtomic st
  have := skipIf_exact (a := .nonAtomic) (m := m) (r := st'.rest) lineSkip.exact h3 (st := st) h2
  exact ⟨m, st'.rest, this, h2, h3⟩

theorem eval_past {x : Expr Rule} (hp : plain x = true) (hw : wf x = true) {st st' : St} {ts : List (Tree Rule)}
    (h : eval skip x .nonAtomic st = .ok st' ts) :
    ∃ s r, st' = st.past s r ∧ st.rest = s ++ r ∧ Out skip K x .nonAtomic s r ts := by
  obtain ⟨s, e, o⟩ := eval_out lineSkip.ok x _ _ _ _ h
  have := out_eval lineSkip.uniform lineSkip.exact x hp hw _ _ _ _ st o e
  rw [this] at h
  injection h with h1 h2
  exact ⟨s, _, h1.symm, e, o⟩

theorem seq_ok {x y : Expr Rule} {st st' : St} {ts : List (Tree Rule)} (h : eval skip (x ⬝ y) .nonAtomic st = .ok st' ts) :
    ∃ st1 ts1 m r ts2, eval skip x .nonAtomic st = .ok st1 ts1 ∧ st1.rest = m ++ r ∧ K m r ∧
      eval skip y .nonAtomic (st1.past m r) = .ok st' ts2 := by
  rw [eval] at h
  cases hx : eval skip x .nonAtomic st with
  | fail => simp [hx] at h
  | diverge => simp [hx] at h
  | ok st1 ts1 =>
    obtain ⟨m, r, h1, h2, h3⟩ := skip_past st1
    rw [hx, Res.ok_bind, h1, Res.ok_bind] at h
    cases hy : eval skip y .nonAtomic (st1.past m r) with
    | fail => simp [hy] at h
    | diverge => simp [hy] at h
    | ok st3 ts3 =>
      rw [hy, Res.ok_bind] at h
      cases h
      exact ⟨st1, ts1, m, r, ts3, rfl, h2, h3, hy⟩

theorem seq_congr {x x' y : Expr Rule} {st : St} (h : eval skip x .nonAtomic st = eval skip x' .nonAtomic st) :
    eval skip (x ⬝ y) .nonAtomic st = eval skip (x' ⬝ y) .nonAtomic st := by
  rw [eval, eval, h]

/-- One more element behind skipped text. -/
def more (x : Expr Rule) (st : St) : Res Rule := (skipIf skip .nonAtomic st).bind fun s1 _ => eval skip x .nonAtomic s1

theorem plain_foll {x : Expr Rule} (hp : plain x = true) : plain (Foll x) = true := by simp only [plain, hp]; rfl
theorem wf_foll {x : Expr Rule} (hw : wf x = true) : wf (Foll x) = true := by simp only [wf, hw]; rfl

theorem many_lead_eq {x : Expr Rule} (hp : plain x = true) (hw : wf x = true) : ∀ n (st : St), st.pos ≠ 0 →
    many (more (Lead x)) n st = many (more (Foll x)) n st := by
  intro n
  induction n with
  | zero => intro st _; rfl
  | succ n ih =>
    intro st h0
    obtain ⟨m, r, h1, _⟩ := skip_past st
    have e : more (Lead x) st = more (Foll x) st := by
      simp only [more, h1, Res.ok_bind]
      exact eval_lead (by simp only [St.past]; omega)
    simp only [many, e]
    cases hf : more (Foll x) st with
    | fail => rfl
    | diverge => rfl
    | ok st1 ts1 =>
      have hpos : st1.pos ≠ 0 := by
        simp only [more, h1, Res.ok_bind] at hf
        obtain ⟨s, r, rfl, _⟩ := eval_past (plain_foll hp) (wf_foll hw) hf
        simp only [St.past]
        omega
      simp only [ih st1 hpos]

theorem eval_star {x : Expr Rule} {st : St} : eval skip (.star x) .nonAtomic st = match eval skip x .nonAtomic st with
    | .fail => .ok st []
    | .diverge => .diverge
    | .ok st1 ts1 => (many (more x) (st1.rest.length + 1) st1).bind fun st2 ts2 => .ok st2 (ts1 ++ ts2) := by
  rw [eval]
  have : more x = fun s => (skipIf skip .nonAtomic s).bind fun s1 _ => eval skip x .nonAtomic s1 := rfl
  rw [this]
  cases eval skip x .nonAtomic st <;> rfl

theorem star_lead_eq {x : Expr Rule} (hp : plain x = true) (hw : wf x = true) {st : St} (h0 : st.pos ≠ 0) :
    eval skip (.star (Lead x)) .nonAtomic st = eval skip (.star (Foll x)) .nonAtomic st := by
  rw [eval_star, eval_star, eval_lead h0]
  cases hf : eval skip (Foll x) .nonAtomic st with
  | fail => rfl
  | diverge => rfl
  | ok st1 ts1 =>
    obtain ⟨s, r, rfl, _⟩ := eval_past (plain_foll hp) (wf_foll hw) hf
    have := many_lead_eq hp hw ((st.past s r).rest.length + 1) (st.past s r) (by simp only [St.past]; omega)
    simp only [this]

/-- The first repetition at the start of the file. -/
theorem star_start {x : Expr Rule} (hp : plain x = true) (hw : wf x = true) (hx : nullable x = false) {st st2 : St} {ts : List (Tree Rule)}
    (h0 : st.pos = 0) (hk : K [] st.rest) (h : eval skip (.star (Lead x)) .nonAtomic st = .ok st2 ts) :
    st2 = st ∨ (st2.pos ≠ 0 ∧ ∃ s1 t1, ∃ parts : List ((Str × Str) × List (Tree Rule)), st.rest = s1 ++ (partsText parts ++ st2.rest) ∧
      Out skip K x .nonAtomic s1 (partsText parts ++ st2.rest) t1 ∧ Parts skip K (Foll x) parts st2.rest) := by
  have e1 : eval skip (Lead x) .nonAtomic st = eval skip x .nonAtomic st := by
    have e2 := skipIf_exact (a := .nonAtomic) (m := []) (r := st.rest) lineSkip.exact hk (st := st) rfl
    rw [St.past_nil rfl] at e2
    simp only [eval, h0, if_true, Res.ok_bind, e2]
    cases eval skip x .nonAtomic st <;> rfl
  rw [eval_star, e1] at h
  cases hf : eval skip x .nonAtomic st with
  | fail => simp only [hf] at h; cases h; exact Or.inl rfl
  | diverge => simp only [hf] at h; cases h
  | ok st1 ts1 =>
    right
    obtain ⟨s1, r1, rfl, e3, o1⟩ := eval_past hp hw hf
    have hne : s1 ≠ [] := by
      rintro rfl
      rw [out_nullable _ _ _ _ o1] at hx
      cases hx
    have hl : 0 < s1.length := List.length_pos_iff.2 hne
    have hm := many_lead_eq hp hw ((st.past s1 r1).rest.length + 1) (st.past s1 r1) (by simp only [St.past]; omega)
    simp only [hf, hm] at h
    cases hmm : many (more (Foll x)) ((st.past s1 r1).rest.length + 1) (st.past s1 r1) with
    | fail => rw [hmm] at h; cases h
    | diverge => rw [hmm] at h; cases h
    | ok st3 ts3 =>
      rw [hmm] at h
      cases h
      have step : ∀ st st' ts, more (Foll x) st = .ok st' ts → ∃ p : Str × Str, st.rest = (p.1 ++ p.2) ++ st'.rest ∧
          (Gap K .nonAtomic p.1 (p.2 ++ st'.rest) ∧ Out skip K (Foll x) .nonAtomic p.2 st'.rest ts) ∧ st' = st.past (p.1 ++ p.2) st'.rest := by
        intro st st' ts h
        obtain ⟨m, r, a1, a2, a3⟩ := skip_past st
        simp only [more, a1, Res.ok_bind] at h
        obtain ⟨s, r', rfl, e, o⟩ := eval_past (plain_foll hp) (wf_foll hw) h
        have e : r = s ++ r' := e
        subst e
        exact ⟨(m, s), by simpa using a2, ⟨a3, o⟩, by simp [St.past_past]⟩
      obtain ⟨_, parts, b1, _, b3⟩ := many_out (f := more (Foll x)) (A := Str × Str) (txt := fun p => p.1 ++ p.2)
        (P := fun p ts r => Gap K .nonAtomic p.1 (p.2 ++ r) ∧ Out skip K (Foll x) .nonAtomic p.2 r ts)
        (fun st st' ts h => by obtain ⟨p, h1, h2, _⟩ := step st st' ts h; exact ⟨p, h1, h2⟩) _ _ _ _ hmm
      have b3 : r1 = partsText parts ++ st2.rest := b3
      subst b3
      refine ⟨?_, s1, ts1, parts, e3, o1, b1⟩
      have hpos : ∀ n (st st' : St) ts, st.pos ≠ 0 → many (more (Foll x)) n st = .ok st' ts → st'.pos ≠ 0 := by
        intro n
        induction n with
        | zero => intro st st' ts _ h; simp [many] at h
        | succ n ih =>
          intro st st' ts h0 h
          simp only [many] at h
          split at h
          · cases h; exact h0
          · cases h
          · next st1 ts1 hf1 =>
            obtain ⟨p, _, _, e⟩ := step _ _ _ hf1
            split at h
            · cases hm : many (more (Foll x)) n st1 with
              | fail => simp [hm] at h
              | diverge => simp [hm] at h
              | ok st2 ts2 =>
                simp only [hm, Res.ok_bind, Res.ok.injEq] at h
                obtain ⟨rfl, rfl⟩ := h
                refine ih st1 st2 ts2 ?_ hm
                rw [e]
                simp only [St.past]
                omega
            · cases h
      exact hpos _ _ _ _ (by simp only [St.past]; omega) hmm

theorem finish {x : Expr Rule} {Q : Str → Prop} (ht : Txt skip K x fun t _ => Q t) (he : endsEoi x = true) {st st' : St} {ts : List (Tree Rule)}
    (h : eval skip x .nonAtomic st = .ok st' ts) (h0 : K [] st.rest) : Q st.rest := by
  obtain ⟨s, e, o⟩ := eval_out lineSkip.ok _ _ _ _ _ h
  have hr := eval_endsEoi x he _ _ _ _ h
  rw [hr] at e o
  have e : st.rest = s := by simpa using e
  have k : K [] ([] : Str) := k_nil ⟨headNot_nil _, by rintro ⟨w, hw, hp⟩; rw [List.prefix_nil] at hp; subst hp; exact absurd hw (by decide)⟩
  have := ht s [] [] _ (by simpa using o) k (by rw [← e]; simpa using h0)
  rw [e]
  simpa using this

/-- Every accepted text is a file. -/
theorem file_of_eval {content : Str} {st : St} {ts : List (Tree Rule)}
    (h : eval skip ((.opt .soi) ⬝ (.star (Lead Peg.TopskySettings.setting)) ⬝ (.star (Lead Peg.TopskySettings.section_)) ⬝
      (.opt Peg.TopskySettings.NL) ⬝ (.eoi .EOI)) .nonAtomic ⟨0, content, []⟩ = .ok st ts) : ∃ es, IsFile es content := by
  have kn := lineSkip.knil
  obtain ⟨st0, t0, m, r, _, h0, e0, k0, h⟩ := seq_ok h
  have : st0 = ⟨0, content, []⟩ := by
    simp only [eval, if_true] at h0
    cases h0
    rfl
  subst this
  have e0 : content = m ++ r := e0
  subst e0
  have km : K [] r := kn _ _ k0
  have hps : plain Peg.TopskySettings.setting = true := rfl
  have hws : wf Peg.TopskySettings.setting = true := rfl
  have hpc : plain Peg.TopskySettings.section_ = true := rfl
  have hwc : wf Peg.TopskySettings.section_ = true := rfl
  have tend : Txt skip K ((.opt Peg.TopskySettings.NL) ⬝ (.eoi Rule.EOI)) fun t _ => IsEnd t := Txt.mono txt_end fun _ _ h => h.2
  have trest : Txt skip K ((.star (Foll Peg.TopskySettings.section_)) ⬝ (.opt Peg.TopskySettings.NL) ⬝ (.eoi Rule.EOI))
      fun t _ => ∃ secs fin, t = secs ++ fin ∧ IsSections secs ∧ IsEnd fin := Txt.mono txt_rest fun _ _ h => h.2
  have tall : Txt skip K ((.star (Foll Peg.TopskySettings.setting)) ⬝ (.star (Foll Peg.TopskySettings.section_)) ⬝ (.opt Peg.TopskySettings.NL) ⬝ (.eoi Rule.EOI))
      fun t _ => ∃ es lines secs fin, t = lines ++ (secs ++ fin) ∧ IsLines es lines ∧ IsSections secs ∧ IsEnd fin := Txt.mono txt_all fun _ _ h => h.2
  by_cases hm : m = []
  · subst hm
    rw [show (St.past ⟨0, [] ++ r, []⟩ [] r) = ⟨0, r, []⟩ from rfl] at h
    obtain ⟨st1, t1, m1, r1, _, h1, e1, k1, h⟩ := seq_ok h
    rcases star_start hps hws rfl rfl km h1 with rfl | ⟨p1, s, t, parts, e2, o, hp⟩
    · -- no setting on the first line
      have e1 : r = m1 ++ r1 := e1
      subst e1
      have : m1 = [] := lineSkip.one _ _ k1 km
      subst this
      rw [show (St.past ⟨0, [] ++ r1, []⟩ [] r1) = ⟨0, r1, []⟩ from rfl] at h
      obtain ⟨st2, t2, m2, r2, _, h2, e2, k2, h⟩ := seq_ok h
      rcases star_start hpc hwc rfl rfl k1 h2 with rfl | ⟨p2, s, t, parts, e3, o, hp⟩
      · have e2 : r1 = m2 ++ r2 := e2
        subst e2
        have : m2 = [] := lineSkip.one _ _ k2 k1
        subst this
        exact ⟨[], .empty _ (finish tend rfl h k2)⟩
      · rw [e2] at e3 o hp
        have e3 : r1 = s ++ (partsText parts ++ (m2 ++ r2)) := e3
        obtain ⟨t, l, e4, ⟨head, es, lines, rfl, a1, a2⟩, a3⟩ := txt_parts kn txt_section (Txt.seq kn (txt_newlines lineSkip) txt_section) k2 parts s _ o hp
          (by rw [← e3]; exact k1)
        have he := finish tend rfl h (by exact kn _ _ k2)
        have e5 : r1 = (head ++ lines) ++ (l.flatten ++ r2) := by
          rw [e3]
          have := congrArg (· ++ r2) e4
          simpa using this
        refine ⟨[], ?_⟩
        rw [show ([] : Str) ++ ([] ++ r1) = r1 from rfl, e5]
        have := IsFile.section_ head es lines l.flatten r2 a1 a2 (rows_sections a3) he
        simpa using this
    · rw [e1] at e2 o hp
      have e2 : r = s ++ (partsText parts ++ (m1 ++ r1)) := e2
      obtain ⟨t, l, e4, ⟨e, a1⟩, a3⟩ := txt_parts kn txt_setting (Txt.seq kn (txt_newlines lineSkip) txt_setting) k1 parts s _ o hp
        (by rw [← e2]; exact km)
      obtain ⟨es, a2⟩ := rows_lines a3
      rw [seq_congr (star_lead_eq hpc hwc (by simp only [St.past]; omega))] at h
      obtain ⟨secs, fin, e5, b1, b2⟩ := finish trest rfl h (by exact kn _ _ k1)
      have e5 : r1 = secs ++ fin := e5
      have e6 : r = t ++ (l.flatten ++ (secs ++ fin)) := by
        rw [e2, ← e5]
        have := congrArg (· ++ r1) e4
        simpa using this
      refine ⟨e :: es, ?_⟩
      rw [show ([] : Str) ++ r = r from rfl, e6]
      exact .line e es t l.flatten secs fin a1 a2 b1 b2
  · have hl : 0 < m.length := List.length_pos_iff.2 hm
    have h' : ∃ ts, eval skip ((.star (Foll Peg.TopskySettings.setting)) ⬝ (.star (Foll Peg.TopskySettings.section_)) ⬝ (.opt Peg.TopskySettings.NL) ⬝ (.eoi Rule.EOI))
        .nonAtomic (St.past ⟨0, m ++ r, []⟩ m r) = .ok st ts := by
      have hp0 : (St.past ⟨0, m ++ r, []⟩ m r).pos ≠ 0 := by simp only [St.past]; omega
      rw [seq_congr (star_lead_eq hps hws hp0)] at h
      rw [eval] at h
      cases hx : eval skip (.star (Foll Peg.TopskySettings.setting)) .nonAtomic (St.past ⟨0, m ++ r, []⟩ m r) with
      | fail => rw [hx] at h; cases h
      | diverge => rw [hx] at h; cases h
      | ok st1 ts1 =>
        obtain ⟨s, r', rfl, _⟩ := eval_past (x := .star (Foll Peg.TopskySettings.setting)) rfl rfl hx
        obtain ⟨m2, r2, h2, _⟩ := skip_past ((St.past ⟨0, m ++ r, []⟩ m r).past s r')
        rw [hx, Res.ok_bind, h2, Res.ok_bind] at h
        rw [eval, hx, Res.ok_bind, h2, Res.ok_bind]
        rw [seq_congr (star_lead_eq hpc hwc (by simp only [St.past]; omega))] at h
        exact ⟨_, h⟩
    obtain ⟨_, h'⟩ := h'
    obtain ⟨es, lines, secs, fin, e, b1, b2, b3⟩ := finish tall rfl h' (by exact km)
    have e : r = lines ++ (secs ++ fin) := e
    refine ⟨es, ?_⟩
    rw [e]
    exact .lead m es lines secs fin (isTail_of_k k0) hm b1 b2 b3

theorem file_of_ok {content : Str} {v} (h : parse content = .ok v) : ∃ es, IsFile es content := by
  unfold parse at h
  cases hr : run skip Peg.TopskySettings.settings content with
  | error e => rw [hr] at h; cases h
  | ok ts =>
    unfold run at hr
    split at hr
    · next st ts' he =>
      rw [show Peg.TopskySettings.settings = .rule .settings .normal ((.opt .soi) ⬝ (.star (Lead Peg.TopskySettings.setting)) ⬝
        (.star (Lead Peg.TopskySettings.section_)) ⬝ (.opt Peg.TopskySettings.NL) ⬝ (.eoi .EOI)) from rfl, eval, inside_normal] at he
      cases hb : eval skip ((.opt .soi) ⬝ (.star (Lead Peg.TopskySettings.setting)) ⬝ (.star (Lead Peg.TopskySettings.section_)) ⬝
        (.opt Peg.TopskySettings.NL) ⬝ (.eoi .EOI)) .nonAtomic ⟨0, content, []⟩ with
      | fail => rw [hb] at he; cases he
      | diverge => rw [hb] at he; cases he
      | ok st1 ts1 => exact file_of_eval hb
    · cases hr
    · cases hr

end Verif.Proofs.TopskySettings
