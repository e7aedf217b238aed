import Verif.Proofs.TopskyCond
import Verif.Proofs.Gated
/-!
# Settings in TopSky map files
-/

namespace Verif.Proofs.Topsky
open Verif.Peg Verif.Peg.Topsky Verif.Spec Verif.Spec.Topsky Verif.Dms
open Verif.Spec.Ese (DmsText IsRunway)
open Verif.Parse.Topsky
open Verif.Parse.Sct (Loc)

set_option linter.unusedSectionVars false

/-! ## Alternatives -/

def alts : List (Expr Rule) → Expr Rule
  | [] => .cls fun _ => false
  | [x] => x
  | x :: y :: l => x ∥ alts (y :: l)

variable {x y : Expr Rule} {n : Bool} {v t : Str} {U V : List Tr → Prop} {u u1 : List Tr} {C : Str → Prop}

/-- The alternative `x`, if those before it fail on every text that starts with `w`. -/
theorem last_alts {w : Str} {pre post : List (Expr Rule)} (hf : pre.all (failsOn false · w) = true)
    (h : Last x n (w ++ t) U) : Last (alts (pre ++ x :: post)) n (w ++ t) U := by
  induction pre with
  | nil =>
    cases post with
    | nil => exact h
    | cons y post => exact last_alt_left h
  | cons a pre ih =>
    simp only [List.all_cons, Bool.and_eq_true] at hf
    have := ih hf.2
    cases pre with
    | nil => exact last_alt hf.1 this
    | cons b pre => exact last_alt hf.1 this

/-! ## Positions -/

section
variable {F : Type} [F64 F] (num : Str → F) (hnum : ∀ s, IsDecimal s → F64.ofText s = some (num s))
include hnum

theorem read_dms {d : DmsText} (h : d.Valid) : parseCoordinatePart (partTree (.dms d)) =
    gated d.Fits (.degMinSec ⟨d.sign, digitsValue d.deg, digitsValue d.min, num d.sec⟩) := by
  obtain ⟨h1, h2, h3, h4⟩ := h
  show (Sign.ofHemi [d.hemi]).bind _ = _
  have hs : Sign.ofHemi [d.hemi] = .ok d.sign := by
    unfold DmsText.sign
    revert h1
    generalize d.hemi = c
    intro h1
    simp only [List.mem_cons, List.not_mem_nil, or_false] at h1
    rcases h1 with rfl | rfl | rfl | rfl | rfl | rfl | rfl | rfl <;> rfl
  rw [hs]
  show (unwrap (parseUnsigned 10 (2 ^ 16) d.deg)).bind _ = _
  rw [parseUnsigned_digits h2, unwrap_gated]
  refine gated_bind ?_
  show (unwrap (parseUnsigned 10 (2 ^ 8) d.min)).bind _ = _
  rw [parseUnsigned_digits h3, unwrap_gated]
  refine gated_ok ?_
  show (unwrap (F64.ofText d.sec)).bind _ = _
  rw [hnum _ h4]
  rfl

theorem read_decimal {s : Str} (h : IsDecimal s) : parseCoordinatePart (partTree (.decimal s)) = .ok (.decimal (num s)) := by
  show (unwrap (F64.ofText s)).bind _ = _
  rw [hnum _ h]
  rfl

variable [DmsArith F]

theorem read_loc {l : Location} (h : l.Valid) : parseLocation (locTree l) = gated l.Fits (l.value num) := by
  cases l with
  | fix name => rfl
  | coordinate lat lng =>
    obtain ⟨h1, h2⟩ := h
    show ((parseCoordinatePart (partTree lat)).bind _).bind _ = _
    cases lat with
    | decimal a =>
      rw [read_decimal num hnum h1]
      show ((parseCoordinatePart (partTree lng)).bind _).bind _ = _
      cases lng with
      | decimal b =>
        rw [read_decimal num hnum h2]
        rfl
      | dms d =>
        rw [read_dms num hnum h2]
        by_cases hd : d.Fits
        · rw [gated, if_pos hd]; rfl
        · rw [gated, if_neg hd]; rfl
    | dms d =>
      rw [read_dms num hnum h1]
      by_cases hd : d.Fits
      · rw [gated, if_pos hd]
        show ((parseCoordinatePart (partTree lng)).bind _).bind _ = _
        cases lng with
        | decimal b =>
          rw [read_decimal num hnum h2]
          rfl
        | dms e =>
          rw [read_dms num hnum h2]
          by_cases he : e.Fits
          · rw [gated, if_pos he, gated, if_pos (show Location.Fits (.coordinate (.dms d) (.dms e)) from ⟨hd, he⟩)]; rfl
          · rw [gated, if_neg he, gated, if_neg (show ¬ Location.Fits (.coordinate (.dms d) (.dms e)) from fun x => he x.2)]; rfl
      · rw [gated, if_neg hd, gated, if_neg]
        · rfl
        · cases lng with
          | decimal b => exact id
          | dms e => exact fun x => hd x.1

end

/-! ## Parts -/

theorem last_at {l : List (Expr Rule)} {w : Str} (i : Nat) (hx : l[i]? = some x) (hf : (l.take i).all (failsOn false · w) = true)
    (h : Last x n (w ++ t) U) : Last (alts l) n (w ++ t) U := by
  have e : l = l.take i ++ x :: l.drop (i + 1) := by
    obtain ⟨hi, rfl⟩ := List.getElem?_eq_some_iff.1 hx
    rw [List.getElem_cons_drop, List.take_append_drop]
  rw [e]
  exact last_alts hf h

theorem last_loc {l : Location} (h : l.Valid) : Last (coordinate ∥ colon_delimited_text) l.named l.text (· = [locTree l]) := by
  cases l with
  | fix name => exact last_named (seg_loc h) stop_over
  | coordinate lat lng => exact last_plain (seg_loc h) endTail_num

theorem last_decimal {v : Str} (h : IsDecimal v) : Last decimal n v (· = [.node .decimal v []]) := last_plain (seg_decimal h) endTail_num

theorem last_integer {v : Str} (h : IsInteger v) : Last integer n v (· = [.node .integer v []]) := last_plain (seg_integer h) endTail_num

theorem seg_decimalC {v : Str} (h : IsDecimal v) : S Colon decimal v [.node .decimal v []] := seg_mono (seg_decimal h) colon_num

theorem last_str {w : Str} (h : visibleHead w = true) : Last (.str w) n w (· = []) :=
  last_plain (C := fun _ => True) (seg_str h) fun _ _ => trivial

/-- One of two or more characters. -/
theorem seg_char2 {C : Str → Prop} {a b c : Char} (h : c ∈ [a, b]) (ha : visible a = true) (hb : visible b = true) :
    S C ((.str [a]) ∥ (.str [b])) [c] [] := by
  by_cases hc : c = a
  · subst hc; exact seg_alt_left (seg_str ha)
  · have : c = b := by simpa [hc] using h
    subst this
    exact seg_alt_right (fun r _ => fails_on [c] (by simpa [failsOn, failsHead, clash] using fun e => hc e.symm)) (seg_str hb)

theorem seg_char3 {C : Str → Prop} {a b d c : Char} (h : c ∈ [a, b, d]) (ha : visible a = true) (hb : visible b = true) (hd : visible d = true) :
    S C ((.str [a]) ∥ (.str [b]) ∥ (.str [d])) [c] [] := by
  by_cases hc : c = a
  · subst hc; exact seg_alt_left (seg_str ha)
  · exact seg_alt_right (fun r _ => fails_on [c] (by simpa [failsOn, failsHead, clash] using fun e => hc e.symm))
      (seg_char2 (by simpa [hc] using h) hb hd)

theorem seg_char4 {C : Str → Prop} {a b d e c : Char} (h : c ∈ [a, b, d, e]) (ha : visible a = true) (hb : visible b = true) (hd : visible d = true)
    (he : visible e = true) : S C ((.str [a]) ∥ (.str [b]) ∥ (.str [d]) ∥ (.str [e])) [c] [] := by
  by_cases hc : c = a
  · subst hc; exact seg_alt_left (seg_str ha)
  · exact seg_alt_right (fun r _ => fails_on [c] (by simpa [failsOn, failsHead, clash] using fun e => hc e.symm))
      (seg_char3 (by simpa [hc] using h) hb hd he)

/-! ## Alignments -/

def horizontalTrees (a : Align) : List Tr := a.horizontal.toList.map fun c => .node .horizontalalign [c] []
def verticalTrees (a : Align) : List Tr := a.vertical.toList.map fun c => .node .verticalalign [c] []
def configTree (a : Align) : Tr := .node .textalign_config a.text (horizontalTrees a ++ verticalTrees a)

theorem seg_horizontal {C : Str → Prop} {c : Char} (h : c ∈ c!"LCR") : S C horizontalalign [c] [.node .horizontalalign [c] []] :=
  seg_rule (seg_char3 h (by decide) (by decide) (by decide))

theorem seg_vertical {C : Str → Prop} {c : Char} (h : c ∈ c!"TCB") : S C verticalalign [c] [.node .verticalalign [c] []] :=
  seg_rule (seg_char3 h (by decide) (by decide) (by decide))

theorem fails_horizontal {r : Str} (h : HeadNot (fun c => decide (c ∈ c!"LCR")) r) : Fails skip horizontalalign .nonAtomic r := by
  have hl : LikeCls skip K ((.str c!"L") ∥ (.str c!"C") ∥ (.str c!"R")) .nonAtomic _ :=
    (likeCls_char 'L' _).alt ((likeCls_char 'C' _).alt (likeCls_char 'R' _) (hu _ rfl)) (hu _ rfl)
  refine fails_rule ((hl.fails _).2 fun c hc => ?_)
  have := h c hc
  simpa using this

theorem fails_vertical {r : Str} (h : HeadNot (fun c => decide (c ∈ c!"TCB")) r) : Fails skip verticalalign .nonAtomic r := by
  have hl : LikeCls skip K ((.str c!"T") ∥ (.str c!"C") ∥ (.str c!"B")) .nonAtomic _ :=
    (likeCls_char 'T' _).alt ((likeCls_char 'C' _).alt (likeCls_char 'B' _) (hu _ rfl)) (hu _ rfl)
  refine fails_rule ((hl.fails _).2 fun c hc => ?_)
  have := h c hc
  simpa using this

/-- A character behind which the line goes on. -/
theorem seg_noHorizontal {c : Char} (h : c ∉ c!"LCR") (hv : visible c = true) : S (fun r => ∃ t, r = c :: t) (.opt horizontalalign) [] [] := by
  refine seg_opt_none ?_ ?_
  · rintro r ⟨t, rfl⟩
    exact fails_horizontal (headNot_cons.2 (by simpa using h))
  · rintro r ⟨t, rfl⟩
    exact k_cons hv

theorem vertical_only {c : Char} (h : c ∈ c!"TCB") (hc : c ≠ 'C') : c ∉ c!"LCR" ∧ visible c = true := by
  simp only [List.mem_cons, List.not_mem_nil, or_false] at h
  rcases h with rfl | rfl | rfl
  · decide
  · exact absurd rfl hc
  · decide

theorem seg_config {a : Align} (h : a.Valid) : S Colon textalign_config a.text [configTree a] := by
  obtain ⟨hz, vt⟩ := a
  obtain ⟨h1, h2, h3⟩ := h
  have colonV : S Colon (.opt verticalalign) [] [] := by
    refine seg_opt_none ?_ ?_
    · rintro r ⟨t, rfl⟩
      exact fails_vertical (headNot_cons.2 (by decide))
    · rintro r ⟨t, rfl⟩
      exact k_colon _
  cases hz with
  | some c =>
    have hh := seg_opt_some (seg_horizontal (C := fun _ => True) (h1 c rfl))
    cases vt with
    | some d => exact seg_rule (seg_seq hh (seg_opt_some (seg_vertical (h2 d rfl))) fun _ _ => trivial)
    | none => exact seg_rule (seg_seq hh colonV fun _ _ => trivial)
  | none =>
    cases vt with
    | some d =>
      obtain ⟨q1, q2⟩ := vertical_only (h2 d rfl) fun e => h3 ⟨rfl, by rw [e]⟩
      exact seg_rule (seg_seq (seg_noHorizontal q1 q2) (seg_opt_some (seg_vertical (h2 d rfl))) fun r _ => ⟨r, rfl⟩)
    | none => exact seg_rule (seg_seq (seg_noHorizontal (c := ':') (by decide) (by decide)) colonV fun r hr => hr)

def alignTrees : Option Align → List Tr
  | none => []
  | some a => [configTree a]

theorem align_visible {a : Align} (h : a.Valid) (r : Str) : K [] (a.text ++ ':' :: r) := by
  have := (seg_config h (':' :: r) ⟨r, rfl⟩).2
  exact this

theorem seg_align {x : Option Align} (h : IsAlign x) : S Colon (.opt ((.str c!"/") ⬝ textalign_config)) (alignText x) (alignTrees x) := by
  cases x with
  | none =>
    refine seg_opt_none ?_ ?_
    · rintro r ⟨t, rfl⟩
      exact fails_on c!":" (x := t) (by decide)
    · rintro r ⟨t, rfl⟩
      exact k_colon _
  | some a =>
    have ha := h a rfl
    have hs := seg_config ha
    refine seg_opt_some fun r hr => ?_
    obtain ⟨o, k⟩ := hs r hr
    refine ⟨out_key (w := c!"/") k o, k_nil ?_⟩
    obtain ⟨t, rfl⟩ := hr
    have : (a.text ++ ':' :: t).head? ≠ some '/' := by
      obtain ⟨hz, vt⟩ := a
      obtain ⟨h1, h2, h3⟩ := ha
      intro e
      cases hz with
      | some c =>
        have e : some c = some '/' := e
        cases e
        exact absurd (h1 '/' rfl) (by decide)
      | none =>
        cases vt with
        | some c =>
          have e : some c = some '/' := e
          cases e
          exact absurd (h2 '/' rfl) (by decide)
        | none => exact absurd e (by simp [Align.text])
    show startsComment ('/' :: (a.text ++ ':' :: t)) = false
    unfold startsComment
    rw [if_neg (by decide)]
    cases hh : (a.text ++ ':' :: t).head? with
    | none => rfl
    | some d =>
      rw [hh] at this
      have hd : d ≠ '/' := fun e => this (by rw [e])
      simp [hd]

theorem last_textalign {a : Align} (h : a.Valid) : Last textalign false (c!"TEXTALIGN:" ++ a.text) (Is .textalign fun _ => True) := by
  obtain ⟨hz, vt⟩ := a
  obtain ⟨h1, h2, h3⟩ := h
  have overV : ∀ R, LineOver R → Blk skip K (.opt verticalalign) [] R [] := fun R o =>
    blk_opt_none (fails_vertical (over_not (by decide) o)) (k_nil (starts_over o))
  have fin : ∀ {U : List Tr → Prop}, Last ((.str c!"TEXTALIGN:") ⬝ textalign_config) false (c!"TEXTALIGN:" ++ Align.text ⟨hz, vt⟩) U →
      Last textalign false (c!"TEXTALIGN:" ++ Align.text ⟨hz, vt⟩) (Is .textalign fun _ => True) := fun h =>
    last_mono (last_rule h) fun u ⟨s, u', _, e⟩ => ⟨s, u', trivial, e⟩
  cases hz with
  | some c =>
    have hh := seg_opt_some (seg_horizontal (C := fun _ => True) (h1 c rfl))
    cases vt with
    | some d => exact fin (last_key (by decide) (last_rule (last_seg hh (fun _ => trivial) (last_opt (last_plain (C := fun _ => True) (seg_vertical (h2 d rfl)) fun _ _ => trivial)))))
    | none => exact fin (last_key (by decide) (last_rule (last_then (last_plain hh fun _ _ => trivial) overV)))
  | none =>
    cases vt with
    | some d =>
      obtain ⟨q1, q2⟩ := vertical_only (h2 d rfl) fun e => h3 ⟨rfl, by rw [e]⟩
      exact fin (last_key (by decide) (last_rule (last_seg (seg_noHorizontal q1 q2) (fun r => ⟨r, rfl⟩)
        (last_opt (last_plain (C := fun _ => True) (seg_vertical (h2 d rfl)) fun _ _ => trivial)))))
    | none =>
      refine fin (U := fun _ => True) fun cm R k o _ => ?_
      have b : Blk skip K ((.opt horizontalalign) ⬝ (.opt verticalalign)) [] R ([] ++ []) :=
        blk_seq (t1 := []) (t2 := []) (blk_opt_none (fails_horizontal (over_not (by decide) o)) (k_nil (starts_over o))) (overV R o)
      obtain ⟨s, b⟩ := blk_rule (q := Rule.textalign_config) b
      have := blk_seq (t2 := []) (r := R) (blk_gap (x := .str c!"TEXTALIGN:") (s := c!"TEXTALIGN:") (r := R) out_str0 k) b
      rw [List.append_nil] at this
      exact ⟨_, trivial, this, k_cons (by decide)⟩

/-! ## Captions -/

/-- A rest of a caption. -/
def IsCaption (s : Str) : Prop := s ≠ [] ∧ (∀ c ∈ s, ¬ IsNewline c ∧ c ≠ ';') ∧ ¬ c!"//" <:+: s ∧ NoTrail s ∧ s.getLast? ≠ some '/'

theorem caption_tail {c : Char} {t : Str} (h : IsCaption (c :: t)) (ht : t ≠ []) : IsCaption t := by
  obtain ⟨_, h2, h3, h4, h5⟩ := h
  refine ⟨ht, fun d hd => h2 d (List.mem_cons_of_mem _ hd), fun hi => h3 ?_, noTrail_suffix (a := [c]) h4, ?_⟩
  · obtain ⟨a, b, e⟩ := hi
    exact ⟨c :: a, b, by rw [← e]; rfl⟩
  · intro e
    apply h5
    cases t with
    | nil => exact absurd rfl ht
    | cons d t => rw [List.getLast?_cons_cons]; exact e

theorem caption_fresh : ∀ {s : Str} (x : Str), IsCaption s → Fresh (s ++ x)
  | [], _, h => absurd rfl h.1
  | c :: t, x, h => by
    have key : ∀ s : Str, IsCaption s → ∃ sp c t, s = sp ++ c :: t ∧ (∀ c ∈ sp, isSpTab c = true) ∧ isSpTab c = false ∧
        isNewlineChar c = false ∧ ∀ x, startsComment (c :: (t ++ x)) = false := by
      intro s
      induction s with
      | nil => intro h; exact absurd rfl h.1
      | cons c t ih =>
        intro h
        have hn := not_newline_iff.2 (h.2.1 c List.mem_cons_self).1
        cases hb : isSpTab c with
        | true =>
          have ht : t ≠ [] := by
            rintro rfl
            exact h.2.2.2.1 c rfl (blankChar_iff.1 hb)
          obtain ⟨sp, d, u, rfl, h1, h2⟩ := ih (caption_tail h ht)
          refine ⟨c :: sp, d, u, rfl, ?_, h2⟩
          intro e he
          rcases List.mem_cons.1 he with rfl | he
          · exact hb
          · exact h1 e he
        | false =>
          refine ⟨[], c, t, rfl, by simp, hb, hn, fun x => ?_⟩
          unfold startsComment
          rw [if_neg (blankChar_false.1 hb)]
          have h1 := (h.2.1 c List.mem_cons_self).2
          simp only [Bool.or_eq_false_iff, beq_eq_false_iff_ne, ne_eq, Bool.and_eq_false_iff]
          refine ⟨h1, ?_⟩
          by_cases hc : c = '/'
          · right
            subst hc
            cases t with
            | nil => exact absurd rfl h.2.2.2.2
            | cons d t =>
              intro e
              have e : d = '/' := by simpa using e
              subst e
              exact h.2.2.1 ⟨[], t, rfl⟩
          · exact Or.inl hc
    obtain ⟨sp, d, u, e, h1, h2, h3, h4⟩ := key _ h
    rw [e, List.append_assoc]
    exact fresh_cons h1 h2 h3 (h4 x)

/-- At the end of a line. -/
theorem fails_captionChar {R : Str} (o : LineOver R) : Fails skip ((.not NL) ⬝ .any) .nonAtomic R := by
  rcases o with rfl | ⟨sp, c, t, rfl, h1, h2⟩
  · refine fails_of_not_out good.ok (by rfl) ?_
    rintro s r' ts e ⟨s1, m, s2, t1, t2, rfl, _, _, ⟨c, rfl, _, rfl⟩, _⟩
    simp at e
  · have key : ∀ nl r, LineEnd nl r → c :: t = nl ++ r → ∃ st ts, eval skip nlOne .nonAtomic ⟨0, sp ++ c :: t, []⟩ = .ok st ts := by
      intro nl r hl e
      have hh : HeadNot isSpTab (nl ++ r) ∧ startsComment (nl ++ r) = false := by
        rcases hl with rfl | rfl | ⟨rfl, _⟩ <;> exact ⟨headNot_cons.2 (by decide), rfl⟩
      obtain ⟨s, m, e1, o1, k1⟩ := blk_blanks h1 hh.1 hh.2
      have o2 : Out skip K nlOne .nonAtomic (s ++ m ++ nl) r [] := ⟨s, m, nl, [], [], rfl, k1, by simpa using o1, out_newline_iff.2 ⟨hl, rfl⟩, rfl⟩
      exact ⟨_, _, out_eval good.uniform good.exact nlOne (by rfl) (by rfl) _ _ _ _ ⟨0, sp ++ c :: t, []⟩ o2 (by simp [e, e1])⟩
    have ok : ∃ st ts, eval skip nlOne .nonAtomic ⟨0, sp ++ c :: t, []⟩ = .ok st ts := by
      rcases newline_iff.1 h2 with rfl | rfl
      · exact key ['\n'] t (Or.inl rfl) rfl
      · by_cases ht : t.head? = some '\n'
        · cases t with
          | nil => cases ht
          | cons d t => cases ht; exact key ['\r', '\n'] t (Or.inr (Or.inl rfl)) rfl
        · exact key ['\r'] t (Or.inr (Or.inr ⟨rfl, ht⟩)) rfl
    obtain ⟨st, ts, h⟩ := plus_ok good.ok (x := nlOne) (a := .nonAtomic) (by rfl) ok
    exact fails_until_ok ⟨0, [], st, ts, h⟩

def contentTree (s : Str) : Tr := .node .text_content s []

theorem last_content {s : Str} (h : IsCaption s) : Last text_content (s.length = 1) s (· = [contentTree s]) := by
  intro cm R k o hn
  refine ⟨_, rfl, ?_, (k_nil (caption_fresh (cm ++ R) h).1 |> fun h => by simpa using h)⟩
  refine blk_gap (out_rule_normal ?_) k
  have hf := fails_captionChar o
  have one : ∀ {c : Char} {t : Str} (x : Str), IsCaption (c :: t) →
      Out skip K ((.not NL) ⬝ .any) .nonAtomic [c] (t ++ x) [] ∧ K [] ([c] ++ (t ++ x)) := fun {c t} x h => by
    have hfr := caption_fresh x h
    exact ⟨⟨[], [], [c], [], [], rfl, k_nil hfr.1, ⟨rfl, rfl, fails_NL_fresh hfr⟩, ⟨c, rfl, rfl, rfl⟩, rfl⟩, k_nil hfr.1⟩
  have all : ∀ (t : Str) (x : Str), (t ≠ [] → IsCaption t) → Reps (·.1)
      (fun p r => Out skip K ((.not NL) ⬝ .any) .nonAtomic p.1 r p.2 ∧ K [] (p.1 ++ r)) (t.map fun c => (([c], []) : Str × List Tr)) x := by
    intro t x
    induction t with
    | nil => intro _; trivial
    | cons c t ih =>
      intro h
      have h := h (by simp)
      refine ⟨?_, ih (caption_tail h)⟩
      have e : (t.map fun c => (([c], []) : Str × List Tr)).flatMap (·.1) = t := by simp [List.flatMap_map]
      rw [e]
      exact one x h
  cases s with
  | nil => exact absurd rfl h.1
  | cons c t =>
    cases t with
    | nil =>
      obtain ⟨rfl, _⟩ := hn (by simp)
      exact out_seq0 (s1 := [c]) (s2 := []) (t1 := []) (t2 := []) (k_nil (starts_over o)) (one R h).1 (Or.inl ⟨rfl, rfl, hf⟩)
    | cons d t =>
      have ht := caption_tail h (by simp)
      have o2 := out_star0 (x := (.not NL) ⬝ .any) rfl (all (d :: t) (cm ++ R) fun _ => ht) k (by simp) hf
      have e1 : ((d :: t).map fun c => (([c], []) : Str × List Tr)).flatMap (·.1) = d :: t := by simp [List.flatMap_map]
      have e2 : ((d :: t).map fun c => (([c], []) : Str × List Tr)).flatMap (·.2) = [] := by simp [List.flatMap_map]
      rw [e1, e2] at o2
      exact out_seq0 (s1 := [c]) (s2 := d :: t) (t1 := []) (t2 := []) (k_nil (caption_fresh (cm ++ R) ht).1) (one (cm ++ R) h).1 o2

end Verif.Proofs.Topsky
