import Verif.Proofs.TopskySetting
/-!
# Settings in TopSky map files and their meaning
-/

namespace Verif.Proofs.Topsky
open Verif.Peg Verif.Peg.Topsky Verif.Spec Verif.Spec.Topsky Verif.Dms
open Verif.Spec.Ese (DmsText IsRunway)
open Verif.Parse.Topsky
open Verif.Parse.Sct (Loc)

set_option linter.unusedSectionVars false

def settingAlts : List (Expr Rule) := [folder, colour, asrdata, active, andactive, layer, mapsymbol, fontstyle, fontsize, zoom, style,
  mapline, Peg.Topsky.text, global_, screen_specific, circle, coordline, coordpoly, coord, textalign, override_sct, hidden, sctfiledata, sctdata,
  coord_af, coord_hm, coord_pbd]

theorem map_setting_eq : map_setting = (.star ((.str c!" ") ∥ (.str ['\t']))) ⬝ alts settingAlts ⬝ (.opt NL) := rfl

variable {x y : Expr Rule} {n : Bool} {v t : Str} {U V : List Tr → Prop} {u u1 : List Tr} {C : Str → Prop}

/-- Settings without effect. -/
theorem last_is {q : Rule} (h : Last (.rule q .normal x) n v (fun ts => ∃ s u, U u ∧ ts = [.node q s u])) :
    Last (.rule q .normal x) n v (Is q fun _ => True) :=
  last_mono h fun _ ⟨s, u', _, e⟩ => ⟨s, u', trivial, e⟩

theorem last_path (h : IsPath v) : Last backslash_delimited_text true v (· = [path v]) := last_named (seg_path h) stop_over

theorem last_paths {a b : Str} (ha : IsPath a) (hb : IsPath b) :
    Last (backslash_delimited_text ⬝ (.str ['\\']) ⬝ backslash_delimited_text) true (a ++ '\\' :: b) (fun ts => ∃ u, u = [path b] ∧ ts = [path a] ++ u) :=
  last_seg (t := '\\' :: b) (seg_path ha) (fun r => Or.inl ⟨_, _, rfl, by decide, by decide⟩)
    (last_key (w := ['\\']) (by decide) (last_path hb))

theorem seg_flag {C : Str → Prop} (b : Bool) : S C boolean (flag b) [.node .boolean (flag b) []] := by
  cases b
  · exact seg_rule (seg_char2 (c := '0') (by decide) (by decide) (by decide))
  · exact seg_rule (seg_char2 (c := '1') (by decide) (by decide) (by decide))

/-- A number with a unit in front of a colon. -/
theorem seg_unit {q q1 : Rule} {w d : Str} (hw : visibleHead w = true) (hc : clash w c!":" false = true)
    (hn : ∀ r, NumEnd (w ++ r)) (h : IsDecimal d) (b : Bool) :
    ∃ u, S Colon (.rule q .normal (decimal ⬝ (.opt (.rule q1 .normal (.str w))))) (d ++ if b then w else []) [.node q (d ++ if b then w else []) u] := by
  cases b with
  | true => exact ⟨_, seg_rule (seg_seq (seg_decimal h) (seg_opt_some (seg_rule (seg_str hw))) fun r _ => hn r)⟩
  | false =>
    refine ⟨_, seg_rule (seg_seq (seg_decimal h) (seg_opt_none ?_ ?_) fun r hr => colon_num r hr)⟩
    · rintro r ⟨t, rfl⟩
      exact fails_rule (fails_str.2 (clash_spec (v := c!":") hc (by simp)))
    · rintro r ⟨t, rfl⟩
      exact k_colon _

theorem last_af {loc : Location} {a b c d : Str} {right : Bool} (h : (Setting.coordAf loc a b c right d).Valid) :
    Last coord_af false (Setting.coordAf loc a b c right d).text (Is .coord_af fun _ => True) := by
  obtain ⟨h1, h2, h3, h4, h5⟩ := h
  have dc : ∀ {C : Str → Prop} {v : Str}, IsDecimal v → S C (decimal ⬝ (.str c!":")) (v ++ c!":") _ := fun {C v} h =>
    seg_seq (C1 := Colon) (seg_decimalC h) (seg_str (w := c!":") (by decide)) fun r _ => ⟨r, rfl⟩
  have three := seg_seq (C := fun _ => True) (dc (C := fun _ => True) h2) (seg_seq (dc (C := fun _ => True) h3) (dc h4) fun _ _ => trivial) fun _ _ => trivial
  have sdir : S Colon direction (if right then c!">" else c!"<") [.node .direction (if right then c!">" else c!"<") []] := by
    cases right
    · exact seg_atomic (fun r _ => Or.inl ⟨rfl, rfl⟩) fun r _ => k_cons (by decide)
    · exact seg_atomic (fun r _ => Or.inr ⟨⟨rfl, rfl⟩, fails_str.2 (clash_spec (w := c!"<") (v := c!">") (closed := false) (by decide) (by simp))⟩) fun r _ => k_cons (by decide)
  have := last_is (last_rule (q := .coord_af) (last_key (w := c!"COORD_AF:") (n := false) (by decide) (last_colon (seg_locC h1)
    (last_seg three (fun _ => trivial) (last_colon sdir (last_decimal h5))))))
  have e : (Setting.coordAf loc a b c right d).text = _ := rfl
  refine (congrArg (fun v => Last coord_af false v (Is .coord_af fun _ => True)) ?_).mp this
  simp [Setting.text]

theorem last_hm {loc : Location} {course leg radius step : Str} {magnetic left minutes knots : Bool}
    (h : (Setting.coordHm loc course magnetic left leg minutes radius knots step).Valid) :
    Last coord_hm false (Setting.coordHm loc course magnetic left leg minutes radius knots step).text (Is .coord_hm fun _ => True) := by
  obtain ⟨h1, h2, h3, h4, h5⟩ := h
  obtain ⟨_, s1⟩ := seg_unit (q := .inbound_course) (q1 := .is_magnetic) (w := c!"M") (by decide) (by decide) (fun _ => headNot_cons.2 (by decide)) h2 magnetic
  obtain ⟨_, s2⟩ := seg_unit (q := .length) (q1 := .is_minutes) (w := c!"MIN") (by decide) (by decide) (fun _ => headNot_cons.2 (by decide)) h3 minutes
  obtain ⟨_, s3⟩ := seg_unit (q := .radius) (q1 := .is_knots) (w := c!"KTS") (by decide) (by decide) (fun _ => headNot_cons.2 (by decide)) h4 knots
  have sdir : S Colon turn_direction (if left then c!"L" else c!"R") [.node .turn_direction (if left then c!"L" else c!"R") []] := by
    cases left
    · exact seg_rule (seg_char2 (c := 'R') (by decide) (by decide) (by decide))
    · exact seg_rule (seg_char2 (c := 'L') (by decide) (by decide) (by decide))
  exact last_is (last_rule (last_key (by decide) (last_colon (seg_locC h1) (last_colon s1 (last_colon sdir (last_colon s2 (last_colon s3 (last_decimal h5))))))))

theorem last_digits {ds : Str} (h : IsDigits ds) : Last (.plus (.cls isAsciiDigit)) n ds (· = []) := fun _ R k o _ =>
  ⟨_, rfl, pb_digits h k (over_not (by decide) o)⟩

theorem last_slash (h : Last y n t U) (hh : ∀ r, (t ++ r).head? ≠ some '/') : Last ((.str c!"/") ⬝ y) n ('/' :: t) U := fun cm R k o hn => by
  obtain ⟨u, h1, h2⟩ := h cm R k o (trail_of (a := c!"/") hn)
  refine ⟨u, h1, blk_key (w := c!"/") (by simpa using h2.2) h2.1, k_nil ?_⟩
  show startsComment ('/' :: (t ++ cm ++ R)) = false
  unfold startsComment
  have := hh (cm ++ R)
  rw [if_neg (by decide), List.append_assoc]
  cases e : (t ++ (cm ++ R)).head? with
  | none => rfl
  | some d =>
    rw [e] at this
    have hd : d ≠ '/' := fun e => this (by rw [e])
    simp [hd]

theorem last_pbd {icao runway d digits : Str} (h : (Setting.coordPbd icao runway d digits).Valid) :
    Last coord_pbd false (Setting.coordPbd icao runway d digits).text (Is .coord_pbd fun _ => True) := by
  obtain ⟨h1, h2, h3, h4⟩ := h
  have h6 := last_colon (n := false) (seg_mono (seg_designator h2) fun r hr => runwaysEnd_num r (Or.inr hr))
    (last_colon (seg_decimalC h3) (last_digits h4))
  refine last_is (last_rule (last_key (by decide) (last_seg (C := fun _ => True) (seg_icao h1) (fun _ => trivial) (last_slash h6 fun r => ?_))))
  obtain ⟨x, y, t, rfl, hx, _⟩ := h2
  intro e
  have e : x = '/' := by simpa using e
  subst e
  exact absurd hx (by decide)

/-! ## All settings -/

section
variable {F G : Type} [F64 F] [DmsArith F] [DecidableEq F] [F64 G] (num : Str → F) (numG : Str → G) (upper : Str → Str)

/-- A token that stands for the setting. -/
def Reads (s : Setting) (ts : List Tr) : Prop :=
  ∃ t, ts = [t] ∧ parseMapRule upper t = gated s.Fits (s.value num numG upper)

variable (hnum : ∀ s, IsDecimal s → F64.ofText s = some (num s)) (hnumG : ∀ s, IsDecimal s → F64.ofText s = some (numG s))
include hnum hnumG

theorem read_symbol {align : Option Align} {name : Str} {loc : Location} {label : Option (Str × Str × Str)} (hl : loc.Valid) {s : Str} {ls : List Tr}
    (h : parseOptLabel (F := F) ls = .ok (label.map fun l => ⟨l.1, num l.2.1, num l.2.2⟩)) :
    parseMapRule (G := G) upper (.node .mapsymbol s (alignTrees align ++ ([text name] ++ ([locTree loc] ++ ls)))) =
      gated (Setting.symbol align name loc label).Fits ((Setting.symbol align name loc label).value num numG upper) := by
  have e : parseMapRule (F := F) (G := G) upper (.node .mapsymbol s (alignTrees align ++ ([text name] ++ ([locTree loc] ++ ls)))) =
      (parseLocation (locTree loc)).bind fun l => (parseOptLabel ls).bind fun lb => .ok (some (.symbol ⟨name, l, lb⟩)) := by
    have : parseMapRule (F := F) (G := G) upper (.node .mapsymbol s (alignTrees align ++ ([text name] ++ ([locTree loc] ++ ls)))) =
      (((parseLocation (locTree loc)).bind fun l => .ok (l, ls)).bind fun p => (parseOptLabel p.2).bind fun lb => .ok (⟨name, p.1, lb⟩ : MapSymbol F)).bind
        fun s => .ok (some (.symbol s)) := by
      cases align <;> rfl
    rw [this]
    cases parseLocation (F := F) (locTree loc) with
    | error f => rfl
    | ok l =>
      show ((parseOptLabel ls).bind _).bind _ = (parseOptLabel ls).bind _
      cases parseOptLabel (F := F) ls <;> rfl
  rw [e, read_loc num hnum hl, gated_ok (p := loc.Fits) (w := (Setting.symbol align name loc label).value num numG upper)]
  · rfl
  · rw [h]; rfl

theorem read_caption {align : Option Align} {content : Str} {loc : Location} (hl : loc.Valid) {s : Str} :
    parseMapRule (G := G) upper (.node .text s (alignTrees align ++ ([locTree loc] ++ [contentTree content]))) =
      gated (Setting.caption align loc content).Fits ((Setting.caption align loc content).value num numG upper) := by
  have e : parseMapRule (F := F) (G := G) upper (.node .text s (alignTrees align ++ ([locTree loc] ++ [contentTree content]))) =
      (parseLocation (locTree loc)).bind fun l => .ok (some (.text ⟨l, content⟩)) := by
    have : parseMapRule (F := F) (G := G) upper (.node .text s (alignTrees align ++ ([locTree loc] ++ [contentTree content]))) =
      ((parseLocation (locTree loc)).bind fun l => .ok (⟨l, content⟩ : Text F)).bind fun s => .ok (some (.text s)) := by
      cases align with
      | none => cases loc <;> rfl
      | some a => rfl
    rw [this]
    cases parseLocation (F := F) (locTree loc) <;> rfl
  rw [e, read_loc num hnum hl, gated_ok (p := loc.Fits) (w := (Setting.caption align loc content).value num numG upper)]
  · rfl
  · rfl

theorem last_setting {s : Setting} (h : s.Valid) : Last (alts settingAlts) s.named s.text (Reads num numG upper s) := by
  have ok : ∀ {s : Setting} {t : Tr}, s.Fits → parseMapRule upper t = .ok (s.value num numG upper) → Reads num numG upper s [t] :=
    fun hf h => ⟨_, rfl, h.trans (gated_true hf).symm⟩
  have none : ∀ {s : Setting} {q : Rule} {ts : List Tr}, s.Fits → s.value num numG upper = Option.none →
      (∀ s u, parseMapRule (F := F) (G := G) upper (.node q s u) = .ok Option.none) → Is q (fun _ => True) ts → Reads num numG upper s ts := by
    rintro s q ts hf hv hp ⟨s', u, _, rfl⟩
    exact ok hf (by rw [hp, hv])
  have colon : ∀ t, Colon (':' :: t) := fun t => ⟨t, rfl⟩
  cases s with
  | folder name =>
    refine last_mono (last_at 0 rfl (by decide +kernel) (last_rule (last_key (by decide) (last_name h)))) ?_
    rintro _ ⟨s, _, rfl, rfl⟩
    exact ok trivial rfl
  | colour name more =>
    obtain ⟨h1, h2, h3⟩ := h
    have one : ∀ {v : Str}, IsName v → Last (.opt ((.str c!":") ⬝ colon_delimited_text)) true (':' :: v) _ := fun h =>
      last_opt (last_key (w := c!":") (by decide) (last_name h))
    have over : ∀ R, LineOver R → Blk skip K (.opt ((.str c!":") ⬝ colon_delimited_text)) [] R [] := fun R o => opt_over (by decide) o
    match more, h2, h3 with
    | [], _, _ =>
      have := last_then (y := (.opt ((.str c!":") ⬝ colon_delimited_text)) ⬝ (.opt ((.str c!":") ⬝ colon_delimited_text))) (last_name h1)
        fun R o => blk_seq (t1 := []) (t2 := []) (u1 := []) (u2 := []) (over _ o) (over R o)
      refine last_mono (last_at (t := name ++ []) 1 rfl (by decide +kernel) (last_rule (last_key (by decide) (by simpa [Setting.named] using this)))) ?_
      rintro _ ⟨s, _, rfl, rfl⟩
      exact ok trivial rfl
    | [a], _, h3 =>
      have := last_seg (t := ':' :: a) (seg_nameC h1) (fun r => colon _) (last_then (one (h3 a (by simp))) over)
      refine last_mono (last_at (t := name ++ [a].flatMap fun n => ':' :: n) 1 rfl (by decide +kernel) (last_rule (last_key (by decide) (by simpa [Setting.named] using this)))) ?_
      rintro _ ⟨s, _, ⟨_, rfl, rfl⟩, rfl⟩
      exact ok trivial rfl
    | [a, b], _, h3 =>
      have sa : S Colon (.opt ((.str c!":") ⬝ colon_delimited_text)) (':' :: a) _ :=
        seg_opt_some (seg_seq (v := c!":") (C1 := fun _ => True) (seg_str (by decide)) (seg_nameC (h3 a (by simp))) fun _ _ => trivial)
      have := last_seg (t := ':' :: a ++ ':' :: b) (seg_nameC h1) (fun r => colon _) (last_seg (t := ':' :: b) sa (fun r => colon _) (one (h3 b (by simp))))
      refine last_mono (last_at (t := name ++ [a, b].flatMap fun n => ':' :: n) 1 rfl (by decide +kernel) (last_rule (last_key (by decide) (by simpa [Setting.named] using this)))) ?_
      rintro _ ⟨s, _, ⟨_, ⟨_, rfl, rfl⟩, rfl⟩, rfl⟩
      exact ok trivial rfl
  | asrData l =>
    refine last_mono (last_at 2 rfl (by decide +kernel) (last_rule (last_key (by decide) (last_choice h)))) ?_
    rintro _ ⟨s, _, rfl, rfl⟩
    refine ok trivial ?_
    show (parseNames (choiceTree l)).bind _ = _
    rw [read_choice]
    rfl
  | active c =>
    refine last_mono (last_at 3 rfl (by decide +kernel) (last_rule (last_key (by decide) (last_cond h)))) ?_
    rintro _ ⟨s, _, ⟨t, rfl, ht⟩, rfl⟩
    refine ok trivial ?_
    show (parseActive _).bind _ = _
    rw [ht]
    rfl
  | andActive c =>
    refine last_mono (last_at 4 rfl (by decide +kernel) (last_rule (last_key (by decide) (last_cond h)))) ?_
    rintro _ ⟨s, _, ⟨t, rfl, ht⟩, rfl⟩
    refine ok trivial ?_
    show (parseActive _).bind _ = _
    rw [ht]
    rfl
  | layer d =>
    refine last_mono (last_at 5 rfl (by decide +kernel) (last_rule (last_key (by decide) (last_integer h)))) ?_
    rintro _ ⟨s, _, rfl, rfl⟩
    refine ok trivial ?_
    show ((unwrap (F64.ofText d)).bind _).bind _ = _
    rw [hnumG _ h.isDecimal]
    rfl
  | symbol align name loc label =>
    obtain ⟨h1, h2, h3, h4⟩ := h
    cases label with
    | none =>
      refine last_mono (last_at 6 rfl (by decide +kernel) (last_rule (last_key (by decide) (last_colon (seg_align h1) (last_colon (seg_nameC h2)
        (last_then (last_loc h3) fun R o => opt_over (by decide) o)))))) ?_
      rintro _ ⟨s, _, ⟨_, ⟨_, rfl, rfl⟩, rfl⟩, rfl⟩
      exact ⟨_, rfl, read_symbol num numG upper hnum hnumG (label := Option.none) (ls := []) h3 rfl⟩
    | some l =>
      obtain ⟨txt, a, b⟩ := l
      obtain ⟨h5, h6, h7⟩ := h4 _ _ _ rfl
      have lab : Last (.opt ((.str c!":") ⬝ mapsymbollabel)) false (':' :: (txt ++ ':' :: (a ++ ':' :: b))) _ :=
        last_opt (last_key (w := c!":") (by decide) (last_rule (last_colon (seg_nameC h5) (last_rule (last_colon (seg_decimalC h6) (last_decimal h7))))))
      refine last_mono (last_at 6 rfl (by decide +kernel) (last_rule (last_key (by decide) (last_colon (seg_align h1) (last_colon (seg_nameC h2)
        (last_seg (seg_locC h3) (fun r => colon _) lab)))))) ?_
      rintro _ ⟨s, _, ⟨_, ⟨_, ⟨_, ⟨s2, _, ⟨_, ⟨s3, _, ⟨_, rfl, rfl⟩, rfl⟩, rfl⟩, rfl⟩, rfl⟩, rfl⟩, rfl⟩, rfl⟩
      refine ⟨_, rfl, read_symbol num numG upper hnum hnumG (label := some (txt, a, b)) h3 ?_⟩
      show ((((unwrap (F64.ofText a)).bind _).bind _).bind _).bind _ = _
      rw [hnum _ h6]
      show (((((unwrap (F64.ofText b)).bind _).bind _)).bind _).bind _ = _
      rw [hnum _ h7]
      rfl
  | fontStyle w a b c =>
    refine last_mono (last_at 7 rfl (by decide +kernel) (last_is (last_rule (last_key (by decide) (last_alt_left (last_rule
      (last_colon (seg_mono (seg_integer h) colon_num) (last_colon (seg_flag a) (last_colon (seg_flag b)
        (last_plain (C := fun _ => True) (seg_flag c) fun _ _ => trivial)))))))))) ?_
    exact fun _ => none trivial rfl fun _ _ => rfl
  | defaultFontStyle =>
    refine last_mono (last_at (w := c!"FONTSTYLE:") (t := c!"0") 7 rfl (by decide +kernel) (last_is (last_rule (last_key (by decide) (last_alt_right' ?_ (last_rule (last_str (by decide)))))))) ?_
    · intro cm R k o _
      refine fails_rule ?_
      have o1 := seg_integer (v := c!"0") ⟨[], c!"0", rfl, Or.inl rfl, by decide, by decide⟩ (cm ++ R) (endTail_num _ ⟨cm, R, rfl, k, o⟩)
      have := fails_seq_right (y := (.str c!":") ⬝ boolean ⬝ (.str c!":") ⬝ boolean ⬝ (.str c!":") ⬝ boolean) good.uniform good.exact rfl (by decide) (hu _ rfl) (blk_gap o1.1 k) (fails_over (by decide) o)
      simpa using this
    · exact fun _ => none trivial rfl fun _ _ => rfl
  | fontSize op d =>
    obtain ⟨h1, h2⟩ := h
    have sop : S Colon font_symbol [op] [.node .font_symbol [op] []] := seg_rule (seg_char4 h1 (by decide) (by decide) (by decide) (by decide))
    refine last_mono (last_at 8 rfl (by decide +kernel) (last_rule (last_key (by decide) (last_alt_left (last_colon sop (last_decimal h2)))))) ?_
    rintro _ ⟨s, _, ⟨_, rfl, rfl⟩, rfl⟩
    refine ok trivial ?_
    show (((unwrap (F64.ofText d)).bind _).bind _).bind _ = _
    rw [hnumG _ h2]
    simp only [List.mem_cons, List.not_mem_nil, or_false] at h1
    rcases h1 with rfl | rfl | rfl | rfl <;> rfl
  | defaultFontSize =>
    refine last_mono (last_at (w := c!"FONTSIZE:") (t := c!"0") 8 rfl (by decide +kernel) (last_rule (last_key (by decide) (last_alt (w := c!"0") (t := []) (by decide)
      (last_rule (last_str (by decide))))))) ?_
    rintro _ ⟨s, _, ⟨_, _, rfl, rfl⟩, rfl⟩
    exact ok trivial rfl
  | zoom d =>
    refine last_mono (last_at 9 rfl (by decide +kernel) (last_rule (last_key (by decide) (last_decimal h)))) ?_
    rintro _ ⟨s, _, rfl, rfl⟩
    refine ok trivial ?_
    show ((unwrap (F64.ofText d)).bind _).bind _ = _
    rw [hnumG _ h]
    rfl
  | style name w =>
    obtain ⟨h1, h2⟩ := h
    cases w with
    | none =>
      refine last_mono (last_at 10 rfl (by decide +kernel) (last_rule (last_key (by decide) (last_then (last_name h1) fun R o => opt_over (by decide) o)))) ?_
      rintro _ ⟨s, _, rfl, rfl⟩
      exact ok trivial rfl
    | some w =>
      have hw := h2 w rfl
      refine last_mono (last_at 10 rfl (by decide +kernel) (last_rule (last_key (by decide) (last_seg (t := ':' :: w) (seg_nameC h1) (fun r => colon _)
        (last_opt (last_key (w := c!":") (by decide) (last_integer hw))))))) ?_
      rintro _ ⟨s, _, ⟨_, rfl, rfl⟩, rfl⟩
      refine ok trivial ?_
      show Except.ok (some (MapRule.lineStyle ⟨(parseSigned (2 ^ 31) w).getD 1, upper name⟩)) = _
      rw [parseSigned_integer hw (by decide)]
      simp only [Setting.value, width]
      by_cases hh : -(2 ^ 31 : Int) ≤ intValue w ∧ intValue w < 2 ^ 31
      · rw [if_pos hh, if_pos (by simpa using hh)]; rfl
      · rw [if_neg hh, if_neg (by simpa using hh)]; rfl
  | caption align loc content =>
    obtain ⟨h1, h2, h3⟩ := h
    refine last_mono (last_at 12 rfl (by decide +kernel) (last_rule (last_key (by decide) (last_colon (seg_align h1) (last_colon (seg_locC h2) (last_content h3)))))) ?_
    rintro _ ⟨s, _, ⟨_, ⟨_, rfl, rfl⟩, rfl⟩, rfl⟩
    exact ⟨_, rfl, read_caption num numG upper hnum hnumG h2⟩
  | global =>
    refine last_mono (last_at (w := c!"GLOBAL") (t := []) 13 rfl (by decide +kernel) (last_rule (last_str (by decide)))) ?_
    rintro _ ⟨s, _, _, rfl⟩
    exact ok trivial rfl
  | screenSpecific =>
    refine last_mono (last_at (w := c!"SCREEN-SPECIFIC") (t := []) 14 rfl (by decide +kernel) (last_rule (last_str (by decide)))) ?_
    rintro _ ⟨s, _, _, rfl⟩
    exact ok trivial rfl
  | circle long lat lng r d =>
    obtain ⟨h1, h2, h3, h4⟩ := h
    have rest := last_colon (n := false) (seg_mono (seg_coord h1 h2) colon_num) (last_colon (seg_decimalC h3) (last_decimal h4))
    cases long with
    | true =>
      refine last_mono (last_at 15 rfl (by decide +kernel) (last_is (last_rule (last_seg (C := fun _ => True) (v := c!"COORD_CIRCLE:")
        (seg_alt_left (seg_str (by decide))) (fun _ => trivial) rest)))) ?_
      exact fun _ => none trivial rfl fun _ _ => rfl
    | false =>
      refine last_mono (last_at 15 rfl (by decide +kernel) (last_is (last_rule (last_seg (C := fun _ => True) (v := c!"CIRCLE:")
        (seg_alt_right (fun r _ => fails_on c!"CIRCLE:" (x := r) (by decide)) (seg_str (by decide))) (fun _ => trivial) rest)))) ?_
      exact fun _ => none trivial rfl fun _ _ => rfl
  | coordLine =>
    refine last_mono (last_at (w := c!"COORDLINE") (t := []) 16 rfl (by decide +kernel) (last_rule (last_str (by decide)))) ?_
    rintro _ ⟨s, _, _, rfl⟩
    exact ok trivial rfl
  | coordPoly d =>
    refine last_mono (last_at 17 rfl (by decide +kernel) (last_rule (last_key (by decide) (last_integer h)))) ?_
    rintro _ ⟨s, _, rfl, rfl⟩
    exact ok trivial rfl
  | coord loc =>
    refine last_mono (last_at 18 rfl (by decide +kernel) (last_rule (last_key (by decide) (last_loc h)))) ?_
    rintro _ ⟨s, _, rfl, rfl⟩
    refine ⟨_, rfl, ?_⟩
    show ((parseLocation (locTree loc)).bind _).bind _ = _
    rw [read_loc num hnum h]
    by_cases hf : loc.Fits
    · rw [gated, if_pos hf]
      exact (gated_true (p := (Setting.coord loc).Fits) hf).symm
    · rw [gated, if_neg hf]
      exact (if_neg (c := (Setting.coord loc).Fits) hf).symm
  | textAlign a => exact last_mono (last_at 19 rfl (by decide +kernel) (last_textalign h)) fun _ => none trivial rfl fun _ _ => rfl
  | hidden =>
    refine last_mono (last_at (w := c!"HIDDEN") (t := []) 21 rfl (by decide +kernel) (last_rule (last_str (by decide)))) ?_
    rintro _ ⟨s, _, _, rfl⟩
    exact ok trivial rfl
  | sctFileData mono a b =>
    obtain ⟨h1, h2⟩ := h
    have smono : S Colon (.opt sctfiledata_ignore_style) (if mono then c!"/MONO" else [])
        (if mono then [.node .sctfiledata_ignore_style c!"/MONO" []] else []) := by
      cases mono with
      | true => exact seg_opt_some (seg_rule fun r _ => ⟨out_str0, k_nil rfl⟩)
      | false =>
        refine seg_opt_none ?_ ?_
        · rintro r ⟨t, rfl⟩
          exact fails_on c!":" (x := t) (by decide)
        · rintro r ⟨t, rfl⟩
          exact k_colon _
    refine last_mono (last_at 22 rfl (by decide +kernel) (last_is (last_rule (last_key (by decide) (last_colon smono (last_paths h1 h2)))))) ?_
    exact fun _ => none trivial rfl fun _ _ => rfl
  | sctData a b =>
    obtain ⟨h1, h2⟩ := h
    refine last_mono (last_at (w := c!"SCTDATA") (t := ':' :: (a ++ '\\' :: b)) 23 rfl (by decide +kernel) (last_is (last_rule (last_key (by decide)
      (last_key (w := c!":") (by decide) (last_paths h1 h2)))))) ?_
    exact fun _ => none trivial rfl fun _ _ => rfl
  | coordAf loc a b c right d => exact last_mono (last_at 24 rfl (by decide +kernel) (last_af h)) fun _ => none trivial rfl fun _ _ => rfl
  | coordHm loc course magnetic left leg minutes radius knots step =>
    exact last_mono (last_at 25 rfl (by decide +kernel) (last_hm h)) fun _ => none trivial rfl fun _ _ => rfl
  | coordPbd icao runway d digits => exact last_mono (last_at 26 rfl (by decide +kernel) (last_pbd h)) fun _ => none trivial rfl fun _ _ => rfl

end

end Verif.Proofs.Topsky
