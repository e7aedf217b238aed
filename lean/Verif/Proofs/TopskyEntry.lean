import Verif.Proofs.TopskySettingRead
/-!
# Elements of TopSky maps
-/

namespace Verif.Proofs.Topsky
open Verif.Peg Verif.Peg.Topsky Verif.Spec Verif.Spec.Topsky Verif.Dms
open Verif.Parse.Topsky
open Verif.Parse.Sct (Loc)

set_option linter.unusedSectionVars false

variable {x y : Expr Rule} {n : Bool} {v t f r : Str} {U V : List Tr → Prop} {u u1 : List Tr} {C : Str → Prop}

/-! ## Ends of lines -/

theorem fresh_head {w : Str} (h : visibleHead w = true) (t : Str) : Fresh (w ++ t) := by
  cases w with
  | nil => cases h
  | cons c w =>
    have hc : visible c = true := h
    have h0 := starts_visible (t := w ++ t) hc
    simp only [visible, Bool.and_eq_true, Bool.not_eq_true', bne_iff_ne, ne_eq] at hc
    exact fresh_cons (sp := []) (by simp) hc.1.1.1 hc.1.1.2 h0

/-- An element and parts that only match the end of the line. -/
theorem ends_then (h : Last x n v U) (hf : EndsAs n v f r) (hr : Fresh r)
    (hy : ∀ f', LineOver (f' ++ r) → Blk skip K (.opt NL) f' r [] → Blk skip K y f' r []) :
    ∃ u, U u ∧ P (x ⬝ y) (v ++ f) r u := by
  cases n with
  | true =>
    obtain ⟨h1, h2⟩ := hf.1 rfl
    obtain ⟨o, b⟩ := nameEnds_NL h2 hr
    obtain ⟨u, hu, h3⟩ := h [] (f ++ r) (k_nil (starts_over o)) o fun _ => ⟨rfl, h1⟩
    have := pb_seq (t2 := f) (by simpa using h3) (hy f o b)
    exact ⟨u, hu, by simpa using this⟩
  | false =>
    obtain ⟨cm, f', rfl, k, o, b⟩ := ends_NL (hf.2 rfl) hr
    obtain ⟨u, hu, h3⟩ := h cm (f' ++ r) k o (by simp)
    have := pb_seq (t2 := f') h3 (hy f' o b)
    exact ⟨u, hu, by simpa using this⟩

theorem ends_line (h : Last x n v U) (hf : EndsAs n v f r) (hr : Fresh r) : ∃ u, U u ∧ P (x ⬝ (.opt NL)) (v ++ f) r u :=
  ends_then h hf hr fun _ _ b => b

theorem endsAs_suffix {a : Str} (h : EndsAs n (a ++ v) f r) : EndsAs n v f r :=
  ⟨fun e => ⟨noTrail_suffix (h.1 e).1, (h.1 e).2⟩, h.2⟩

theorem optNL_none (hr : Fresh r) : Blk skip K (.opt NL) [] r [] := blk_opt_none (fails_NL_fresh hr) (k_nil hr.1)

/-- One of several alternatives. -/
theorem pb_at {l : List (Expr Rule)} (i : Nat) {w : Str} (hx : l[i]? = some x) (hf : (l.take i).all (failsOn false · w) = true)
    (hw : w <+: t) (h : P x t r u) : P (alts l) t r u := by
  have key : ∀ (l1 : List (Expr Rule)) (l2 : List (Expr Rule)), l1.all (failsOn false · w) = true → P (alts (l1 ++ x :: l2)) t r u := by
    intro l1 l2 hf
    induction l1 with
    | nil => cases l2 with
      | nil => exact h
      | cons => exact pb_alt_left h
    | cons a l1 ih =>
      simp only [List.all_cons, Bool.and_eq_true] at hf
      have h2 := ih hf.2
      have h3 : P (a ∥ alts (l1 ++ x :: l2)) t r u := by
        refine pb_alt_right ?_ h2
        obtain ⟨t', rfl⟩ := hw
        rw [List.append_assoc]
        exact fails_on w hf.1
      cases l1 <;> exact h3
  have e : l = l.take i ++ x :: l.drop (i + 1) := by
    obtain ⟨hi, rfl⟩ := List.getElem?_eq_some_iff.1 hx
    rw [List.getElem_cons_drop, List.take_append_drop]
  rw [e]
  exact key _ _ hf

/-! ## `OVERRIDE_SCT_MAP` -/

def overrideTrees (folder : Str) (name : Option Str) : List Tr := path folder :: (name.map text).toList

theorem pb_override {folder : Str} {name : Option Str} (h : IsPathName folder name)
    (hf : EndsAs true (overrideText folder name) f r) (hr : Fresh r) :
    ∃ s, P override_sct (overrideText folder name ++ f) r [.node .override_sct s (overrideTrees folder name)] := by
  cases name with
  | none =>
    obtain ⟨u, rfl, h1⟩ := ends_then (y := (.opt ((.str ['\\']) ⬝ colon_delimited_text)) ⬝ (.opt NL)) (last_path h) (endsAs_suffix hf) hr
      fun f' o b => blk_seq (t1 := []) (u1 := []) (opt_over (by decide) o) b
    obtain ⟨s, h2⟩ := pb_rule (q := .override_sct) (pb_key (w := c!"OVERRIDE_SCT_MAP:") (fun _ => k_head (by decide)) h1)
    refine ⟨s, ?_⟩
    have e : overrideText folder none ++ f = c!"OVERRIDE_SCT_MAP:" ++ (folder ++ f) := by simp [overrideText, pathName]
    rw [e]
    exact h2
  | some m =>
    obtain ⟨h1, h2⟩ := h
    have hf : EndsAs true (c!"OVERRIDE_SCT_MAP:" ++ (folder ++ '\\' :: m)) f r := hf
    obtain ⟨u, rfl, h3⟩ := ends_line (last_opt (last_key (w := ['\\']) (by decide) (last_name h2))) (endsAs_suffix (endsAs_suffix hf)) hr
    have kb : K [] ('\\' :: m ++ f ++ r) := by simpa using h3.2
    have h4 := pb_seq (t2 := '\\' :: m ++ f) (pb_of_seg (r := '\\' :: m ++ f ++ r) (seg_path h1) (Or.inl ⟨_, _, rfl, by decide, by decide⟩) kb) h3.1
    obtain ⟨s, h5⟩ := pb_rule (q := .override_sct) (pb_key (w := c!"OVERRIDE_SCT_MAP:") (fun _ => k_head (by decide)) h4)
    refine ⟨s, ?_⟩
    have e : overrideText folder (some m) ++ f = c!"OVERRIDE_SCT_MAP:" ++ (folder ++ ('\\' :: m ++ f)) := by
      simp [overrideText, pathName]
    rw [e]
    exact h5

/-- Consecutive elements and what precedes the text that follows them. -/
theorem reps_row {A : Type} {txt : A → Str} {ok Q : A → Str → Prop} {C : Str → Prop} : ∀ {l : List A} {r : Str}, InRow txt ok l r →
    (∀ a ∈ l, ∀ r, ok a r → C r → Q a r ∧ C (txt a ++ r)) → C r → Reps txt Q l r ∧ C (l.flatMap txt ++ r)
  | [], _, _, _, hr => ⟨trivial, hr⟩
  | a :: l, r, ⟨h1, h2⟩, h, hr => by
    obtain ⟨h3, h4⟩ := reps_row h2 (fun b hb => h b (List.mem_cons_of_mem _ hb)) hr
    obtain ⟨h5, h6⟩ := h a List.mem_cons_self _ h1 h4
    exact ⟨⟨h5, h3⟩, by simpa using h6⟩

/-! ## Lines -/

section
variable {F G : Type} [F64 F] [DmsArith F] [DecidableEq F] [F64 G] (num : Str → F) (numG : Str → G) (upper : Str → Str)

def lineOne : Expr Rule := (.str c!"LINE:") ⬝ (maplinecoordinates ∥ maplinewpts) ⬝ (.opt NL)

def ReadsStretch (x : Stretch) (ts : List Tr) : Prop :=
  ∃ t, ts = [t] ∧ parseEnds t = gated x.Fits (x.start.value num, x.stop.value num)

variable (hnum : ∀ s, IsDecimal s → F64.ofText s = some (num s)) (hnumG : ∀ s, IsDecimal s → F64.ofText s = some (numG s))
include hnum

theorem read_stretch {x : Stretch} (h : x.Valid) {q : Rule} {s : Str} :
    parseEnds (.node q s [locTree x.start, locTree x.stop]) = gated x.Fits (x.start.value num, x.stop.value num) := by
  show (parseLocation (locTree x.start) >>= fun l => pure (l, [locTree x.stop])) >>= _ = _
  rw [read_loc num hnum h.1]
  show ((gated x.start.Fits (x.start.value num)).bind fun l => Except.ok (l, [locTree x.stop])).bind _ = _
  rw [gated_ok (f := fun l => Except.ok (l, [locTree x.stop])) (w := (x.start.value num, [locTree x.stop])) rfl]
  refine gated_bind ?_
  show ((parseLocation (locTree x.stop)).bind fun l => Except.ok (l, [])).bind _ = _
  rw [read_loc num hnum h.2, gated_ok (f := fun l => Except.ok (l, [])) (w := (x.stop.value num, [])) rfl]
  exact gated_ok rfl

theorem last_stretch {x : Stretch} (h : x.Valid) :
    Last (maplinecoordinates ∥ maplinewpts) x.start.named (x.start.text ++ ':' :: x.stop.text) (ReadsStretch num x) := by
  cases x with
  | between a b c d =>
    refine last_alt_left (last_mono (last_rule (last_colon (seg_mono (seg_coord h.1.1 h.1.2) colon_num)
      (last_plain (seg_coord h.2.1 h.2.2) endTail_num))) ?_)
    rintro _ ⟨s, _, ⟨_, rfl, rfl⟩, rfl⟩
    exact ⟨_, rfl, read_stretch num hnum h⟩
  | named a b =>
    refine last_alt_right (fun r => ?_) (last_mono (last_rule (last_colon (seg_nameC h.1.1) (last_name h.2.1))) ?_)
    · have := fails_coord (r := ':' :: (b ++ r)) h.1.1 h.1.2 (stop_colon (by decide) _ ⟨_, rfl⟩)
      refine fails_rule (fails_seq_left ?_)
      simpa [Stretch.start, Stretch.stop, Location.text] using this
    · rintro _ ⟨s, _, ⟨_, rfl, rfl⟩, rfl⟩
      exact ⟨_, rfl, read_stretch num hnum h⟩

theorem blk_stretch {x : Stretch} (h : x.Valid) (hf : EndsAs x.start.named x.text f r) (hr : Fresh r) :
    (∃ t, Blk skip K lineOne (x.text ++ f) r [t] ∧ parseEnds t = gated x.Fits (x.start.value num, x.stop.value num)) ∧
      Fresh (x.text ++ f ++ r) := by
  refine ⟨?_, fresh_head (w := c!"LINE:") (by decide) _⟩
  obtain ⟨_, ⟨t, rfl, e⟩, h1⟩ := ends_line (last_stretch num hnum h) (endsAs_suffix hf) hr
  refine ⟨t, ?_, e⟩
  have := (pb_key (w := c!"LINE:") (fun _ => k_head (by decide)) h1).1
  rw [← List.append_assoc] at this
  exact this

theorem pb_lines {l : List (Stretch × Str)} (h : (Body.lines l).Valid r) (hr : Fresh r) :
    ∃ t, P mapline (Body.lines l).text r [t] ∧ parseMapRule upper t = gated (Body.lines l).Fits ((Body.lines l).value num numG upper) := by
  obtain ⟨hl, hp, hrow⟩ := h
  obtain ⟨h1, h2⟩ := reps_row (C := Fresh) (Q := fun (x : Stretch × Str) r => ∃ t, Blk skip K lineOne (x.1.text ++ x.2) r [t] ∧
    parseEnds t = gated x.1.Fits (x.1.start.value num, x.1.stop.value num)) hrow
    (fun a _ r ⟨ha, hf⟩ hr => blk_stretch num hnum ha hf hr) hr
  obtain ⟨ts, b, e⟩ := blk_plus_read good.exact (hu lineOne rfl) knil hl h1 (fails_seq_left (fails_str.2 hp))
  obtain ⟨s, b2⟩ := blk_rule (q := .mapline) b
  refine ⟨_, ⟨b2, k_nil h2.1⟩, ?_⟩
  show ((ts.mapM parseEnds).bind fun ls => Except.ok (Lines.mergeLines ls)).bind _ = _
  rw [mapM_of_map e, mapM_gated, gated_ok (f := fun ls => Except.ok (Lines.mergeLines ls)) (w := Lines.mergeLines (l.map fun x => (x.1.start.value num, x.1.stop.value num))) rfl]
  exact gated_ok rfl

/-! ## Elements -/

omit hnum in
theorem setting_head (s : Setting) : ∃ c t, s.text = c :: t ∧ visible c = true := by
  cases s with
  | symbol a name loc label => rcases label with _ | ⟨l, x, y⟩ <;> exact ⟨_, _, rfl, by decide⟩
  | circle long => cases long <;> exact ⟨_, _, rfl, by decide⟩
  | style name w => cases w <;> exact ⟨_, _, rfl, by decide⟩
  | _ => exact ⟨_, _, rfl, by decide⟩

omit hnum in
theorem body_head {b : Body} (h : b.Valid r) : ∃ c t, b.text = c :: t ∧ visible c = true := by
  cases b with
  | setting s f =>
    obtain ⟨c, t, e, hc⟩ := setting_head s
    exact ⟨c, t ++ f, by simp [Body.text, e], hc⟩
  | override folder name f => exact ⟨_, _, rfl, by decide⟩
  | lines l =>
    obtain ⟨hl, _⟩ := h
    cases l with
    | nil => exact absurd rfl hl
    | cons a l => exact ⟨_, _, rfl, by decide⟩

include hnumG

theorem pb_body {b : Body} (h : b.Valid r) (hr : Fresh r) :
    ∃ t, P (alts settingAlts ⬝ (.opt NL)) b.text r [t] ∧ parseMapRule upper t = gated b.Fits (b.value num numG upper) := by
  cases b with
  | setting s f =>
    obtain ⟨_, ⟨t, rfl, e⟩, h1⟩ := ends_line (last_setting num numG upper hnum hnumG h.1) h.2 hr
    exact ⟨t, h1, e⟩
  | override folder name f =>
    obtain ⟨s, h1⟩ := pb_override h.1 h.2 hr
    refine ⟨.node .override_sct s (overrideTrees folder name), ?_, rfl⟩
    have h2 : P (alts settingAlts) (overrideText folder name ++ f) r _ := pb_at 20 (w := c!"OVERRIDE_SCT_MAP:") rfl (by decide +kernel) ⟨pathName folder name ++ f, by simp [overrideText]⟩ h1
    have := pb_seq (t2 := []) (by simpa using h2) (optNL_none hr)
    simp only [List.append_nil] at this
    exact this
  | lines l =>
    obtain ⟨t, h1, e⟩ := pb_lines num numG upper hnum h hr
    refine ⟨t, ?_, e⟩
    have hw : c!"LINE:" <+: (Body.lines l).text := by
      obtain ⟨hl, _⟩ := h
      cases l with
      | nil => exact absurd rfl hl
      | cons a l => exact ⟨_, rfl⟩
    have h2 : P (alts settingAlts) (Body.lines l).text r _ := pb_at 11 rfl (by decide +kernel) hw h1
    have := pb_seq (t2 := []) (by simpa using h2) (optNL_none hr)
    simpa using this

theorem blk_entry {e : Entry} (h : e.Valid r) (hr : Fresh r) :
    (∃ t, Blk skip K map_setting e.text r [t] ∧ parseMapRule upper t = gated e.body.Fits (e.body.value num numG upper)) ∧
      Fresh (e.text ++ r) := by
  obtain ⟨t, h1, h2⟩ := pb_body num numG upper hnum hnumG h.2 hr
  obtain ⟨c, w, ec, hc⟩ := body_head h.2
  have hi : ∀ c ∈ e.indent, isSpTab c = true := fun c hc => blankChar_iff.2 (h.1 c hc)
  have hs := starts_visible (t := w ++ r) hc
  have hc' := hc
  simp only [visible, Bool.and_eq_true, Bool.not_eq_true', bne_iff_ne, ne_eq] at hc
  refine ⟨⟨t, ?_, h2⟩, ?_⟩
  · rw [map_setting_eq]
    exact blk_seq (u1 := []) (blk_blanks hi (by rw [ec]; exact headNot_cons.2 hc.1.1.1) (by rw [ec]; exact hs)) h1.1
  · rw [Entry.text, ec, List.append_assoc]
    exact fresh_cons hi hc.1.1.1 hc.1.1.2 hs

end

end Verif.Proofs.Topsky
