import Verif.Proofs.TopskySettingsFile
/-!
# Lemmas about TopSky settings: files that cannot be read, and files of any form
-/

namespace Verif.Proofs.TopskySettings
open Verif.Peg Verif.Spec Verif.Spec.TopskySettings Verif.Parse.TopskySettings
open Verif.Peg.TopskySettings (Rule skip)
open Verif.Colours (Colour fromRgb)

/-- `e` fails in the state `st`. -/
def Refuses (e : Expr Rule) (st : St) : Prop := eval skip e .nonAtomic st = .fail

theorem refuses_seq {e f : Expr Rule} {st : St} {t r : Str} {u : List (Tree Rule)} (hs : st.rest = t ++ r) (h1 : Does e st t r u)
    (h2 : Refuses f (st.past t r)) : Refuses (e ⬝ f) st := by
  obtain ⟨s1, m1, rfl, k1, e1⟩ := h1
  have e1 := e1 hs
  have e3 := lineSkip.exact m1 r (st.past s1 (m1 ++ r)) k1 rfl
  rw [St.past_past] at e3
  have e3 : skipIf skip .nonAtomic (st.past s1 (m1 ++ r)) = .ok (st.past (s1 ++ m1) r) [] := e3
  unfold Refuses at h2 ⊢
  simp only [eval, e1, Res.ok_bind, e3, h2]
  rfl

theorem refuses_end {st : St} {r : Str} (hr : st.rest = r) (hp : Pl r) (h0 : r ≠ []) (hn : HeadNot isNewlineChar r) :
    Refuses ((.opt Peg.TopskySettings.NL) ⬝ (.eoi Rule.EOI)) st := by
  refine refuses_seq (t := []) (r := r) (u := []) hr (does_blk rfl rfl (blk_opt_none (fails_plus (fails_newline.2 hn)) (k_nil hp))) ?_
  cases r with
  | nil => exact absurd rfl h0
  | cons c t => simp [Refuses, eval, St.past]

theorem does_foll_none {x : Expr Rule} (hpx : plain x = true) (hwx : wf x = true) {st : St} {r : Str} (h0 : st.pos ≠ 0)
    (hp : Pl r) (hn : HeadNot isNewlineChar r) : Does (.star (Lead x)) st [] r [] :=
  does_star_lead (bs := []) hpx hwx h0 trivial (fails_seq_left (fails_plus (fails_newline.2 hn))) (k_nil hp)

theorem parse_refuses {content : Str}
    (h : Refuses ((.opt .soi) ⬝ (.star (Lead Peg.TopskySettings.setting)) ⬝ (.star (Lead Peg.TopskySettings.section_)) ⬝
      (.opt Peg.TopskySettings.NL) ⬝ (.eoi Rule.EOI)) ⟨0, content, []⟩) : parse content = .error .parseError := by
  have : run skip Peg.TopskySettings.settings content = .error .parseError := by
    unfold run Peg.TopskySettings.settings
    rw [eval, inside_normal, h]
    rfl
  simp only [parse, this, run_error_bind]

/-- Blanks in front of the first thing of a file that is neither a comment nor a line end. -/
theorem blank_start {g r : Str} (hg : AreBlanks g) (h0 : g ≠ []) (hp : Pl r) (hr : r ≠ []) (hn : HeadNot isNewlineChar r) :
    parse (g ++ r) = .error .parseError := by
  have hl : 0 < g.length := List.length_pos_iff.2 h0
  have hpos : ∀ t, ((⟨0, g ++ r, []⟩ : St).past g t).pos ≠ 0 := fun t => by simp only [St.past]; omega
  refine parse_refuses (refuses_seq rfl (does_soi rfl (k_blanks hg hp)) ?_)
  refine refuses_seq (t := []) (r := r) (u := []) rfl (does_foll_none rfl rfl (hpos _) hp hn) ?_
  refine refuses_seq (t := []) (r := r) (u := []) rfl (does_foll_none rfl rfl (by simpa [St.past] using h0) hp hn) ?_
  exact refuses_end rfl hp hr hn

/-! ## A colour whose value is not three numbers -/

/-- `Color_` and a name, in front of a value that is not three numbers. -/
theorem bad_blk {g0 n g1 g2 t : Str} (h0 : AreBlanks g0) (h1 : IsName n) (h2 : AreBlanks g1) (h3 : AreBlanks g2)
    (hp : Pl t) (ht : HeadNot isAsciiDigit t) :
    ∃ tr, Blk skip K Peg.TopskySettings.setting (prefix_ ++ (g0 ++ (n ++ g1))) ('=' :: (g2 ++ t)) [tr] := by
  have b2 : Blk skip K Peg.TopskySettings.name (n ++ g1) ([] ++ '=' :: (g2 ++ t)) [.node .name n []] :=
    blk_name h1 h2 eq_head eq_pl
  have b3 : Blk skip K (.opt ((.str c!"=") ⬝ Peg.TopskySettings.colour_setting_rgb)) [] ('=' :: (g2 ++ t)) [] := by
    refine blk_opt_none ?_ (k_nil eq_pl)
    have b : Blk (R := Rule) skip K (.str c!"=") ('=' :: g2) t [] := blk_char h3 hp
    exact fails_seq_right (y := Peg.TopskySettings.colour_setting_rgb) lineSkip.uniform lineSkip.exact rfl rfl
      (uniform_eval lineSkip.uniform _ rfl _) b (fails_rule (fails_seq_left (fails_rule (fails_plus (fails_cls.2 ht)))))
  have b1 : Blk (R := Rule) skip K (.str prefix_) (prefix_ ++ g0) ((n ++ g1 ++ []) ++ '=' :: (g2 ++ t)) [] := by
    refine blk_gap out_str0 (k_blanks h0 ?_)
    simp only [List.append_assoc, List.append_nil]
    exact pl_name h1 (headNot_blanks (by decide) h2 eq_head)
  obtain ⟨s2, b⟩ := blk_rule (q := Rule.colour_setting) (blk_seq b1 (blk_seq b2 b3))
  exact ⟨_, blk_alt_left (y := Peg.TopskySettings.other_setting) (by simpa [Peg.TopskySettings.colour_setting] using b)⟩

theorem refuses_eq {st : St} {t : Str} (h0 : st.pos ≠ 0) (hs : st.rest = '=' :: t) :
    Refuses ((.star (Lead Peg.TopskySettings.section_)) ⬝ (.opt Peg.TopskySettings.NL) ⬝ (.eoi Rule.EOI)) st := by
  have hn : HeadNot isNewlineChar ('=' :: t) := headNot_cons.2 (by decide)
  refine refuses_seq (t := []) (r := '=' :: t) (u := []) hs (does_foll_none rfl rfl h0 eq_pl hn) ?_
  exact refuses_end rfl eq_pl (by simp) hn

/-- The bad colour is the first line. -/
theorem bad_first {g0 n g1 g2 t : Str} (h0 : AreBlanks g0) (h1 : IsName n) (h2 : AreBlanks g1) (h3 : AreBlanks g2)
    (hp : Pl t) (ht : HeadNot isAsciiDigit t) : parse (prefix_ ++ (g0 ++ (n ++ (g1 ++ ('=' :: (g2 ++ t)))))) = .error .parseError := by
  obtain ⟨tr, b⟩ := bad_blk h0 h1 h2 h3 hp ht
  have hk : ∀ t, K [] (prefix_ ++ t) := fun t => k_nil (pl_cons (by decide))
  refine parse_refuses (refuses_seq (t := []) (u := []) rfl (does_soi rfl (hk _)) ?_)
  have hn : HeadNot isNewlineChar ('=' :: (g2 ++ t)) := headNot_cons.2 (by decide)
  have d := does_star_start (x := Peg.TopskySettings.setting) (line := prefix_ ++ (g0 ++ (n ++ g1))) (u := [tr]) (bs := []) (r := '=' :: (g2 ++ t))
    (st := (⟨0, prefix_ ++ (g0 ++ (n ++ (g1 ++ ('=' :: (g2 ++ t))))), []⟩ : St).past [] (prefix_ ++ (g0 ++ (n ++ (g1 ++ ('=' :: (g2 ++ t)))))))
    rfl rfl rfl (fun _ _ => setting_ne) b (hk _) trivial (fails_seq_left (fails_plus (fails_newline.2 hn)))
  refine refuses_seq (by simp [St.past]) d ?_
  exact refuses_eq (by simp [St.past]) rfl

/-- The lines in front of the bad colour, and it. -/
theorem bad_lines {es : List Entry} {s brk g0 n g1 g2 t : Str} (h : IsLines es s) (hb : IsBreak marks brk) (h0 : AreBlanks g0)
    (h1 : IsName n) (h2 : AreBlanks g1) (h3 : AreBlanks g2) (hp : Pl t) (ht : HeadNot isAsciiDigit t) :
    ∃ bs : List (Str × List (Tree Rule)), Blks skip K (Foll Peg.TopskySettings.setting) bs ('=' :: (g2 ++ t)) ∧
      bs.flatMap (·.1) = s ++ (brk ++ (prefix_ ++ (g0 ++ (n ++ g1)))) := by
  induction h with
  | nil =>
    obtain ⟨tr, b⟩ := bad_blk h0 h1 h2 h3 hp ht
    have := blk_seq (blk_newlines lineSkip (r := prefix_ ++ (g0 ++ (n ++ g1)) ++ '=' :: (g2 ++ t)) hb (pl_cons (by decide))
      (headNot_cons.2 (by decide))) b
    exact ⟨[(brk ++ (prefix_ ++ (g0 ++ (n ++ g1))), [tr])], ⟨this, trivial⟩, by simp⟩
  | cons e es brk' line rest h1' h2' h3' ih =>
    obtain ⟨bs, b1, b2⟩ := ih
    have hend : AtLineEnd (rest ++ (brk ++ (prefix_ ++ (g0 ++ (n ++ g1)))) ++ '=' :: (g2 ++ t)) := by
      rw [List.append_assoc]
      refine lines_end h3' ?_
      rw [List.append_assoc]
      exact break_lineEnd hb
    obtain ⟨tr, pb, _⟩ := line_blk h2' hend
    have b := blk_seq (blk_newlines lineSkip (r := line ++ (rest ++ (brk ++ (prefix_ ++ (g0 ++ (n ++ g1)))) ++ '=' :: (g2 ++ t))) h1' (lineSkip.plain pb.2) (line_head h2')) pb.1
    refine ⟨(brk' ++ line, [tr]) :: bs, ⟨?_, b1⟩, by simp [b2]⟩
    rw [b2]; exact b

/-- The bad colour stands on a later line. -/
theorem bad_later {e : Entry} {es : List Entry} {line s brk g0 n g1 g2 t : Str} (hl : IsLine e line) (h : IsLines es s) (hb : IsBreak marks brk)
    (h0 : AreBlanks g0) (h1 : IsName n) (h2 : AreBlanks g1) (h3 : AreBlanks g2) (hp : Pl t) (ht : HeadNot isAsciiDigit t) :
    parse (line ++ (s ++ (brk ++ (prefix_ ++ (g0 ++ (n ++ (g1 ++ ('=' :: (g2 ++ t))))))))) = .error .parseError := by
  obtain ⟨bs, b1, b2⟩ := bad_lines h hb h0 h1 h2 h3 hp ht
  have hend : AtLineEnd (bs.flatMap (·.1) ++ '=' :: (g2 ++ t)) := by
    rw [b2, List.append_assoc]
    refine lines_end h ?_
    rw [List.append_assoc]
    exact break_lineEnd hb
  obtain ⟨tr, pb, _⟩ := line_blk hl hend
  have hn : HeadNot isNewlineChar ('=' :: (g2 ++ t)) := headNot_cons.2 (by decide)
  have e : line ++ (s ++ (brk ++ (prefix_ ++ (g0 ++ (n ++ (g1 ++ ('=' :: (g2 ++ t)))))))) = line ++ (bs.flatMap (·.1) ++ '=' :: (g2 ++ t)) := by
    rw [b2]; simp
  rw [e]
  refine parse_refuses (refuses_seq (t := []) (u := []) rfl (does_soi rfl pb.2) ?_)
  have d := does_star_start (x := Peg.TopskySettings.setting) (line := line) (u := [tr]) (bs := bs) (r := '=' :: (g2 ++ t))
    (st := (⟨0, line ++ (bs.flatMap (·.1) ++ '=' :: (g2 ++ t)), []⟩ : St).past [] (line ++ (bs.flatMap (·.1) ++ '=' :: (g2 ++ t))))
    rfl rfl rfl (fun _ _ => setting_ne) pb.1 pb.2 b1 (fails_seq_left (fails_plus (fails_newline.2 hn)))
  have hlen : 0 < line.length := List.length_pos_iff.2 (line_ne hl)
  refine refuses_seq (by simp [St.past]) d ?_
  exact refuses_eq (by simp only [St.past, List.length_append]; omega) rfl

/-! ## Files of any form -/

theorem setting_any {t : Tree Rule} (h : Tok skip K Peg.TopskySettings.colour_setting .nonAtomic t ∨ Tok skip K Peg.TopskySettings.other_setting .nonAtomic t ∨
    Tok skip K Peg.TopskySettings.section_ .nonAtomic t) : ∃ v, parseSetting t = .ok v := by
  rcases h with h | h | h
  · obtain ⟨s, kids, rfl, hk⟩ := tok_kids rfl h
    simp only [kids_simp] at hk
    obtain ⟨a, _, rest, hrest, rfl⟩ := hk
    rcases hrest with ⟨b, hb, rfl⟩ | rfl
    · obtain ⟨s, kids, rfl, hk⟩ := tok_kids rfl hb
      simp only [kids_simp] at hk
      obtain ⟨x, _, y, _, z, _, rfl⟩ := hk
      obtain ⟨v, hv⟩ : ∃ v, parseColour (.node .colour_setting_rgb s [x, y, z]) = .ok v := by
        simp only [parseColour, Tree.inner_node, next_cons, run_ok_bind]
        cases parseU8 x.asStr with
        | none => exact ⟨_, rfl⟩
        | some x' =>
          cases parseU8 y.asStr with
          | none => exact ⟨_, rfl⟩
          | some y' => cases parseU8 z.asStr <;> exact ⟨_, rfl⟩
      simp only [parseSetting, Tree.asRule, Tree.inner_node, next_cons, run_ok_bind, hv]
      exact ⟨_, rfl⟩
    · exact ⟨_, rfl⟩
  · obtain ⟨s, kids, rfl, hk⟩ := tok_kids rfl h
    simp only [kids_simp] at hk
    obtain ⟨a, _, b, _, rfl⟩ := hk
    exact ⟨_, rfl⟩
  · obtain ⟨s, kids, rfl, hk⟩ := tok_kids rfl h
    exact ⟨_, rfl⟩

theorem mapM_any {A B : Type} {f : A → Run B} : ∀ {l : List A}, (∀ a ∈ l, ∃ v, f a = .ok v) → ∃ v, l.mapM f = .ok v
  | [], _ => ⟨[], rfl⟩
  | a :: l, h => by
    obtain ⟨v, hv⟩ := h a List.mem_cons_self
    obtain ⟨vs, hvs⟩ := mapM_any fun b hb => h b (List.mem_cons_of_mem _ hb)
    exact ⟨v :: vs, by rw [List.mapM_cons, hv, hvs]; rfl⟩

theorem parse_any (content : Str) : parse content = .error .parseError ∨ ∃ v, parse content = .ok v := by
  rcases run_tok Peg.TopskySettings.settings rfl (sk := skip) (skipBoth_ok rfl rfl) rfl rfl content with h | ⟨kids, h, ho⟩
  · left
    simp only [parse, h, run_error_bind]
  · right
    have hk := out_kids _ _ _ _ _ ho
    simp only [kids_simp] at hk
    obtain ⟨l, h1, sec, h2, rfl⟩ := hk
    obtain ⟨v, hv⟩ : ∃ v, (l.flatten ++ (sec ++ [Tree.node Rule.EOI [] []])).mapM parseSetting = .ok v := by
      refine mapM_any fun t ht => ?_
      rcases List.mem_append.1 ht with ht | ht
      · obtain ⟨k, hk, ht⟩ := List.mem_flatten.1 ht
        obtain ⟨k', hk', rfl⟩ := h1 k hk
        rcases hk' with ⟨t', hk', rfl⟩ | ⟨t', hk', rfl⟩
        · rw [List.mem_singleton.1 ht]; exact setting_any (Or.inl hk')
        · rw [List.mem_singleton.1 ht]; exact setting_any (Or.inr (Or.inl hk'))
      · rcases List.mem_append.1 ht with ht | ht
        · exact setting_any (Or.inr (Or.inr (h2 t ht)))
        · rw [List.mem_singleton.1 ht]; exact ⟨_, rfl⟩
    simp only [parse, h, run_ok_bind, next_cons, Tree.inner_node, hv]
    exact ⟨_, rfl⟩

theorem eval_does {e f : Expr Rule} {st : St} {t r : Str} {u : List (Tree Rule)} (hs : st.rest = t ++ r) (h1 : Does e st t r u) :
    eval skip (e ⬝ f) .nonAtomic st = (eval skip f .nonAtomic (st.past t r)).bind fun st3 ts3 => .ok st3 (u ++ ts3) := by
  obtain ⟨s1, m1, rfl, k1, e1⟩ := h1
  have e1 := e1 hs
  have e3 := lineSkip.exact m1 r (st.past s1 (m1 ++ r)) k1 rfl
  rw [St.past_past] at e3
  have e3 : skipIf skip .nonAtomic (st.past s1 (m1 ++ r)) = .ok (st.past (s1 ++ m1) r) [] := e3
  simp only [eval, e1, Res.ok_bind, e3]

/-- Nothing is read from a file that starts with a line end. -/
theorem newline_start {content : Str} (h : AtLineEnd content) :
    parse content = .error .parseError ∨ parse content = .ok ([], []) := by
  have hk : K [] content := k_nil (pl_end h)
  have hse := lineEnd_sec h
  have hev : eval skip ((.opt .soi) ⬝ (.star (Lead Peg.TopskySettings.setting)) ⬝ (.star (Lead Peg.TopskySettings.section_)) ⬝
      (.opt Peg.TopskySettings.NL) ⬝ (.eoi Rule.EOI)) .nonAtomic ⟨0, content, []⟩ =
      (eval skip ((.opt Peg.TopskySettings.NL) ⬝ (.eoi Rule.EOI)) .nonAtomic ⟨0, content, []⟩).bind fun st3 ts3 => .ok st3 ts3 := by
    rw [eval_does (t := []) (r := content) rfl (does_soi (content := content) (lead := []) rfl hk), eval_does (t := []) (r := content) rfl
      (does_star_none rfl rfl (fails_setting (lineEnd_name h)) hk), eval_does (t := []) (r := content) rfl
      (does_star_none rfl rfl (fails_section hse.1 hse.2) hk)]
    simp only [List.nil_append, St.past, List.length_nil, Nat.add_zero]
    cases eval skip ((.opt Peg.TopskySettings.NL) ⬝ (.eoi Rule.EOI)) .nonAtomic ⟨0, content, []⟩ <;> rfl
  rcases parse_any content with hp | ⟨v, hv⟩
  · exact Or.inl hp
  · right
    cases ht : eval skip ((.opt Peg.TopskySettings.NL) ⬝ (.eoi Rule.EOI)) .nonAtomic ⟨0, content, []⟩ with
    | fail =>
      rw [ht] at hev
      have := parse_refuses hev
      rw [this] at hv; cases hv
    | diverge =>
      exfalso
      rw [ht] at hev
      have : run skip Peg.TopskySettings.settings content = .error .diverge := by
        unfold run Peg.TopskySettings.settings
        rw [eval, inside_normal, hev]
        rfl
      simp only [parse, this, run_error_bind] at hv
      cases hv
    | ok st ts =>
      obtain ⟨s, _, ho⟩ := eval_out lineSkip.ok _ _ _ _ _ ht
      have hk := out_kids _ _ _ _ _ ho
      simp only [kids_simp] at hk
      subst hk
      rw [ht, Res.ok_bind] at hev
      have : run skip Peg.TopskySettings.settings content = .ok [.node .settings ((⟨0, content, []⟩ : St).between st) ([] ++ ([] ++ [.node .EOI [] []]))] := by
        unfold run Peg.TopskySettings.settings
        rw [eval, inside_normal, hev]
        rfl
      exact parse_ok (l := []) (sec := []) (es := []) this rfl (by simp)

end Verif.Proofs.TopskySettings
