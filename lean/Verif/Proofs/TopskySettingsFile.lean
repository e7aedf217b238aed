import Verif.Proofs.TopskySettings
/-!
# Lemmas about TopSky settings: whole files
-/

namespace Verif.Proofs.TopskySettings
open Verif.Peg Verif.Spec Verif.Spec.TopskySettings Verif.Parse.TopskySettings
open Verif.Peg.TopskySettings (Rule skip)
open Verif.Colours (Colour fromRgb)

/-! ## What lines start and end with -/

theorem line_head {e : Entry} {line r : Str} (h : IsLine e line) : HeadNot isNewlineChar (line ++ r) := by
  cases h with
  | setting n g1 g2 v tail h1 =>
    obtain ⟨h1, h2, _⟩ := h1
    cases n with
    | nil => exact absurd rfl h1
    | cons c n => exact headNot_cons.2 (nameChar_line (h2 c List.mem_cons_self)).2.2
  | colour => exact headNot_cons.2 (by decide)
  | bare => exact headNot_cons.2 (by decide)

theorem line_ne {e : Entry} {line : Str} (h : IsLine e line) : line ≠ [] := by
  cases h with
  | setting n g1 g2 v tail h1 => simp [h1.1]
  | colour => simp
  | bare => simp

theorem lines_end {es : List Entry} {s r : Str} (h : IsLines es s) (hr : AtLineEnd r) : AtLineEnd (s ++ r) := by
  cases h with
  | nil => exact hr
  | cons e es brk line rest h1 => rw [List.append_assoc]; exact break_lineEnd h1

theorem end_end {s : Str} (h : IsEnd s) : AtLineEnd s := by
  rcases h with rfl | ⟨brk, cm, rfl, h, _⟩
  · exact headNot_nil _
  · exact break_lineEnd h

theorem secs_end {s r : Str} (h : IsSections s) (hr : AtLineEnd r) : AtLineEnd (s ++ r) := by
  cases h with
  | nil => exact hr
  | cons brk head es lines rest h1 => rw [List.append_assoc]; exact break_lineEnd h1

theorem head_start {s r : Str} (h : IsHead s) : ∃ c t, s ++ r = c :: t ∧ (c = '[' ∨ c = '{') := by
  cases h with
  | brackets => exact ⟨_, _, rfl, Or.inl rfl⟩
  | braces => exact ⟨_, _, rfl, Or.inr rfl⟩

/-! ## What fails -/

theorem fails_setting {r : Str} (hr : HeadNot isNameChar r) : Fails skip Peg.TopskySettings.setting .nonAtomic r := by
  refine (fails_alt_iff (uniform_eval lineSkip.uniform _ rfl _)).2 ⟨fails_rule (fails_seq_left (fails_str.2 ?_)),
    fails_rule (fails_seq_left (fails_name hr))⟩
  rintro ⟨t, rfl⟩
  exact absurd (headNot_cons.1 hr) (by decide)

theorem fails_section {r : Str} (h1 : r.head? ≠ some '[') (h2 : r.head? ≠ some '{') :
    Fails skip Peg.TopskySettings.section_ .nonAtomic r := by
  refine fails_rule (fails_seq_left ((fails_alt_iff (uniform_eval lineSkip.uniform _ rfl _)).2
    ⟨fails_seq_left (fails_str.2 ?_), fails_seq_left (fails_str.2 ?_)⟩))
  · rintro ⟨t, rfl⟩; exact h1 rfl
  · rintro ⟨t, rfl⟩; exact h2 rfl

theorem lineEnd_name {r : Str} (h : AtLineEnd r) : HeadNot isNameChar r := by
  cases r with
  | nil => exact headNot_nil _
  | cons c t =>
    have := headNot_cons.1 h
    simp only [Bool.not_eq_false'] at this
    rcases newline_iff.1 this with rfl | rfl <;> exact headNot_cons.2 (by decide)

theorem lineEnd_sec {r : Str} (h : AtLineEnd r) : r.head? ≠ some '[' ∧ r.head? ≠ some '{' := by
  cases r with
  | nil => simp
  | cons c t =>
    have := headNot_cons.1 h
    simp only [Bool.not_eq_false'] at this
    rcases newline_iff.1 this with rfl | rfl <;> simp

/-- A line end and `x`. -/
abbrev Foll (x : Expr Rule) : Expr Rule := Peg.TopskySettings.NL ⬝ x

/-- The start of the file or a line end, and `x`. -/
abbrev Lead (x : Expr Rule) : Expr Rule := (.soi ∥ Peg.TopskySettings.NL) ⬝ x

theorem fails_foll {x : Expr Rule} {fin : Str} (hpx : plain x = true) (h : IsEnd fin) (hx : Fails skip x .nonAtomic []) :
    Fails skip (Foll x) .nonAtomic fin := by
  rcases h with rfl | ⟨brk, cm, rfl, h1, h2⟩
  · exact fails_seq_left (fails_plus (fails_newline.2 (headNot_nil _)))
  · have b : Blk skip K Peg.TopskySettings.NL (brk ++ cm) [] [] :=
      blk_newlines_end lineSkip h1 (h2.imp id commentText)
    have := fails_seq_right (y := x) lineSkip.uniform lineSkip.exact rfl rfl (uniform_eval lineSkip.uniform _ hpx _) b hx
    rwa [List.append_nil] at this

theorem head_pl {s r : Str} (h : IsHead s) : Pl (s ++ r) ∧ HeadNot isNewlineChar (s ++ r) := by
  obtain ⟨c, t, e, hc⟩ := head_start (r := r) h
  rw [e]
  rcases hc with rfl | rfl
  · exact ⟨pl_cons (by decide), headNot_cons.2 (by decide)⟩
  · exact ⟨pl_cons (by decide), headNot_cons.2 (by decide)⟩

theorem head_name {s r : Str} (h : IsHead s) : HeadNot isNameChar (s ++ r) := by
  obtain ⟨c, t, e, hc⟩ := head_start (r := r) h
  rw [e]
  rcases hc with rfl | rfl <;> exact headNot_cons.2 (by decide)

theorem fails_foll_setting {secs fin : Str} (h : IsSections secs) (hf : IsEnd fin) :
    Fails skip (Foll Peg.TopskySettings.setting) .nonAtomic (secs ++ fin) := by
  cases h with
  | nil => exact fails_foll rfl hf (fails_setting (headNot_nil _))
  | cons brk head es lines rest h1 h2 h3 h4 =>
    have e : brk ++ (head ++ (lines ++ rest)) ++ fin = brk ++ (head ++ (lines ++ rest ++ fin)) := by simp
    rw [e]
    have hp := head_pl (r := lines ++ rest ++ fin) h2
    exact fails_seq_right (y := Peg.TopskySettings.setting) lineSkip.uniform lineSkip.exact rfl rfl
      (uniform_eval lineSkip.uniform _ rfl _) (blk_newlines lineSkip h1 hp.1 hp.2) (fails_setting (head_name h2))

/-! ## Blocks of lines -/

theorem lines_blks {es : List Entry} {s r : Str} (h : IsLines es s) (hr : AtLineEnd r) :
    ∃ bs : List (Str × List (Tree Rule)), Blks skip K (Foll Peg.TopskySettings.setting) bs r ∧ bs.flatMap (·.1) = s ∧
      (bs.flatMap (·.2)).map parseSetting = es.map fun e => .ok (meaning e) := by
  induction h with
  | nil => exact ⟨[], trivial, rfl, rfl⟩
  | cons e es brk line rest h1 h2 h3 ih =>
    obtain ⟨bs, b1, b2, b3⟩ := ih
    have hend := lines_end h3 hr
    obtain ⟨t, pb, ht⟩ := line_blk h2 hend
    have b := blk_seq (blk_newlines lineSkip (r := line ++ (rest ++ r)) h1 (lineSkip.plain pb.2) (line_head h2)) pb.1
    refine ⟨(brk ++ line, [t]) :: bs, ⟨?_, b1⟩, by simp [b2], ?_⟩
    · rw [b2]; exact b
    · simp [ht, b3]

/-- A section token is read as nothing. -/
theorem head_blk {head r : Str} (h : IsHead head) (hr : AtLineEnd r) : ∃ u,
    Blk skip K (((.str c!"[") ⬝ Peg.TopskySettings.name ⬝ (.str c!"]")) ∥ ((.str c!"{") ⬝ Peg.TopskySettings.name ⬝ (.str c!"}"))) head r u := by
  cases h with
  | brackets g1 n g2 tail h1 h2 h3 h4 =>
    have b3 : Blk (R := Rule) skip K (.str c!"]") (']' :: tail) r [] := blk_gap (s := c!"]") out_str0 (k_tail h4 hr)
    have b2 : Blk skip K Peg.TopskySettings.name (n ++ g2) (']' :: tail ++ r) [.node .name n []] :=
      blk_name h2 h3 (headNot_cons.2 (by decide)) (pl_cons (by decide))
    have b1 : Blk (R := Rule) skip K (.str c!"[") ('[' :: g1) (n ++ g2 ++ (']' :: tail) ++ r) [] := by
      refine blk_char h1 ?_
      simp only [List.append_assoc]
      exact pl_name h2 (headNot_blanks (by decide) h3 (headNot_cons.2 (by decide)))
    have b := blk_seq b1 (blk_seq b2 b3)
    exact ⟨_, blk_alt_left (by simpa using b)⟩
  | braces g1 n g2 tail h1 h2 h3 h4 =>
    have b3 : Blk (R := Rule) skip K (.str c!"}") ('}' :: tail) r [] := blk_gap (s := c!"}") out_str0 (k_tail h4 hr)
    have b2 : Blk skip K Peg.TopskySettings.name (n ++ g2) ('}' :: tail ++ r) [.node .name n []] :=
      blk_name h2 h3 (headNot_cons.2 (by decide)) (pl_cons (by decide))
    have b1 : Blk (R := Rule) skip K (.str c!"{") ('{' :: g1) (n ++ g2 ++ ('}' :: tail) ++ r) [] := by
      refine blk_char h1 ?_
      simp only [List.append_assoc]
      exact pl_name h2 (headNot_blanks (by decide) h3 (headNot_cons.2 (by decide)))
    have b := blk_seq b1 (blk_seq b2 b3)
    refine ⟨_, blk_alt_right (fails_seq_left (fails_str.2 ?_)) (by simpa using b)⟩
    simp

theorem section_blk {head lines rest fin : Str} {es : List Entry} (h1 : IsHead head) (h2 : IsLines es lines) (h3 : IsSections rest)
    (h4 : IsEnd fin) : ∃ t, Blk skip K Peg.TopskySettings.section_ (head ++ lines) (rest ++ fin) [t] ∧ parseSetting t = .ok none := by
  have hend := secs_end h3 (end_end h4)
  obtain ⟨bs, b1, b2, _⟩ := lines_blks h2 hend
  have b := blk_star lineSkip.exact (uniform_eval lineSkip.uniform (Foll Peg.TopskySettings.setting) rfl _) b1
    (fails_foll_setting h3 h4) (k_nil (pl_end hend))
  rw [b2] at b
  obtain ⟨u, hu⟩ := head_blk (r := lines ++ (rest ++ fin)) h1 (lines_end h2 hend)
  obtain ⟨s, hs⟩ := blk_rule (q := Rule.section_) (blk_seq hu b)
  exact ⟨_, hs, rfl⟩

theorem secs_blks {s fin : Str} (h : IsSections s) (hf : IsEnd fin) :
    ∃ bs : List (Str × List (Tree Rule)), Blks skip K (Foll Peg.TopskySettings.section_) bs fin ∧ bs.flatMap (·.1) = s ∧
      ∀ t ∈ bs.flatMap (·.2), parseSetting t = .ok none := by
  induction h with
  | nil => exact ⟨[], trivial, rfl, by simp⟩
  | cons brk head es lines rest h1 h2 h3 h4 ih =>
    obtain ⟨bs, b1, b2, b3⟩ := ih
    obtain ⟨t, hb, ht⟩ := section_blk h2 h3 h4 hf
    have hp := head_pl (r := lines ++ (rest ++ fin)) h2
    have b := blk_seq (blk_newlines lineSkip (r := head ++ lines ++ (rest ++ fin)) h1 (by simpa using hp.1) (by simpa using hp.2)) hb
    refine ⟨(brk ++ (head ++ lines), [t]) :: bs, ⟨?_, b1⟩, by simp [b2], ?_⟩
    · rw [b2]; exact b
    · intro t' ht'
      rw [List.flatMap_cons] at ht'
      rcases List.mem_append.1 ht' with h | h
      · rw [List.mem_singleton.1 h]; exact ht
      · exact b3 t' h

/-! ## Evaluation at the start of the file -/

/-- `e` run in the state `st` consumes `t` in front of `r`, up to text that is skipped. -/
def Does (e : Expr Rule) (st : St) (t r : Str) (ts : List (Tree Rule)) : Prop :=
  ∃ s m, t = s ++ m ∧ K m r ∧ (st.rest = t ++ r → eval skip e .nonAtomic st = .ok (st.past s (m ++ r)) ts)

theorem does_blk {e : Expr Rule} (hp : plain e = true) (hw : wf e = true) {st : St} {t r : Str} {ts : List (Tree Rule)}
    (h : Blk skip K e t r ts) : Does e st t r ts := by
  obtain ⟨s, m, rfl, o, k⟩ := h
  exact ⟨s, m, rfl, k, fun hs => out_eval lineSkip.uniform lineSkip.exact e hp hw _ _ _ _ st o (by simpa using hs)⟩

theorem does_seq {e f : Expr Rule} {st : St} {t1 t2 r : Str} {u1 u2 : List (Tree Rule)} (h1 : Does e st t1 (t2 ++ r) u1)
    (h2 : Does f (st.past t1 (t2 ++ r)) t2 r u2) : Does (e ⬝ f) st (t1 ++ t2) r (u1 ++ u2) := by
  obtain ⟨s1, m1, rfl, k1, e1⟩ := h1
  obtain ⟨s2, m2, rfl, k2, e2⟩ := h2
  refine ⟨s1 ++ m1 ++ s2, m2, by simp, k2, fun hs => ?_⟩
  have e1 := e1 (by simpa using hs)
  have e2 := e2 rfl
  have e3 := lineSkip.exact m1 (s2 ++ m2 ++ r) (st.past s1 (m1 ++ (s2 ++ m2 ++ r))) k1 rfl
  rw [St.past_past] at e3
  have e3 : skipIf skip .nonAtomic (st.past s1 (m1 ++ (s2 ++ m2 ++ r))) = .ok (st.past (s1 ++ m1) (s2 ++ m2 ++ r)) [] := e3
  simp only [eval, e1, Res.ok_bind, e3, e2]
  simp [St.past_past]

theorem does_seq_end {e f : Expr Rule} {st : St} {t t1 t2 : Str} {u1 u2 : List (Tree Rule)} (ht : t1 ++ t2 = t) (h1 : Does e st t1 t2 u1)
    (h2 : Does f (st.past t1 t2) t2 [] u2) : Does (e ⬝ f) st t [] (u1 ++ u2) := by
  subst ht
  exact does_seq (by simpa using h1) (by simpa using h2)

theorem eval_lead {x : Expr Rule} {st : St} (h : st.pos ≠ 0) : eval skip (Lead x) .nonAtomic st = eval skip (Foll x) .nonAtomic st := by
  simp [eval, h]

theorem many_lead {A : Type} {f : St → Res Rule} {txt : A → Str} {out : A → List (Tree Rule)} {ps : List A}
    {r : Str} (hp : Reps txt (fun p r => txt p ≠ [] ∧
      ∀ st : St, st.pos ≠ 0 → st.rest = txt p ++ r → f st = .ok (st.past (txt p) r) (out p)) ps r)
    (hr : ∀ st : St, st.pos ≠ 0 → st.rest = r → f st = .fail) : ∀ n (st : St), st.pos ≠ 0 → st.rest = ps.flatMap txt ++ r →
      st.rest.length < n → many f n st = .ok (st.past (ps.flatMap txt) r) (ps.flatMap out) := by
  induction ps with
  | nil =>
    intro n st h0 hs hn
    obtain ⟨n, rfl⟩ : ∃ k, n = k + 1 := ⟨n - 1, by omega⟩
    simp only [List.flatMap_nil, List.nil_append] at hs ⊢
    simp [many, hr st h0 hs, St.past_nil hs]
  | cons p ps ih =>
    intro n st h0 hs hn
    obtain ⟨n, rfl⟩ : ∃ k, n = k + 1 := ⟨n - 1, by omega⟩
    obtain ⟨⟨h1, h2⟩, h3⟩ := hp
    simp only [List.flatMap_cons, List.append_assoc] at hs ⊢
    have hl : 0 < (txt p).length := List.length_pos_iff.2 h1
    have hlen : (ps.flatMap txt ++ r).length < st.rest.length := by
      rw [hs, List.length_append (as := txt p)]; omega
    simp only [many, h2 st h0 hs, St.past_rest, hlen, if_true]
    rw [ih h3 n _ (by simp only [St.past]; omega) rfl (by simp only [St.past_rest]; omega)]
    simp [St.past_past]

/-- The repetition after its first element. -/
theorem eval_star_lead {x : Expr Rule} (hpx : plain x = true) (hwx : wf x = true) {st : St} {s1 fin r : Str} {t1 : List (Tree Rule)}
    {parts : List ((Str × Str) × List (Tree Rule))} (hs1 : s1 ≠ [])
    (h1 : eval skip (Lead x) .nonAtomic st = .ok (st.past s1 (partsText parts ++ (fin ++ r))) t1)
    (hp : Parts skip K (Foll x) parts (fin ++ r)) (hk : K fin r) (hf : Fails skip (Foll x) .nonAtomic r) :
    eval skip (.star (Lead x)) .nonAtomic st = .ok (st.past (s1 ++ partsText parts) (fin ++ r)) (t1 ++ parts.flatMap (·.2)) := by
  have hpf : plain (Foll x) = true := by simp only [plain, hpx]; rfl
  have hwf : wf (Foll x) = true := by simp only [wf, hwx]; rfl
  have hl : 0 < s1.length := List.length_pos_iff.2 hs1
  have hm := many_lead (f := fun s => (skipIf skip .nonAtomic s).bind fun s1 _ => eval skip (Lead x) .nonAtomic s1)
    (txt := fun p : (Str × Str) × List (Tree Rule) => p.1.1 ++ p.1.2) (out := (·.2)) (ps := parts) (r := fin ++ r)
    (reps_imp (fun p r' h => by
      obtain ⟨k, o⟩ := h
      refine ⟨?_, ?_⟩
      · obtain ⟨s1, m, s2, t1, t2, e, _, o1, _⟩ := o
        have hne : s1 ≠ [] := by
          rintro rfl
          obtain ⟨s1, m, s2, t1, t2, e, _, o1, _⟩ := o1
          have hl := (out_newline_iff.1 o1).1
          rcases hl with rfl | rfl | ⟨rfl, _⟩ <;> simp at e
        rw [e]
        simp [hne]
      · intro st' h0 hs
        rw [skipIf_exact lineSkip.exact k (by simpa using hs), Res.ok_bind, eval_lead (by simp only [St.past]; omega),
          out_eval lineSkip.uniform lineSkip.exact _ hpf hwf _ _ _ _ (st'.past p.1.1 (p.1.2 ++ r')) o rfl, St.past_past]) hp)
    (fun st' h0 hs => by
      rw [skipIf_exact (a := .nonAtomic) (m := fin) (r := r) lineSkip.exact hk hs, Res.ok_bind, eval_lead (by simp only [St.past]; omega)]
      exact (uniform_eval lineSkip.uniform _ hpf _).fail_of hf _ rfl)
    ((st.past s1 (partsText parts ++ (fin ++ r))).rest.length + 1) (st.past s1 (partsText parts ++ (fin ++ r)))
    (by simp only [St.past]; omega) rfl (by simp)
  simp only [eval] at h1 hm ⊢
  simp only [h1, hm]
  simp [St.past_past]

/-- Elements with a line end in front of each, not at the start of the file. -/
theorem does_star_lead {x : Expr Rule} (hpx : plain x = true) (hwx : wf x = true) {st : St} (h0 : st.pos ≠ 0)
    {bs : List (Str × List (Tree Rule))} {r : Str} (hb : Blks skip K (Foll x) bs r) (hf : Fails skip (Foll x) .nonAtomic r)
    (hk : K [] r) : Does (.star (Lead x)) st (bs.flatMap (·.1)) r (bs.flatMap (·.2)) := by
  have hpf : plain (Foll x) = true := by simp only [plain, hpx]; rfl
  have hwf : wf (Foll x) = true := by simp only [wf, hwx]; rfl
  rcases blks_parts hb with rfl | ⟨s1, t1, parts, fin, e1, o1, hp, hk, e2⟩
  · refine ⟨[], [], rfl, hk, fun hs => ?_⟩
    have : eval skip (Lead x) .nonAtomic st = .fail := by
      rw [eval_lead h0]
      exact (uniform_eval lineSkip.uniform _ hpf _).fail_of hf _ (by simpa using hs)
    rw [St.past_nil (by simpa using hs)]
    simp only [eval] at this ⊢
    simp only [this]
    rfl
  · refine ⟨s1 ++ partsText parts, fin, by simp [e1], hk, fun hs => ?_⟩
    rw [e2]
    refine eval_star_lead hpx hwx ?_ ?_ hp hk hf
    · rintro rfl
      obtain ⟨s1, m, s2, t1, t2, e, _, o1, _⟩ := o1
      obtain ⟨s3, m3, s4, t3, t4, e3, _, o3, _⟩ := o1
      have hl := (out_newline_iff.1 o3).1
      rcases hl with rfl | rfl | ⟨rfl, _⟩ <;> simp [e3] at e
    · rw [eval_lead h0]
      exact out_eval lineSkip.uniform lineSkip.exact _ hpf hwf _ _ _ _ st o1 (by rw [hs, e1]; simp)

/-- The same with the first element at the start of the file. -/
theorem does_star_start {x : Expr Rule} (hpx : plain x = true) (hwx : wf x = true) {st : St} (h0 : st.pos = 0)
    {line r : Str} {u : List (Tree Rule)} (hx : ∀ r ts, ¬ Out skip K x .nonAtomic [] r ts)
    {bs : List (Str × List (Tree Rule))} (hl : Blk skip K x line (bs.flatMap (·.1) ++ r) u) (hl2 : K [] (line ++ (bs.flatMap (·.1) ++ r)))
    (hb : Blks skip K (Foll x) bs r) (hf : Fails skip (Foll x) .nonAtomic r) :
    Does (.star (Lead x)) st (line ++ bs.flatMap (·.1)) r (u ++ bs.flatMap (·.2)) := by
  obtain ⟨s, m, rfl, o, k⟩ := hl
  have hs0 : s ≠ [] := by rintro rfl; exact hx _ _ o
  have key : ∀ st : St, st.pos = 0 → st.rest = s ++ m ++ (bs.flatMap (·.1) ++ r) →
      eval skip (Lead x) .nonAtomic st = .ok (st.past s (m ++ (bs.flatMap (·.1) ++ r))) u := by
    intro st h0 hs
    have e1 := out_eval lineSkip.uniform lineSkip.exact x hpx hwx _ _ _ _ st o (by simpa using hs)
    have e2 := skipIf_exact (a := .nonAtomic) (m := []) (st := st) lineSkip.exact hl2 (by simpa using hs)
    rw [St.past_nil (by simpa using hs)] at e2
    simp [eval, h0, e2, e1]
  rcases blks_parts hb with rfl | ⟨s1, t1, parts, fin, e1, o1, hp, hk, e2⟩
  · refine ⟨s, m, by simp, by simpa using k, fun hs => ?_⟩
    have := eval_star_lead (parts := []) (fin := m) (r := r) hpx hwx hs0 (by simpa [partsText] using key st h0 (by simpa using hs)) trivial
      (by simpa using k) hf
    simpa [partsText] using this
  · refine ⟨s ++ partsText (((m, s1), t1) :: parts), fin, by simp [e1, partsText], hk, fun hs => ?_⟩
    have hp' : Parts skip K (Foll x) (((m, s1), t1) :: parts) (fin ++ r) := by
      refine ⟨⟨?_, o1⟩, hp⟩
      show K m (s1 ++ (partsText parts ++ (fin ++ r)))
      rw [e1] at k; simpa using k
    have := eval_star_lead (t1 := u) hpx hwx hs0 (by
      have := key st h0 (by simpa using hs)
      rw [this, e1]; simp [partsText]) hp' hk hf
    rw [this]
    simp [e2]

/-- No element at the start of the file. -/
theorem does_star_none {x : Expr Rule} (hpx : plain x = true) {st : St} (h0 : st.pos = 0) {r : Str} (hf : Fails skip x .nonAtomic r)
    (hk : K [] r) : Does (.star (Lead x)) st [] r [] := by
  refine ⟨[], [], rfl, hk, fun hs => ?_⟩
  have hs : st.rest = r := by simpa using hs
  have e1 := (uniform_eval lineSkip.uniform x hpx _).fail_of hf st hs
  have e2 := skipIf_exact (a := .nonAtomic) (m := []) (st := st) lineSkip.exact hk hs
  rw [St.past_nil hs] at e2
  rw [List.nil_append, St.past_nil hs]
  simp [eval, h0, e2, e1]

/-- The end of the file. -/
theorem does_end {st : St} {fin : Str} (h : IsEnd fin) :
    Does ((.opt Peg.TopskySettings.NL) ⬝ (.eoi Rule.EOI)) st fin [] [.node .EOI [] []] := by
  have kn : K [] [] := k_nil (pl_end (headNot_nil _))
  have be : Blk skip K (.eoi Rule.EOI : Expr Rule) [] [] [.node .EOI [] []] := blk_of_out ⟨rfl, rfl, rfl⟩ kn
  refine does_blk rfl rfl ?_
  rcases h with rfl | ⟨brk, cm, rfl, h1, h2⟩
  · exact blk_seq (t1 := []) (u1 := []) (blk_opt_none (fails_plus (fails_newline.2 (headNot_nil _))) kn) be
  · have := blk_seq (u1 := []) (blk_opt_some (blk_newlines_end lineSkip h1 (h2.imp id commentText))) be
    rw [List.append_nil] at this
    exact this

theorem run_does {content : Str} {ts : List (Tree Rule)}
    (h : Does ((.opt .soi) ⬝ (.star (Lead Peg.TopskySettings.setting)) ⬝ (.star (Lead Peg.TopskySettings.section_)) ⬝
      (.opt Peg.TopskySettings.NL) ⬝ (.eoi Rule.EOI)) ⟨0, content, []⟩ content [] ts) :
    ∃ s, run skip Peg.TopskySettings.settings content = .ok [.node .settings s ts] := by
  obtain ⟨s, m, e, _, h⟩ := h
  have h := h (by simp)
  refine ⟨(⟨0, content, []⟩ : St).between ((⟨0, content, []⟩ : St).past s (m ++ [])), ?_⟩
  unfold run Peg.TopskySettings.settings
  rw [eval, inside_normal, h]
  rfl

theorem does_soi {content lead rest : Str} (e : content = lead ++ rest) (hk : K lead rest) :
    Does (.opt .soi) ⟨0, content, []⟩ lead rest [] := by
  refine ⟨[], lead, rfl, hk, fun hs => ?_⟩
  have : (⟨0, content, []⟩ : St).past [] (lead ++ rest) = ⟨0, content, []⟩ := St.past_nil e
  rw [this]
  simp [eval]

theorem mapM_ok {l : List (Tree Rule)} {es : List Entry} {none : List (Tree Rule)}
    (h1 : l.map parseSetting = es.map fun e => .ok (meaning e)) (h2 : ∀ t ∈ none, parseSetting t = .ok Option.none) :
    (l ++ none).mapM parseSetting = .ok (es.map meaning ++ none.map fun _ => Option.none) := by
  have : (l ++ none).map parseSetting = (es.map meaning ++ none.map fun _ => Option.none).map Except.ok := by
    rw [List.map_append, h1, List.map_append, List.map_map]
    congr 1
    rw [List.map_map]
    exact List.map_congr_left h2
  rw [mapM_of_map (g := fun x => (.ok x : Run _)) this]
  generalize es.map meaning ++ none.map (fun _ => Option.none) = q
  induction q with
  | nil => rfl
  | cons a q ih => rw [List.mapM_cons, ih]; rfl

theorem filter_none (l : List (Tree Rule)) : (l.map fun _ => (Option.none : Option Setting)).filterMap id = [] := by
  induction l with
  | nil => rfl
  | cons a l ih => simp

theorem section_ne {r : Str} {ts : List (Tree Rule)} : ¬ Out skip K Peg.TopskySettings.section_ .nonAtomic [] r ts := by
  rintro ⟨kids, ⟨s1, m, s2, t1, t2, e, _, o, _⟩, _⟩
  have : s1 = [] := by
    cases s1 with
    | nil => rfl
    | cons c s => simp at e
  subst this
  rcases o with ⟨s3, m3, s4, t3, t4, e3, _, ⟨rfl, _⟩, _⟩ | ⟨⟨s3, m3, s4, t3, t4, e3, _, ⟨rfl, _⟩, _⟩, _⟩ <;> simp at e3

theorem setting_ne {r : Str} {ts : List (Tree Rule)} : ¬ Out skip K Peg.TopskySettings.setting .nonAtomic [] r ts := by
  rintro (⟨kids, ⟨s1, m, s2, t1, t2, e, _, ⟨rfl, _⟩, _⟩, _⟩ | ⟨⟨kids, ⟨s1, m, s2, t1, t2, e, _, ⟨k, o, _⟩, _⟩, _⟩, _⟩)
  · simp at e
  · have : s1 = [] := by
      cases s1 with
      | nil => rfl
      | cons c s => simp at e
    subst this
    exact (((like_name .atomic).plus (by decide)).1 o).1 rfl

theorem parse_ok {content s : Str} {l sec : List (Tree Rule)} {es : List Entry}
    (h1 : run skip Peg.TopskySettings.settings content = .ok [.node .settings s (l ++ (sec ++ [.node .EOI [] []]))])
    (h2 : l.map parseSetting = es.map fun e => .ok (meaning e)) (h3 : ∀ t ∈ sec, parseSetting t = .ok Option.none) :
    parse content = .ok ((es.filterMap meaning).foldl step ([], [])) := by
  have := mapM_ok h2 (none := sec ++ [.node .EOI [] []]) (fun t ht => by
    rcases List.mem_append.1 ht with ht | ht
    · exact h3 t ht
    · rw [List.mem_singleton.1 ht]; rfl)
  simp only [parse, h1, run_ok_bind, next_cons, Tree.inner_node, this]
  rw [List.filterMap_append, filter_none, List.append_nil, List.filterMap_map]
  rfl

/-- A file is read line by line. -/
theorem file_parse {es : List Entry} {content : Str} (h : IsFile es content) :
    parse content = .ok ((es.filterMap meaning).foldl step ([], [])) := by
  cases h with
  | line e es line lines secs fin h1 h2 h3 h4 =>
    have hend := secs_end h3 (end_end h4)
    obtain ⟨bs, b1, b2, b3⟩ := lines_blks h2 hend
    obtain ⟨cs, c1, c2, c3⟩ := secs_blks h3 h4
    obtain ⟨t, pb, ht⟩ := line_blk h1 (lines_end h2 hend)
    have d1 : Does (.star (Lead Peg.TopskySettings.setting)) ((⟨0, line ++ (lines ++ (secs ++ fin)), []⟩ : St).past [] (line ++ (lines ++ (secs ++ fin))))
        (line ++ lines) (secs ++ fin) ([t] ++ bs.flatMap (·.2)) := by
      have := does_star_start (x := Peg.TopskySettings.setting) (line := line) (u := [t]) (bs := bs) (r := secs ++ fin)
        (st := (⟨0, line ++ (lines ++ (secs ++ fin)), []⟩ : St).past [] (line ++ (lines ++ (secs ++ fin)))) rfl rfl rfl
        (fun _ _ => setting_ne) (by rw [b2]; exact pb.1) (by rw [b2]; exact pb.2) b1 (fails_foll_setting h3 h4)
      rwa [b2] at this
    have hlen : 0 < line.length := List.length_pos_iff.2 (line_ne h1)
    have d2 : ∀ st : St, st.pos ≠ 0 → Does (.star (Lead Peg.TopskySettings.section_)) st secs fin (cs.flatMap (·.2)) := by
      intro st h0
      have := does_star_lead (x := Peg.TopskySettings.section_) rfl rfl h0 c1
        (fails_foll rfl h4 (fails_section (by simp) (by simp))) (k_nil (pl_end (end_end h4)))
      rwa [c2] at this
    have dd := does_seq_end (t := line ++ (lines ++ (secs ++ fin))) (t1 := []) (t2 := line ++ (lines ++ (secs ++ fin))) rfl
      (does_soi (content := line ++ (lines ++ (secs ++ fin))) (lead := []) rfl pb.2)
      (does_seq_end (t1 := line ++ lines) (t2 := secs ++ fin) (by simp) d1
        (does_seq_end rfl (d2 _ (by simp only [St.past, List.length_append]; omega)) (does_end h4)))
    obtain ⟨s, hs⟩ := run_does dd
    refine parse_ok (l := t :: bs.flatMap (·.2)) (sec := cs.flatMap (·.2)) hs ?_ c3
    simp [ht, b3]
  | section_ head es' lines secs fin h1 h2 h3 h4 =>
    obtain ⟨cs, c1, c2, c3⟩ := secs_blks h3 h4
    obtain ⟨t, hb, ht⟩ := section_blk h1 h2 h3 h4
    have hp := head_pl (r := lines ++ (secs ++ fin)) h1
    have hk : K [] (head ++ (lines ++ (secs ++ fin))) := k_nil hp.1
    have d1 : ∀ st : St, st.pos = 0 → Does (.star (Lead Peg.TopskySettings.setting)) st [] (head ++ (lines ++ (secs ++ fin))) [] := fun st h0 =>
      does_star_none rfl h0 (fails_setting (head_name h1)) hk
    have d2 : ∀ st : St, st.pos = 0 → Does (.star (Lead Peg.TopskySettings.section_)) st (head ++ lines ++ secs) fin ([t] ++ cs.flatMap (·.2)) := by
      intro st h0
      have := does_star_start (x := Peg.TopskySettings.section_) (line := head ++ lines) (u := [t]) (bs := cs) (r := fin)
        rfl rfl h0 (fun _ _ => section_ne) (by rw [c2]; exact hb) (by rw [c2]; simpa using hk) c1
        (fails_foll rfl h4 (fails_section (by simp) (by simp)))
      rwa [c2] at this
    have dd := does_seq_end (t := head ++ (lines ++ (secs ++ fin))) (t1 := []) (t2 := head ++ (lines ++ (secs ++ fin))) rfl
      (does_soi (content := head ++ (lines ++ (secs ++ fin))) (lead := []) rfl hk)
      (does_seq_end (t1 := []) (t2 := head ++ (lines ++ (secs ++ fin))) rfl (d1 _ rfl) (does_seq_end (t1 := head ++ lines ++ secs) (t2 := fin) (by simp) (d2 _ rfl) (does_end h4)))
    obtain ⟨s, hs⟩ := run_does dd
    refine parse_ok (l := []) (sec := t :: cs.flatMap (·.2)) (es := []) (by simpa using hs) rfl ?_
    intro t' ht'
    rcases List.mem_cons.1 ht' with rfl | ht'
    · exact ht
    · exact c3 t' ht'
  | lead lead es lines secs fin h0 h1 h2 h3 h4 =>
    have hend := secs_end h3 (end_end h4)
    obtain ⟨bs, b1, b2, b3⟩ := lines_blks h2 hend
    obtain ⟨cs, c1, c2, c3⟩ := secs_blks h3 h4
    have hlen : 0 < lead.length := List.length_pos_iff.2 h1
    have d1 : ∀ st : St, st.pos ≠ 0 → Does (.star (Lead Peg.TopskySettings.setting)) st lines (secs ++ fin) (bs.flatMap (·.2)) := by
      intro st h0
      have := does_star_lead (x := Peg.TopskySettings.setting) rfl rfl h0 b1 (fails_foll_setting h3 h4) (k_nil (pl_end hend))
      rwa [b2] at this
    have d2 : ∀ st : St, st.pos ≠ 0 → Does (.star (Lead Peg.TopskySettings.section_)) st secs fin (cs.flatMap (·.2)) := by
      intro st h0
      have := does_star_lead (x := Peg.TopskySettings.section_) rfl rfl h0 c1
        (fails_foll rfl h4 (fails_section (by simp) (by simp))) (k_nil (pl_end (end_end h4)))
      rwa [c2] at this
    have dd := does_seq_end (t := lead ++ (lines ++ (secs ++ fin))) rfl
      (does_soi (content := lead ++ (lines ++ (secs ++ fin))) (lead := lead) rfl (k_tail h0 (lines_end h2 hend)))
      (does_seq_end rfl (d1 _ (by simp only [St.past]; omega)) (does_seq_end rfl (d2 _ (by simp only [St.past]; omega)) (does_end h4)))
    obtain ⟨s, hs⟩ := run_does dd
    exact parse_ok (l := bs.flatMap (·.2)) (sec := cs.flatMap (·.2)) hs b3 c3
  | empty _ h4 =>
    have hk : K [] content := k_nil (pl_end (end_end h4))
    have hse := lineEnd_sec (end_end h4)
    have dd := does_seq_end (t := content) rfl (does_soi (content := content) (lead := []) rfl hk)
      (does_seq_end rfl (does_star_none rfl rfl (fails_setting (lineEnd_name (end_end h4))) hk)
        (does_seq_end rfl (does_star_none rfl rfl (fails_section hse.1 hse.2) hk) (does_end h4)))
    obtain ⟨s, hs⟩ := run_does dd
    exact parse_ok (l := []) (sec := []) (es := []) (by simpa using hs) rfl (by simp)

end Verif.Proofs.TopskySettings
