import Verif.Proofs.TopskyLines
/-!
# Parts of lines of TopSky files
-/

namespace Verif.Proofs.Topsky
open Verif.Peg Verif.Peg.Topsky Verif.Spec Verif.Spec.Topsky
open Verif.Spec.Ese (DmsText IsRunway)
open Verif.Parse.Topsky (RunwayIdentifier ActiveMapOperator)

abbrev S := Seg skip K
abbrev P := Pb skip K
abbrev Tr := Tree Rule

/-! ## Expressions that fail on a text with a known start -/

/-- `w` is not a prefix of any text that starts with `v`, or of `v` itself if nothing follows. -/
def clash : Str → Str → Bool → Bool
  | [], _, _ => false
  | _ :: _, [], closed => closed
  | a :: w, b :: v, closed => a != b || clash w v closed

theorem clash_spec {w v x : Str} {closed : Bool} (h : clash w v closed = true) (hc : closed = true → x = []) : ¬ w <+: v ++ x := by
  induction w generalizing v with
  | nil => cases h
  | cons a w ih =>
    cases v with
    | nil =>
      rw [hc h]
      simp
    | cons b v =>
      simp only [clash, Bool.or_eq_true, bne_iff_ne, ne_eq] at h
      rw [List.cons_append, List.cons_prefix_cons]
      rintro ⟨rfl, hp⟩
      rcases h with h | h
      · exact h rfl
      · exact ih h hp

/-- A character no comment and no line end starts with. -/
def visible (c : Char) : Bool := !isSpTab c && !isNewlineChar c && c != '/' && c != ';'

def visibleHead : Str → Bool
  | [] => false
  | c :: _ => visible c

theorem starts_visible {c : Char} {t : Str} (h : visible c = true) : startsComment (c :: t) = false := by
  simp only [visible, Bool.and_eq_true, Bool.not_eq_true', bne_iff_ne, ne_eq] at h
  obtain ⟨⟨⟨h1, _⟩, h2⟩, h3⟩ := h
  have hb : ¬ IsBlankChar c := blankChar_false.1 h1
  simp [startsComment, hb, h2, h3]

theorem k_cons {c : Char} {t : Str} (h : visible c = true) : K [] (c :: t) := k_nil (starts_visible h)

theorem k_colon (r : Str) : K [] (':' :: r) := k_cons (by decide)

theorem k_head {v x : Str} (h : visibleHead v = true) : K [] (v ++ x) := by
  cases v with
  | nil => cases h
  | cons c t => exact k_cons h

/-- See `failsHead_spec`. -/
def failsHead (closed : Bool) : Expr Rule → Str → Bool
  | .str w, v => clash w v closed
  | .cls p, c :: _ => !p c
  | .cls _, [] => closed
  | .seq x _, v => failsHead closed x v
  | .alt x y, v => plain x && failsHead closed x v && failsHead closed y v
  | .rule _ _ x, v => failsHead closed x v
  | _, _ => false

/-- The expression fails on every text that starts with `v`, or on `v` itself if nothing follows. -/
theorem failsHead_spec {closed : Bool} {x : Str} (hc : closed = true → x = []) : ∀ (e : Expr Rule) (a : Atom) (v : Str),
    failsHead closed e v = true → Fails skip e a (v ++ x) := by
  intro e
  induction e with
  | str w => intro a v h; exact fails_str.2 (clash_spec h hc)
  | cls p =>
    intro a v h
    cases v with
    | nil => rw [hc h]; exact fails_cls.2 (headNot_nil _)
    | cons c t => exact fails_cls.2 (headNot_cons.2 (by simpa [failsHead] using h))
  | seq x y ihx ihy => intro a v h; exact fails_seq_left (ihx a v h)
  | alt x y ihx ihy =>
    intro a v h
    simp only [failsHead, Bool.and_eq_true] at h
    exact (fails_alt_iff (uniform_eval good.uniform _ h.1.1 _)).2 ⟨ihx a v h.1.2, ihy a v h.2⟩
  | rule q ty x ih => intro a v h; exact fails_rule (ih _ v h)
  | _ => intro a v h; cases h

/-- See `failsOn_spec`. -/
def failsOn (closed : Bool) : Expr Rule → Str → Bool
  | .seq (.str w) y, v => clash w v closed ||
      (w.isPrefixOf v && visibleHead (v.drop w.length) && plain y && failsOn closed y (v.drop w.length))
  | .seq (.opt x) y, v => failsHead closed x v && visibleHead v && plain x && wf x && plain y && failsOn closed y v
  | .seq (.cls p) y, c :: v => !p c || (visibleHead v && plain y && failsOn closed y v)
  | .seq x _, v => failsOn closed x v
  | .alt x y, v => plain x && failsOn closed x v && failsOn closed y v
  | .rule _ .normal x, v => failsOn closed x v
  | x, v => failsHead closed x v

theorem failsOn_spec {closed : Bool} {x : Str} (hc : closed = true → x = []) (e : Expr Rule) (v : Str)
    (h : failsOn closed e v = true) : Fails skip e .nonAtomic (v ++ x) := by
  fun_induction failsOn closed e v with
  | case1 w y v ih =>
    simp only [Bool.or_eq_true, Bool.and_eq_true] at h
    rcases h with h | ⟨⟨⟨h1, h2⟩, h3⟩, h4⟩
    · exact fails_seq_left (fails_str.2 (clash_spec h hc))
    · have := fails_seq_right (x := .str w) (t := w) good.uniform good.exact rfl rfl (uniform_eval good.uniform y h3 _)
        (blk_of_out out_str0 (k_head h2)) (ih h4)
      rwa [← List.append_assoc, ← isPrefixOf_drop h1] at this
  | case2 x' y v ih =>
    simp only [Bool.and_eq_true] at h
    obtain ⟨⟨⟨⟨⟨h1, h2⟩, h3⟩, h4⟩, h5⟩, h6⟩ := h
    exact fails_seq_right (x := .opt x') (t := []) good.uniform good.exact h3 h4 (uniform_eval good.uniform y h5 _)
      (blk_opt_none (failsHead_spec hc _ _ _ h1) (k_head h2)) (ih h6)
  | case3 p y c v ih =>
    simp only [Bool.or_eq_true, Bool.and_eq_true] at h
    rcases h with h | ⟨⟨h2, h3⟩, h4⟩
    · exact fails_seq_left (fails_cls.2 (headNot_cons.2 (by simpa using h)))
    · cases hp : p c with
      | false => exact fails_seq_left (fails_cls.2 (headNot_cons.2 hp))
      | true =>
        exact fails_seq_right (x := .cls p) (t := [c]) good.uniform good.exact rfl rfl (uniform_eval good.uniform y h3 _)
          (blk_of_out ⟨c, rfl, hp, rfl⟩ (k_head h2)) (ih h4)
  | case4 v x' y _ _ _ ih => exact fails_seq_left (ih h)
  | case5 v x' y ih1 ih2 =>
    simp only [Bool.and_eq_true] at h
    exact (fails_alt_iff (uniform_eval good.uniform _ h.1.1 _)).2 ⟨ih1 h.1.2, ih2 h.2⟩
  | case6 v q x' ih => exact fails_rule (ih h)
  | case7 x' v => exact failsHead_spec hc _ _ _ h

/-- Fails on every text that starts with `v`. -/
theorem fails_on {e : Expr Rule} (v : Str) {x : Str} (h : failsOn false e v = true) : Fails skip e .nonAtomic (v ++ x) :=
  failsOn_spec (by simp) e v h

/-- Fails on the empty text. -/
theorem fails_nil {e : Expr Rule} (h : failsOn true e [] = true) : Fails skip e .nonAtomic [] := by
  simpa using failsOn_spec (x := []) (by simp) e [] h

/-! ## Ends of parts -/

/-- Only a comment may follow on the line. -/
def EndTail (r : Str) : Prop := ∃ cm R, r = cm ++ R ∧ K cm R ∧ LineOver R

theorem over_endTail {r : Str} (h : LineOver r) : EndTail r := ⟨[], r, rfl, k_nil (starts_over h), h⟩

theorem over_head {r : Str} (h : LineOver r) {c : Char} (hc : r.head? = some c) : isSpTab c = true ∨ isNewlineChar c = true := by
  rcases h with rfl | ⟨sp, d, t, rfl, h1, h2⟩
  · cases hc
  · cases sp with
    | nil => cases hc; exact Or.inr h2
    | cons e sp => cases hc; exact Or.inl (h1 _ List.mem_cons_self)

theorem over_not {p : Char → Bool} (h : ∀ c ∈ c!" \t\n\r", p c = false) {r : Str} (hr : LineOver r) : HeadNot p r := by
  intro c hc
  rcases over_head hr hc with h1 | h1
  · rcases blankChar_iff.1 h1 with rfl | rfl <;> exact h _ (by decide)
  · rcases newline_iff.1 h1 with rfl | rfl <;> exact h _ (by decide)

theorem endTail_not {p : Char → Bool} (h : ∀ c ∈ c!" \t\n\r/;", p c = false) {r : Str} (hr : EndTail r) : HeadNot p r := by
  obtain ⟨cm, R, rfl, k, o⟩ := hr
  rcases (k_cases k).2 with rfl | ⟨⟨sp, w, body, rfl, h1, h2, _⟩, _⟩
  · exact over_not (fun c hc => h c (by revert hc; revert c; decide)) o
  · intro c hc
    cases sp with
    | nil => rcases mem_marks.1 h2 with rfl | rfl <;> cases hc <;> exact h _ (by decide)
    | cons d sp =>
      cases hc
      rcases blankChar_iff.1 (h1 _ List.mem_cons_self) with e | e <;> rw [e] <;> exact h _ (by decide)

theorem endTail_num (r : Str) (h : EndTail r) : NumEnd r := endTail_not (by decide) h

theorem colon_num (r : Str) (h : Colon r) : NumEnd r := by
  obtain ⟨t, rfl⟩ := h
  exact numEnd_colon

/-- Neither part makes the text start with a comment. -/
theorem starts_append {v r : Str} (h1 : startsComment v = false) (h2 : startsComment r = false) (h3 : r.head? ≠ some '/') :
    startsComment (v ++ r) = false := by
  induction v with
  | nil => exact h2
  | cons c t ih =>
    rw [List.cons_append]
    unfold startsComment at h1 ⊢
    by_cases hb : IsBlankChar c
    · rw [if_pos hb] at h1 ⊢
      exact ih h1
    · rw [if_neg hb] at h1 ⊢
      cases t with
      | nil =>
        simp only [List.nil_append, Bool.or_eq_false_iff, Bool.and_eq_false_iff] at h1 ⊢
        exact ⟨h1.1, Or.inr (by simpa using h3)⟩
      | cons d t => simpa using h1

theorem noTrail_suffix {a b : Str} (h : NoTrail (a ++ b)) : NoTrail b := by
  intro c hc
  refine h c ?_
  rw [List.getLast?_append, hc]
  rfl

theorem visible_of {v r : Str} (h : NoTrail v) : Visible v r := Or.inl fun c hc => blankChar_false.2 (h c hc)

/-! ## Texts -/

theorem seg_atomic {C : Str → Prop} {q : Rule} {x : Expr Rule} {v : Str} (h : ∀ r, C r → Out skip K x .atomic v r [])
    (hk : ∀ r, C r → K [] (v ++ r)) : S C (.rule q .atomic x) v [.node q v []] := fun r hr =>
  ⟨out_rule_atomic (h r hr), hk r hr⟩

theorem hu (x : Expr Rule) {a : Atom} (h : plain x = true) : Uniform (eval skip x a) := uniform_eval good.uniform x h _

abbrev text (v : Str) : Tr := .node .colon_delimited_text v []
abbrev item (v : Str) : Tr := .node .comma_delimited_text v []
abbrev path (v : Str) : Tr := .node .backslash_delimited_text v []

/-- A character of `p` follows, or only blanks are left on the line. -/
def Stop (p : Char → Bool) (v r : Str) : Prop := (∃ c t, r = c :: t ∧ p c = true ∧ visible c = true) ∨ (NoTrail v ∧ LineOver r)

theorem stop_k {p : Char → Bool} {v r : Str} (hv : startsComment v = false) (h : Stop p v r) : K [] (v ++ r) := by
  rcases h with ⟨c, t, rfl, _, h2⟩ | ⟨_, h2⟩
  · refine k_nil (starts_append hv (starts_visible h2) ?_)
    rintro e; cases e; exact absurd h2 (by decide)
  · refine k_nil (starts_append hv (starts_over h2) ?_)
    intro e
    exact absurd (over_not (p := (· == '/')) (by decide) h2 _ e) (by decide)

theorem seg_stop {q : Rule} {x : Expr Rule} {p : Char → Bool} (hx : LikeCls skip K x .atomic p) (hw : wf x = true) {v : Str}
    (hv : ∀ c ∈ v, p c = false ∧ ¬ IsNewline c) (hs : startsComment v = false) :
    S (Stop p v) (.rule q .atomic (.star ((.not (Base.NL ∥ x)) ⬝ .any))) v [.node q v []] :=
  seg_atomic (fun r hr => by
    refine out_stop good hx hw (fun c hc => ⟨(hv c hc).1, not_newline_iff.2 (hv c hc).2⟩) ?_ ?_
    · rcases hr with ⟨c, t, rfl, _, h⟩ | ⟨h, _⟩
      · simp only [visible, Bool.and_eq_true, Bool.not_eq_true'] at h
        exact Or.inr (Or.inr ⟨c, t, rfl, h.1.1.1, h.1.1.2⟩)
      · exact visible_of h
    · rcases hr with ⟨c, t, rfl, h, _⟩ | ⟨_, h⟩
      · exact Or.inr ⟨c, t, rfl, h⟩
      · exact Or.inl h) fun r hr => stop_k hs hr

abbrev isColon (c : Char) : Bool := c == ':'
abbrev isSep (c : Char) : Bool := c == ':' || c == ','
abbrev isBack (c : Char) : Bool := c == '\\'

theorem seg_name {v : Str} (h : IsName v) : S (Stop isColon v) colon_delimited_text v [text v] :=
  seg_stop (likeCls_char ':' _) rfl (fun c hc => ⟨by simpa using (h.1 c hc).1, (h.1 c hc).2⟩) h.2

theorem seg_item {v : Str} (h : IsItem v) : S (Stop isSep v) comma_delimited_text v [item v] :=
  seg_stop ((likeCls_char ':' _).alt (likeCls_char ',' _) (hu _ rfl)) rfl
    (fun c hc => ⟨by simpa using ⟨(h.1 c hc).1, (h.1 c hc).2.1⟩, (h.1 c hc).2.2⟩) h.2

theorem seg_path {v : Str} (h : IsPath v) : S (Stop isBack v) backslash_delimited_text v [path v] :=
  seg_stop (likeCls_char '\\' _) rfl (fun c hc => ⟨by simpa using (h.1 c hc).1, (h.1 c hc).2⟩) h.2

theorem stop_colon {p : Char → Bool} (hp : p ':' = true) {v : Str} (r : Str) (h : Colon r) : Stop p v r := by
  obtain ⟨t, rfl⟩ := h
  exact Or.inl ⟨_, _, rfl, hp, by decide⟩

theorem stop_over {p : Char → Bool} {v : Str} (r : Str) (h : NoTrail v ∧ LineOver r) : Stop p v r := Or.inr h

theorem seg_nameC {v : Str} (h : IsName v) : S Colon colon_delimited_text v [text v] :=
  seg_mono (seg_name h) (stop_colon (by decide))

/-! ## Sequences of parts -/

theorem seg_seq {C C1 : Str → Prop} {x y : Expr Rule} {v w : Str} {u1 u2 : List Tr} (h1 : S C1 x v u1) (h2 : S C y w u2)
    (hc : ∀ r, C r → C1 (w ++ r)) : S C (x ⬝ y) (v ++ w) (u1 ++ u2) := fun r hr => by
  obtain ⟨o2, k2⟩ := h2 r hr
  obtain ⟨o1, k1⟩ := h1 (w ++ r) (hc r hr)
  exact ⟨out_seq0 k2 o1 o2, by simpa using k1⟩

theorem seg_opt_some {C : Str → Prop} {x : Expr Rule} {v : Str} {u : List Tr} (h : S C x v u) : S C (.opt x) v u :=
  fun r hr => ⟨Or.inl (h r hr).1, (h r hr).2⟩

theorem seg_opt_none {C : Str → Prop} {x : Expr Rule} (hf : ∀ r, C r → Fails skip x .nonAtomic r) (hk : ∀ r, C r → K [] r) :
    S C (.opt x) [] [] := fun r hr => ⟨Or.inr ⟨rfl, rfl, hf r hr⟩, hk r hr⟩

theorem seg_str {C : Str → Prop} {w : Str} (h : visibleHead w = true) : S C (.str w) w [] := fun _ _ => ⟨out_str0, k_head h⟩

/-- Repetitions without gaps, in front of a gap. -/
theorem out_star0 {x : Expr Rule} (hx : plain x = true) {l : List (Str × List Tr)} {m r : Str}
    (h : Reps (·.1) (fun p r => Out skip K x .nonAtomic p.1 r p.2 ∧ K [] (p.1 ++ r)) l (m ++ r))
    (hk : K m r) (h0 : l = [] → Fails skip x .nonAtomic (m ++ r)) (hf : Fails skip x .nonAtomic r) :
    Out skip K (.star x) .nonAtomic (l.flatMap (·.1)) (m ++ r) (l.flatMap (·.2)) := by
  cases l with
  | nil => exact Or.inl ⟨rfl, rfl, h0 rfl⟩
  | cons p l =>
    have e1 : (l.map fun q => ((([] : Str), q.1), q.2)).flatMap (fun p => p.1.1 ++ p.1.2) = l.flatMap (·.1) := by
      simp [List.flatMap_map]
    refine Or.inr ⟨p.1, p.2, l.map fun q => (([], q.1), q.2), by rw [e1]; rfl, by simp [List.flatMap_map], ?_, ?_, 0, [], ?_⟩
    · rw [e1]; exact h.1.1
    · have h2 := h.2
      clear h h0
      clear e1
      induction l with
      | nil => trivial
      | cons q l ih =>
        refine ⟨?_, ih h2.2⟩
        have e1 : (l.map fun q => ((([] : Str), q.1), q.2)).flatMap (fun p => p.1.1 ++ p.1.2) = l.flatMap (·.1) := by
          simp [List.flatMap_map]
        show K [] (q.1 ++ _) ∧ Out skip K x .nonAtomic q.1 _ q.2
        rw [e1]
        exact ⟨h2.1.2, h2.1.1⟩
    · rw [skipIf_exact (a := .nonAtomic) (m := m) (r := r) good.exact hk rfl, Res.ok_bind]
      exact (hu x hx).fail_of hf _ rfl

/-- A list with commas. -/
theorem seg_joined {x : Expr Rule} (hx : plain x = true) {C C0 : Str → Prop} {A : Type} {txt : A → Str} {tok : A → Tr}
    (hcomma : ∀ t, C0 (',' :: t)) {a : A} {l : List A}
    (h : ∀ v ∈ a :: l, S C0 x (txt v) [tok v]) (hlast : ∀ v, (a :: l).getLast? = some v → S C x (txt v) [tok v])
    (hC : ∀ r, C r → K [] r ∧ HeadNot (· == ',') r) :
    S C (x ⬝ (.star ((.str c!",") ⬝ x))) (joined ((a :: l).map txt)) ((a :: l).map tok) := by
  intro r hr
  obtain ⟨k0, hn⟩ := hC r hr
  have kc : ∀ t, K [] (',' :: t) := fun t => k_cons (by decide)
  have hf : Fails skip ((.str c!",") ⬝ x) .nonAtomic r := fails_seq_left (((likeCls_char (K := K) ',' _).fails _).2 hn)
  have key : ∀ l : List A, (∀ v ∈ l, S C0 x (txt v) [tok v]) → (∀ v, l.getLast? = some v → S C x (txt v) [tok v]) →
      Reps (·.1) (fun p r => Out skip K ((.str c!",") ⬝ x) .nonAtomic p.1 r p.2 ∧ K [] (p.1 ++ r))
        (l.map fun v => (',' :: txt v, [tok v])) r := by
    intro l
    induction l with
    | nil => intros; trivial
    | cons b l ih =>
      intro h1 h2
      refine ⟨?_, ih (fun v hv => h1 v (List.mem_cons_of_mem _ hv)) fun v hv => h2 v ?_⟩
      · refine ⟨?_, kc _⟩
        cases l with
        | nil =>
          obtain ⟨o, k⟩ := h2 b rfl r hr
          exact out_key (w := c!",") (by simpa using k) (by simpa using o)
        | cons d l =>
          obtain ⟨o, k⟩ := h1 b List.mem_cons_self
            (',' :: (txt d ++ ((l.map fun v => (',' :: txt v, [tok v])).flatMap (·.1) ++ r))) (hcomma _)
          exact out_key (w := c!",") (by simpa using k) (by simpa using o)
      · cases l with
        | nil => cases hv
        | cons c l => simpa using hv
  have k1 := key l (fun v hv => h v (List.mem_cons_of_mem _ hv)) (fun v hv => hlast v (by
    cases l with
    | nil => cases hv
    | cons c l => simpa using hv))
  have o2 := out_star0 (x := (.str c!",") ⬝ x) (by simp [plain, hx]) (m := []) k1 k0 (fun _ => hf) hf
  rw [List.nil_append] at o2
  have e1 : (l.map fun v => (',' :: txt v, [tok v])).flatMap (·.1) = (l.map txt).flatMap fun b => ',' :: b := by
    simp [List.flatMap_map]
  have e2 : ∀ l : List A, (l.map fun v => (',' :: txt v, [tok v])).flatMap (·.2) = l.map tok := by
    intro l
    induction l with
    | nil => rfl
    | cons b l ih => rw [List.map_cons, List.flatMap_cons, ih]; rfl
  rw [e1, e2] at o2
  have first : Out skip K x .nonAtomic (txt a) (((l.map txt).flatMap fun b => ',' :: b) ++ r) [tok a] ∧
      K [] (txt a ++ (((l.map txt).flatMap fun b => ',' :: b) ++ r)) := by
    cases l with
    | nil => simpa using hlast a rfl r hr
    | cons b l => exact h a List.mem_cons_self _ (hcomma _)
  refine ⟨?_, by simpa [joined] using first.2⟩
  refine out_seq0 (t1 := [tok a]) ?_ first.1 o2
  cases l with
  | nil => simpa using k0
  | cons b l => exact kc _

end Verif.Proofs.Topsky
