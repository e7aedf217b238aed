import Verif.Proofs.TopskyText
/-!
# Lines of TopSky files
-/

namespace Verif.Proofs.Topsky
open Verif.Peg Verif.Peg.Topsky Verif.Spec Verif.Spec.Topsky

/-- Neither a comment nor a line end starts here. -/
def Fresh (r : Str) : Prop := startsComment r = false ∧
  ∀ sp rest, r = sp ++ rest → (∀ c ∈ sp, isSpTab c = true) → HeadNot isNewlineChar rest

theorem fresh_nil : Fresh [] := ⟨rfl, fun sp rest e _ => by
  cases sp <;> cases e
  exact headNot_nil _⟩

/-- Blanks and a visible character. -/
theorem fresh_cons {sp : Str} {c : Char} {t : Str} (h : ∀ c ∈ sp, isSpTab c = true) (h1 : isSpTab c = false)
    (h2 : isNewlineChar c = false) (h3 : startsComment (c :: t) = false) : Fresh (sp ++ c :: t) := by
  refine ⟨by rw [starts_blanks h, h3], fun sp' rest e hs => ?_⟩
  rcases List.append_eq_append_iff.1 e with ⟨a, rfl, e2⟩ | ⟨a, rfl, e2⟩
  · cases a with
    | nil => rw [List.nil_append] at e2; rw [← e2]; exact headNot_cons.2 h2
    | cons d a =>
      cases e2
      rw [hs c (by simp)] at h1
      cases h1
  · cases a with
    | nil => rw [List.nil_append] at e2; rw [e2]; exact headNot_cons.2 h2
    | cons d a =>
      rw [e2]
      refine headNot_cons.2 ?_
      have := h d (by simp)
      rcases blankChar_iff.1 this with rfl | rfl <;> decide

/-- Blanks in a row. -/
theorem starOut_blanks {s r : Str} {ts : List (Tree Rule)}
    (h : Out skip K (.star ((.str c!" ") ∥ (.str ['\t']))) .nonAtomic s r ts) (hc : startsComment (s ++ r) = false) :
    (∀ c ∈ s, isSpTab c = true) ∧ startsComment r = false := by
  have like := likeCls_spTab (sk := skip) (K := K) .nonAtomic good.uniform
  rcases h with ⟨rfl, _⟩ | ⟨s1, t1, parts, rfl, _, o1, hp, _⟩
  · exact ⟨by simp, hc⟩
  · obtain ⟨c, rfl, h1, _⟩ := (like.out _ _ _).1 o1
    have key : ∀ parts : List ((Str × Str) × List (Tree Rule)),
        Parts skip K ((.str c!" ") ∥ (.str ['\t'])) parts r → startsComment (partsText parts ++ r) = false →
        (∀ c ∈ partsText parts, isSpTab c = true) ∧ startsComment r = false := by
      intro parts
      induction parts with
      | nil => exact fun _ h => ⟨by simp [partsText], h⟩
      | cons p ps ih =>
        intro hp hs
        obtain ⟨⟨q1, q2⟩, q3⟩ := hp
        obtain ⟨d, e, h2, _⟩ := (like.out _ _ _).1 q2
        have q1 : K p.1.1 _ := q1
        have e1 : partsText (p :: ps) ++ r = p.1.1 ++ (p.1.2 ++ (partsText ps ++ r)) := by simp [partsText]
        rw [e1] at hs
        rcases (k_cases q1).2 with e2 | ⟨h3, _⟩
        · rw [e2, List.nil_append, e, starts_blanks (by simpa using h2)] at hs
          obtain ⟨a, b⟩ := ih q3 hs
          refine ⟨?_, b⟩
          intro x hx
          rw [show partsText (p :: ps) = p.1.1 ++ (p.1.2 ++ partsText ps) by simp [partsText], e2, e] at hx
          rcases List.mem_cons.1 (by simpa using hx : x ∈ d :: partsText ps) with rfl | hx
          · exact h2
          · exact a x hx
        · rw [starts_comment h3] at hs
          cases hs
    have hc' : startsComment (partsText parts ++ r) = false := by
      have := starts_blanks (sp := [c]) (t := partsText parts ++ r) (by simpa using h1)
      rw [← this]
      simpa using hc
    obtain ⟨a, b⟩ := key parts hp hc'
    refine ⟨?_, b⟩
    intro x hx
    rcases List.mem_cons.1 (by simpa using hx : x ∈ c :: partsText parts) with rfl | hx
    · exact h1
    · exact a x hx

theorem fails_nlOne {r : Str} (hr : Fresh r) : Fails skip nlOne .nonAtomic r := by
  refine fails_of_not_out good.ok (by rfl) ?_
  rintro s r' ts rfl ⟨s1, m, s2, t1, t2, rfl, hg, h1, h2, _⟩
  have hg : K m (s2 ++ r') := hg
  obtain ⟨a, b⟩ := starOut_blanks h1 (by simpa using hr.1)
  rcases (k_cases hg).2 with rfl | ⟨h3, _⟩
  · have := hr.2 s1 (s2 ++ r') (by simp) a
    rcases (out_newline_iff.1 h2).1 with rfl | rfl | ⟨rfl, _⟩ <;> exact absurd (headNot_cons.1 this) (by decide)
  · rw [starts_comment h3] at b
    cases b

theorem fails_NL_fresh {r : Str} (hr : Fresh r) : Fails skip NL .nonAtomic r := fails_plus (fails_nlOne hr)

/-- Single characters in a row. -/
theorem blk_chars {x : Expr Rule} {p : Char → Bool} (hx : LikeCls skip K x .nonAtomic p)
    (hu : Uniform (eval skip x .nonAtomic)) : ∀ {s r : Str}, (∀ c ∈ s, p c = true) → HeadNot p r →
    (∀ a b, s = a ++ b → startsComment (b ++ r) = false) → Blk skip K (.star x) s r [] := by
  intro s r h1 h2 h3
  have hb : Blks skip K x (s.map fun c => ([c], [])) r := by
    induction s with
    | nil => trivial
    | cons c s ih =>
      refine ⟨?_, ih (fun d hd => h1 d (List.mem_cons_of_mem _ hd)) (fun a b e => h3 (c :: a) b (by simp [e]))⟩
      have h4 := h3 [c] s rfl
      have e : (s.map fun c => (([c], []) : Str × List (Tree Rule))).flatMap (·.1) = s := by simp [List.flatMap_map]
      refine blk_of_out ((hx.out _ _ _).2 ⟨c, rfl, h1 c List.mem_cons_self, rfl⟩) ?_
      rw [e]
      exact k_nil h4
  have := blk_star good.exact hu hb ((hx.fails _).2 h2) (k_nil (h3 s [] (by simp)))
  have e1 : (s.map fun c => (([c], []) : Str × List (Tree Rule))).flatMap (·.1) = s := by simp [List.flatMap_map]
  have e2 : (s.map fun c => (([c], []) : Str × List (Tree Rule))).flatMap (·.2) = [] := by simp [List.flatMap_map]
  rwa [e1, e2] at this

/-- Blanks in front of something that is not a comment. -/
theorem blk_blanks {sp r : Str} (h1 : ∀ c ∈ sp, isSpTab c = true) (h2 : HeadNot isSpTab r) (h3 : startsComment r = false) :
    Blk skip K (.star ((.str c!" ") ∥ (.str ['\t']))) sp r [] := by
  refine blk_chars (likeCls_spTab .nonAtomic good.uniform) (uniform_eval good.uniform _ rfl _) h1 h2 ?_
  intro a b e
  rw [starts_blanks (fun d hd => h1 d (by simp [e, hd]))]
  exact h3

/-- One line end with the comment behind it. -/
theorem blk_nlOne {sp nl cm r : Str} (h1 : ∀ c ∈ sp, isSpTab c = true) (h2 : LineEnd nl (cm ++ r)) (h3 : K cm r) :
    Blk skip K nlOne (sp ++ (nl ++ cm)) r [] := by
  have hh : ∀ t, HeadNot isSpTab (nl ++ t) ∧ startsComment (nl ++ t) = false := fun t => by
    rcases h2 with rfl | rfl | ⟨rfl, _⟩ <;> exact ⟨headNot_cons.2 (by decide), rfl⟩
  refine blk_seq (u1 := []) (u2 := []) (blk_blanks h1 ?_ ?_) (blk_gap (out_newline_iff.2 ⟨h2, rfl⟩) h3)
  · simpa using (hh (cm ++ r)).1
  · simpa using (hh (cm ++ r)).2

theorem lines_tail {t : Str} (h : AreLines ('\n' :: t)) : AreLines t := by
  generalize e : '\n' :: t = s at h
  cases h with
  | nil => cases e
  | line sp rem c u h1 h2 h3 h4 =>
    cases sp with
    | cons d sp =>
      cases e
      have := h1 '\n' (by simp)
      exact absurd this (by decide)
    | nil =>
      rcases h2 with rfl | ⟨w, hw, v, rfl, _⟩
      · cases e; exact h4
      · rcases mem_marks.1 hw with rfl | rfl
        · exact absurd (List.cons.inj e).1 (by decide)
        · exact absurd (List.cons.inj e).1 (by decide)

/-- The lines up to the next one that is neither empty nor a comment. -/
theorem lines_blks {tail r : Str} (hr : K tail r) (hd : (tail ++ r).head? ≠ some '\n') : ∀ (n : Nat) (f : Str), f.length ≤ n → AreLines f →
    ∃ (cm : Str) (l : List (Str × List (Tree Rule))), f ++ tail = cm ++ l.flatMap (·.1) ∧ K cm (l.flatMap (·.1) ++ r) ∧
      Blks skip K nlOne l r ∧ l.flatMap (·.2) = [] ∧ (f ≠ [] → l ≠ [] ∧ LineOver (l.flatMap (·.1) ++ r)) := by
  intro n
  induction n with
  | zero =>
    intro f hn _
    have : f = [] := by simpa using hn
    subst this
    exact ⟨tail, [], by simp, by simpa using hr, trivial, rfl, fun h => absurd rfl h⟩
  | succ n ih =>
    intro f hn hf
    cases hf with
    | nil => exact ⟨tail, [], by simp, by simpa using hr, trivial, rfl, fun h => absurd rfl h⟩
    | line sp rem c t h1 h2 h3 h4 =>
      have key : ∃ nl u, c :: t = nl ++ u ∧ LineEnd nl (u ++ (tail ++ r)) ∧ AreLines u ∧ u.length ≤ t.length := by
        rcases h3 with rfl | rfl
        · exact ⟨['\n'], t, rfl, Or.inl rfl, h4, Nat.le_refl _⟩
        · cases t with
          | nil =>
            refine ⟨['\r'], [], rfl, Or.inr (Or.inr ⟨rfl, ?_⟩), h4, Nat.le_refl _⟩
            simpa using hd
          | cons d t =>
            by_cases hd : d = '\n'
            · subst hd
              exact ⟨['\r', '\n'], t, rfl, Or.inr (Or.inl rfl), lines_tail h4, by simp⟩
            · exact ⟨['\r'], d :: t, rfl, Or.inr (Or.inr ⟨rfl, by simpa using hd⟩), h4, Nat.le_refl _⟩
      obtain ⟨nl, u, e, hl, hu, hlen⟩ := key
      have hlt : u.length ≤ n := by
        simp only [List.length_append, List.length_cons] at hn
        omega
      obtain ⟨cm, l, e1, k1, b1, t1, _⟩ := ih u hlt hu
      have hsp : ∀ d ∈ sp, isSpTab d = true := fun d hd => blankChar_iff.2 (h1 d hd)
      have hl' : LineEnd nl (cm ++ (l.flatMap (·.1) ++ r)) := by
        rw [← List.append_assoc, ← e1]; simpa using hl
      have hnl : ∃ c' u', nl = c' :: u' ∧ isNewlineChar c' = true := by
        rcases hl with rfl | rfl | ⟨rfl, _⟩
        · exact ⟨_, _, rfl, by decide⟩
        · exact ⟨_, _, rfl, by decide⟩
        · exact ⟨_, _, rfl, by decide⟩
      obtain ⟨c', u', rfl, hc'⟩ := hnl
      have hover : ∀ sp' t', (∀ d ∈ sp', isSpTab d = true) → LineOver (sp' ++ (c' :: u' ++ t')) := fun sp' t' hs =>
        Or.inr ⟨sp', c', u' ++ t', by simp, hs, hc'⟩
      rcases h2 with rfl | ⟨w, hw, body, rfl, hb⟩
      · refine ⟨[], (sp ++ (c' :: u' ++ cm), []) :: l, ?_, ?_, ⟨?_, b1⟩, by simpa using t1, fun _ => ⟨by simp, ?_⟩⟩
        · simp [e, e1]
        · refine k_nil (starts_over ?_)
          have := hover sp (cm ++ (l.flatMap (·.1) ++ r)) hsp
          simpa using this
        · exact blk_nlOne hsp hl' k1
        · have := hover sp (cm ++ (l.flatMap (·.1) ++ r)) hsp
          simpa using this
      · obtain ⟨v, sp', rfl, h5, h6⟩ := trim_end body
        have ho := hover sp' (cm ++ (l.flatMap (·.1) ++ r)) h5
        refine ⟨sp ++ (w ++ v), (sp' ++ (c' :: u' ++ cm), []) :: l, ?_, ?_, ⟨?_, b1⟩, by simpa using t1, fun _ => ⟨by simp, ?_⟩⟩
        · simp [e, e1]
        · refine k_comment ?_
          have := comment_build hsp hw (fun d hd => not_newline_iff.2 (hb d (by simp [hd]))) (Or.inl h6) ho
          simpa using this
        · exact blk_nlOne h5 hl' k1
        · simpa using ho

/-- The end of a line: what is skipped, the line ends, and a last comment. -/
theorem lines_NL_tail {f tail r : Str} (hf : AreLines f) (hne : f ≠ []) (hr : Fresh r) (ht : K tail r) (hd : (tail ++ r).head? ≠ some '\n') :
    ∃ cm f', f ++ tail = cm ++ f' ∧ K cm (f' ++ r) ∧ LineOver (f' ++ r) ∧ Blk skip K NL f' r [] := by
  obtain ⟨cm, l, e, k, b, t, h⟩ := lines_blks ht hd _ f (Nat.le_refl _) hf
  obtain ⟨h1, h2⟩ := h hne
  refine ⟨cm, l.flatMap (·.1), e, k, h2, ?_⟩
  have := blk_plus good.exact (uniform_eval good.uniform nlOne rfl _) knil h1 b (fails_nlOne hr)
  rwa [t] at this

theorem fresh_head_ne {r : Str} (hr : Fresh r) : r.head? ≠ some '\n' := fun e =>
  absurd (hr.2 [] r rfl (by simp) _ e) (by decide)

/-- The end of a line: what is skipped, and the line ends. -/
theorem lines_NL {f r : Str} (hf : AreLines f) (hne : f ≠ []) (hr : Fresh r) :
    ∃ cm f', f = cm ++ f' ∧ K cm (f' ++ r) ∧ LineOver (f' ++ r) ∧ Blk skip K NL f' r [] := by
  have := lines_NL_tail (tail := []) hf hne hr (k_nil hr.1) (fresh_head_ne hr)
  simpa using this

/-- Behind a name nothing is skipped. -/
theorem nameLines_NL {sp t r : Str} {c : Char} (h1 : AreBlanks sp) (h2 : IsNewline c) (h3 : AreLines t) (hr : Fresh r) :
    LineOver (sp ++ c :: t ++ r) ∧ Blk skip K NL (sp ++ c :: t) r [] := by
  have hover : LineOver (sp ++ c :: t ++ r) :=
    Or.inr ⟨sp, c, t ++ r, by simp, fun d hd => blankChar_iff.2 (h1 d hd), newline_iff.2 h2⟩
  obtain ⟨cm, f', e, k, ho, b⟩ := lines_NL (AreLines.line sp [] c t h1 (Or.inl rfl) h2 h3) (by simp) hr
  rw [List.nil_append] at e
  rcases (k_cases k).2 with rfl | ⟨h4, _⟩
  · rw [List.nil_append] at e
    rw [e]
    exact ⟨ho, b⟩
  · have h5 := starts_over hover
    rw [e, List.append_assoc, starts_comment h4] at h5
    cases h5

theorem ends_NL {f r : Str} (h : Ends f r) (hr : Fresh r) :
    ∃ cm f', f = cm ++ f' ∧ K cm (f' ++ r) ∧ LineOver (f' ++ r) ∧ Blk skip K (.opt NL) f' r [] := by
  rcases h with ⟨h1, h2⟩ | ⟨rfl, rfl⟩
  · obtain ⟨cm, f', e, k, ho, b⟩ := lines_NL h1 h2 hr
    exact ⟨cm, f', e, k, ho, blk_opt_some b⟩
  · exact ⟨[], [], rfl, k_nil rfl, Or.inl rfl, blk_opt_none (fails_NL_fresh fresh_nil) (k_nil rfl)⟩

theorem nameEnds_NL {f r : Str} (h : NameEnds f r) (hr : Fresh r) : LineOver (f ++ r) ∧ Blk skip K (.opt NL) f r [] := by
  rcases h with ⟨sp, c, t, rfl, h1, h2, h3⟩ | ⟨rfl, rfl⟩
  · obtain ⟨a, b⟩ := nameLines_NL h1 h2 h3 hr
    exact ⟨a, blk_opt_some b⟩
  · exact ⟨Or.inl rfl, blk_opt_none (fails_NL_fresh fresh_nil) (k_nil rfl)⟩

end Verif.Proofs.Topsky
