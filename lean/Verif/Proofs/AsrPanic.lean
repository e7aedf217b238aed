import Verif.Proofs.Asr
import Verif.Tokens.Asr
import Verif.Peg.Infix
/-!
# Lemmas about .asr files: where panics can come from
-/

namespace Verif.Parse.Asr
open Verif.Peg Verif.Peg.Asr Verif.Spec.Asr

variable {F : Type} [F64 F]

theorem k_head {m r : Str} (h : K m r) : m = [] ∨ m.head? = some ';' := by
  obtain ⟨⟨ps, rfl, hp⟩, _⟩ := h
  cases ps with
  | nil => exact Or.inl rfl
  | cons p ps =>
    refine Or.inr ?_
    obtain ⟨⟨x, hx, ts, ho⟩, _⟩ := hp
    rw [List.mem_singleton.1 hx] at ho
    obtain ⟨s1, m, s2, t1, t2, rfl, _, ⟨rfl, _⟩, _⟩ := ho
    rfl

theorem gap_head {m r : Str} (h : Gap K .nonAtomic m r) : m = [] ∨ m.head? = some ';' := k_head h

theorem out_minus {a : Atom} {s r : Str} {ts : List (Tree Rule)} (h : Out skip K (.opt (.str c!"-")) a s r ts) :
    ts = [] ∧ (s = [] ∨ s = ['-']) := by
  rcases h with ⟨rfl, rfl⟩ | ⟨rfl, rfl, _⟩ <;> simp

theorem isInt_of {sg ds : Str} (h : sg = [] ∨ sg = ['-']) (hd : IsDigits ds) : IsInt (sg ++ ds) := by
  rcases h with rfl | rfl
  · exact Or.inl hd
  · exact Or.inr ⟨ds, rfl, hd⟩

theorem out_int_body {s r : Str} {ts : List (Tree Rule)}
    (h : Out skip K ((.opt (.str c!"-")) ⬝ (.plus (.cls isAsciiDigit))) .atomic s r ts) : IsInt s := by
  obtain ⟨s1, s2, t1, t2, rfl, _, h1, h2⟩ := (out_seq_atomic (by decide)).1 h
  exact isInt_of (out_minus h1).2 (out_digits (by decide) h2).2

theorem out_number_body {s r : Str} {ts : List (Tree Rule)}
    (h : Out skip K ((.opt (.str c!"-")) ⬝ (.plus (.cls isAsciiDigit)) ⬝ (.opt ((.str c!".") ⬝ (.plus (.cls isAsciiDigit)))))
      .atomic s r ts) : IsNumber s := by
  obtain ⟨s1, s2, t1, t2, rfl, _, h1, h2⟩ := (out_seq_atomic (by decide)).1 h
  obtain ⟨s3, s4, t3, t4, rfl, _, h3, h4⟩ := (out_seq_atomic (by decide)).1 h2
  refine ⟨s1 ++ s3, s4, by simp, isInt_of (out_minus h1).2 (out_digits (by decide) h3).2, ?_⟩
  rcases h4 with h4 | ⟨rfl, _⟩
  · obtain ⟨s5, s6, t5, t6, rfl, _, ⟨rfl, _⟩, h6⟩ := (out_seq_atomic (by decide)).1 h4
    exact Or.inr ⟨s6, rfl, (out_digits (by decide) h6).2⟩
  · exact Or.inl rfl

/-- A line with an integer. -/
theorem int_line {e : Rule} {key : Str} {t : Tree Rule}
    (h : Tok skip K (.rule e .normal ((.str key) ⬝ INTEGER)) .nonAtomic t) :
    ∃ gap n, t = .node e (key ++ gap ++ n) [.node .INTEGER n []] ∧ (gap = [] ∨ gap.head? = some ';') ∧ IsInt n := by
  obtain ⟨s, r, kids, rfl, ho⟩ := tok_rule rfl h
  obtain ⟨s1, m, s2, t1, t2, rfl, hg, ⟨rfl, rfl⟩, ho, rfl⟩ := ho
  obtain ⟨kids, h1, h2⟩ := ho
  have hi := out_int_body h1
  have hk : kids = [] := by
    obtain ⟨s1, s2, t1, t2, rfl, rfl, h1, h2⟩ := (out_seq_atomic (by decide)).1 h1
    rw [(out_minus h1).1, (out_digits (by decide) h2).1]
    rfl
  subst hk
  refine ⟨m, s2, ?_, gap_head hg, hi⟩
  rw [h2]
  rfl

theorem number_token {t : Tree Rule} (h : Tok skip K DECIMAL .nonAtomic t) : IsNumber t.asStr := by
  obtain ⟨s, r, kids, rfl, ho⟩ := tok_rule rfl h
  exact out_number_body ho

/-- A coordinate is a number or in degrees, minutes and seconds. -/
theorem coord_token {t : Tree Rule} (h : Tok skip K coord_part .nonAtomic t) : IsNumber t.asStr ∨ IsDms t.asStr := by
  obtain ⟨s, r, kids, rfl, ho⟩ := tok_rule rfl h
  rcases ho with ⟨ks, ho, _⟩ | ⟨⟨ks, ho, _⟩, _⟩
  · exact Or.inl (out_number_body ho)
  · refine Or.inr ?_
    obtain ⟨s1, s2, t1, t2, rfl, _, h1, h2⟩ := (out_seq_atomic (by decide)).1 ho
    obtain ⟨s3, s4, t3, t4, rfl, _, h3, h4⟩ := (out_seq_atomic (by decide)).1 h2
    obtain ⟨s5, s6, t5, t6, rfl, _, ⟨rfl, _⟩, h6⟩ := (out_seq_atomic (by decide)).1 h4
    obtain ⟨s7, s8, t7, t8, rfl, _, h7, h8⟩ := (out_seq_atomic (by decide)).1 h6
    obtain ⟨s9, s10, t9, t10, rfl, _, ⟨rfl, _⟩, h10⟩ := (out_seq_atomic (by decide)).1 h8
    obtain ⟨k1, h1, _⟩ := h1
    obtain ⟨k3, h3, _⟩ := h3
    obtain ⟨k7, h7, _⟩ := h7
    obtain ⟨k10, ⟨k11, h10, _⟩, _⟩ := h10
    have hh : ∃ c ∈ c!"NSWE", s1 = [c] := by
      rcases h1 with ⟨rfl, _⟩ | ⟨⟨rfl, _⟩ | ⟨⟨rfl, _⟩ | ⟨⟨rfl, _⟩, _⟩, _⟩, _⟩
      all_goals exact ⟨_, by decide, rfl⟩
    obtain ⟨c, hc, rfl⟩ := hh
    exact ⟨c, s3, s7, s10, rfl, hc, (out_digits (by decide) h3).2, (out_digits (by decide) h7).2, out_number_body h10⟩

theorem window_line {t : Tree Rule} (h : Tok skip K window_area .nonAtomic t) :
    ∃ rest kids, t = .node .window_area (c!"WINDOWAREA:" ++ rest) kids ∧ ∀ k ∈ kids, k.asStr <:+: rest := by
  obtain ⟨s, r, kids, rfl, ho⟩ := tok_rule rfl h
  obtain ⟨s1, m, s2, t1, t2, rfl, hg, ⟨rfl, rfl⟩, ho, he⟩ := ho
  rw [List.nil_append] at he
  subst he
  refine ⟨m ++ s2, kids, by simp, ?_⟩
  intro k hk
  exact infix_right (out_infix _ _ _ _ _ ho k hk)

/-- A line is read, or it is harmful. -/
theorem setting_cases {num : Str → F} (hn : Reads num) {k : List (Tree Rule)} (hk : Kids skip K setting .nonAtomic k) :
    ∃ t, k = [t] ∧ ((∃ d, parseSetting (F := F) t = .ok d) ∨ Harmful t.asStr) := by
  unfold setting at hk
  simp only [kids_simp] at hk
  obtain ⟨t, ht, rfl⟩ := hk
  refine ⟨t, rfl, ?_⟩
  rcases ht with h | h | h | h | h | h | h | h | h | h | h | h | h | h | h | h | h | h | h | h | h | h | h | h | h | h |
    h | h | h | h | h | h | h | h | h | h
  case inl =>
    obtain ⟨gap, n, rfl, hg, hi⟩ := int_line h
    by_cases hf : (Line.int .above n).Fits
    · left
      have := setting_line hn (w := .int .above n) hi
      rw [if_pos hf] at this
      exact ⟨_, this⟩
    · exact Or.inr (.number .above gap n hg hi hf)
  case inr.inl =>
    obtain ⟨gap, n, rfl, hg, hi⟩ := int_line h
    by_cases hf : (Line.int .below n).Fits
    · left
      have := setting_line hn (w := .int .below n) hi
      rw [if_pos hf] at this
      exact ⟨_, this⟩
    · exact Or.inr (.number .below gap n hg hi hf)
  case inr.inr.inr.inr.inl =>
    left
    obtain ⟨s, kids, rfl, hk⟩ := tok_kids rfl h
    simp only [kids_simp] at hk
    obtain ⟨x, hx, rfl⟩ := hk
    have := hn _ (number_token hx)
    refine ⟨some (.displayRotation (num x.asStr)), ?_⟩
    simp [parseSetting, nextF64, nextStr, this, unwrap]
  case inr.inr.inr.inr.inr.inr.inr.inr.inl =>
    obtain ⟨gap, n, rfl, hg, hi⟩ := int_line h
    by_cases hf : (Line.int .historyDots n).Fits
    · left
      have := setting_line hn (w := .int .historyDots n) hi
      rw [if_pos hf] at this
      exact ⟨_, this⟩
    · exact Or.inr (.number .historyDots gap n hg hi hf)
  case inr.inr.inr.inr.inr.inr.inr.inr.inr.inl =>
    obtain ⟨gap, n, rfl, hg, hi⟩ := int_line h
    by_cases hf : (Line.int .leader n).Fits
    · left
      have := setting_line hn (w := .int .leader n) hi
      rw [if_pos hf] at this
      exact ⟨_, this⟩
    · exact Or.inr (.number .leader gap n hg hi hf)
  case inr.inr.inr.inr.inr.inr.inr.inr.inr.inr.inr.inr.inr.inr.inr.inr.inr.inr.inr.inl =>
    obtain ⟨rest, kids, rfl, hi⟩ := window_line h
    obtain ⟨s, kids', he, hk⟩ := tok_kids rfl h
    cases he
    simp only [kids_simp, coordinate] at hk
    obtain ⟨a, ha, b, hb, c, hc, d, hd, rfl⟩ := hk
    have key : ∀ x ∈ [a, b, c, d], IsNumber x.asStr ∨ Harmful (c!"WINDOWAREA:" ++ rest) := by
      intro x hx
      have ht : Tok skip K coord_part .nonAtomic x := by
        simp only [List.mem_cons, List.not_mem_nil, or_false] at hx
        rcases hx with rfl | rfl | rfl | rfl <;> assumption
      rcases coord_token ht with h | h
      · exact Or.inl h
      · exact Or.inr (.window _ _ (hi x hx) h)
    rcases key a (by simp) with h1 | h1
    · rcases key b (by simp) with h2 | h2
      · rcases key c (by simp) with h3 | h3
        · rcases key d (by simp) with h4 | h4
          · left
            have e1 := hn _ h1
            have e2 := hn _ h2
            have e3 := hn _ h3
            have e4 := hn _ h4
            refine ⟨some (.windowArea ⟨⟨num b.asStr, num a.asStr⟩, ⟨num d.asStr, num c.asStr⟩⟩), ?_⟩
            simp [parseSetting, nextF64, nextStr, e1, e2, e3, e4, unwrap]
          · exact Or.inr h4
        · exact Or.inr h3
      · exact Or.inr h2
    · exact Or.inr h1
  all_goals
    left
    obtain ⟨s, kids, rfl, hk⟩ := tok_kids rfl h
    simp only [kids_simp] at hk
    first
    | (obtain ⟨x, hx, rfl⟩ := hk; exact ⟨_, rfl⟩)
    | (obtain ⟨x, hx, y, hy, rfl⟩ := hk; exact ⟨_, rfl⟩)
    | (obtain ⟨x, hx, y, hy, z, hz, rfl⟩ := hk; exact ⟨_, rfl⟩)
    | skip
  all_goals
    simp only [kids_simp, fix_type, navaid_type, airway_type, ground_network_type, runway, runway_type] at hk
  case inr.inr.inr.inr.inr.inr.inr.inr.inr.inr.inr.inr.inr.inr.inr.inr.inr.inr.inr.inr.inr.inr.inr.inr.inr.inr.inr.inr.inr.inr.inr.inr.inr.inr.inr =>
    obtain ⟨x, hx, y, hy, z, hz, w, hw, rfl⟩ := hk
    rcases hw with hw | hw | hw
    all_goals
      obtain ⟨s, ks, rfl, hk⟩ := tok_kids rfl hw
      exact ⟨_, rfl⟩
  all_goals
    obtain ⟨x, hx, y, hy, rfl⟩ := hk
  case inr.inr.inr.inr.inr.inr.inr.inr.inr.inr.inr.inr.inr.inr.inr.inr.inr.inr.inr.inr.inr.inl =>
    rcases hy with hy | hy
    all_goals
      obtain ⟨s, ks, rfl, hk⟩ := tok_kids rfl hy
      exact ⟨_, rfl⟩
  case inr.inr.inr.inr.inr.inr.inr.inr.inr.inr.inr.inr.inr.inr.inr.inr.inr.inr.inr.inr.inr.inr.inl =>
    rcases hy with hy | hy
    all_goals
      obtain ⟨s, ks, rfl, hk⟩ := tok_kids rfl hy
      exact ⟨_, rfl⟩
  case inr.inr.inr.inr.inr.inr.inr.inr.inr.inr.inr.inr.inr.inr.inr.inr.inr.inr.inr.inr.inr.inr.inr.inr.inr.inl =>
    rcases hy with hy | hy
    all_goals
      obtain ⟨s, ks, rfl, hk⟩ := tok_kids rfl hy
      exact ⟨_, rfl⟩
  case inr.inr.inr.inr.inr.inr.inr.inr.inr.inr.inr.inr.inr.inr.inr.inr.inr.inr.inr.inr.inr.inr.inr.inr.inr.inr.inl =>
    rcases hy with hy | hy
    all_goals
      obtain ⟨s, ks, rfl, hk⟩ := tok_kids rfl hy
      exact ⟨_, rfl⟩
  all_goals
    rcases hy with hy | hy | hy
  all_goals
    obtain ⟨s, ks, rfl, hk⟩ := tok_kids rfl hy
    exact ⟨_, rfl⟩

theorem collect_cases : ∀ ts : List (Tree Rule),
    (∀ t ∈ ts, (∃ d, parseSetting (F := F) t = .ok d) ∨ Harmful t.asStr) →
    (∃ ds, collect (F := F) ts = .ok ds) ∨ ∃ t ∈ ts, Harmful t.asStr := by
  intro ts
  induction ts with
  | nil => intro _; exact Or.inl ⟨_, rfl⟩
  | cons t ts ih =>
    intro h
    rcases h t List.mem_cons_self with ⟨d, hd⟩ | hb
    · rcases ih fun u hu => h u (List.mem_cons_of_mem _ hu) with ⟨ds, hds⟩ | ⟨u, hu, hb⟩
      · left
        simp only [collect, hd, run_ok_bind, hds]
        exact ⟨_, rfl⟩
      · exact Or.inr ⟨u, List.mem_cons_of_mem _ hu, hb⟩
    · exact Or.inr ⟨t, List.mem_cons_self, hb⟩

/-- Whatever the text: a result, an error, or there is a harmful part. -/
theorem parse_cases {num : Str → F} (hn : Reads num) (content : Str) :
    parse (F := F) content = .error .parseError ∨ (∃ a, parse (F := F) content = .ok a) ∨
      ∃ s, s <:+: content ∧ Harmful s := by
  rcases run_tok asr rfl (sk := skip) (skipOne_ok rfl) rfl rfl content with h | ⟨kids, h, ho⟩
  · left
    simp only [parse, h, run_error_bind]
  · right
    have hi := out_infix _ _ _ _ _ ho
    have hk := out_kids _ _ _ _ _ ho
    simp only [kids_simp] at hk
    obtain ⟨t1, h1, l, h2, rfl⟩ := hk
    rcases collect_cases (F := F) (t1 ++ l.flatten ++ [.node .EOI [] []]) (by
      intro t ht
      rcases List.mem_append.1 ht with ht | ht
      · rcases List.mem_append.1 ht with ht | ht
        · obtain ⟨t', rfl, hs⟩ := setting_cases hn h1
          rw [List.mem_singleton.1 ht]
          exact hs
        · obtain ⟨k, hk, ht⟩ := List.mem_flatten.1 ht
          obtain ⟨t', rfl, hs⟩ := setting_cases hn (h2 k hk)
          rw [List.mem_singleton.1 ht]
          exact hs
      · rw [List.mem_singleton.1 ht]
        exact Or.inl ⟨_, rfl⟩) with ⟨ds, hd⟩ | ⟨t, ht, hb⟩
    · left
      simp only [parse, h, run_ok_bind, next_cons, Tree.inner_node, hd]
      exact ⟨_, rfl⟩
    · exact Or.inr ⟨_, hi t ht, hb⟩

end Verif.Parse.Asr
