import Verif.Proofs.AsrText
/-!
# Lemmas about .asr files: whole files
-/

namespace Verif.Parse.Asr
open Verif.Peg Verif.Peg.Asr Verif.Spec.Asr

theorem isNl_iff {c : Char} : isNewlineChar c = true ↔ c = '\n' ∨ c = '\r' := by simp [isNewlineChar]

/-- A run of line end characters consists of line ends. -/
theorem run_split : ∀ (n : Nat) (nls r : Str), nls.length ≤ n → (∀ c ∈ nls, isNewlineChar c = true) →
    HeadNot isNewlineChar r → ∃ ls : List Str, nls = ls.flatMap (fun p => p) ∧ Reps (fun p => p) LineEnd ls r := by
  intro n
  induction n with
  | zero =>
    intro nls r hn _ _
    cases nls with
    | nil => exact ⟨[], rfl, trivial⟩
    | cons c t => simp at hn
  | succ n ih =>
    intro nls r hn hc hr
    cases nls with
    | nil => exact ⟨[], rfl, trivial⟩
    | cons c t =>
      by_cases hcn : c = '\n'
      · obtain ⟨ls, rfl, h⟩ := ih t r (by simp at hn; omega) (fun c h => hc c (by simp [h])) hr
        exact ⟨[c] :: ls, by simp, Or.inl (by rw [hcn]), h⟩
      · have hcr : c = '\r' := by
          rcases isNl_iff.1 (hc c List.mem_cons_self) with h | h
          · exact absurd h hcn
          · exact h
        subst hcr
        by_cases hh : t.head? = some '\n'
        · cases t with
          | nil => cases hh
          | cons d u =>
            cases hh
            obtain ⟨ls, rfl, h⟩ := ih u r (by simp at hn; omega) (fun c h => hc c (by simp [h])) hr
            exact ⟨['\r', '\n'] :: ls, by simp, Or.inr (Or.inl rfl), h⟩
        · obtain ⟨ls, rfl, h⟩ := ih t r (by simp at hn; omega) (fun c h => hc c (by simp [h])) hr
          refine ⟨['\r'] :: ls, by simp, Or.inr (Or.inr ⟨rfl, ?_⟩), h⟩
          cases e : ls.flatMap (fun p => p) with
          | nil =>
            intro he
            exact absurd (hr '\n' (by simpa using he)) (by decide)
          | cons d u =>
            rw [e] at hh
            simpa using hh

theorem lineEnd_head {nl r : Str} (h : LineEnd nl r) : ∃ c t, nl = c :: t ∧ isNewlineChar c = true := by
  rcases h with rfl | rfl | ⟨rfl, _⟩
  · exact ⟨_, _, rfl, by decide⟩
  · exact ⟨_, _, rfl, by decide⟩
  · exact ⟨_, _, rfl, by decide⟩

/-- `NEWLINE+` of a comment takes the whole run. -/
theorem out_run_atomic {nls r : Str} (h0 : nls ≠ []) (hc : ∀ c ∈ nls, isNewlineChar c = true)
    (hr : HeadNot isNewlineChar r) : Out noSkip NoGap NL .atomic nls r ([] : List (Tree Rule)) := by
  obtain ⟨ls, rfl, h⟩ := run_split _ nls r (Nat.le_refl _) hc hr
  cases ls with
  | nil => exact absurd rfl h0
  | cons l ls =>
    refine (out_seq_atomic (by decide)).2 ⟨l, ls.flatMap (fun p => p), [], [], by simp, rfl,
      out_newline_iff.2 ⟨h.1, rfl⟩, ?_⟩
    cases ls with
    | nil => exact Or.inl ⟨rfl, rfl, fails_newline.2 hr⟩
    | cons l2 ls =>
      refine Or.inr ⟨l2, [], ls.map fun q => (([], q), []), by simp [List.flatMap_map], by simp [List.flatMap_map],
        ?_, ?_, (skip_fails (by decide)).2 (fails_newline.2 hr)⟩
      · refine out_newline_iff.2 ⟨?_, rfl⟩
        simpa [List.flatMap_map] using h.2.1
      · exact reps_map (txt' := fun p : Str => p) (P := LineEnd) _ (fun _ => by simp)
          (fun q r' h => ⟨rfl, out_newline_iff.2 ⟨h, rfl⟩⟩) h.2.2

/-- Empty lines, then comment lines. -/
theorem filler_split {f : Str} (h : IsFiller f) : ∃ nls g, f = nls ++ g ∧ (∀ c ∈ nls, isNewlineChar c = true) ∧
    IsFiller g ∧ HeadNot isNewlineChar g := by
  induction h with
  | nil => exact ⟨[], [], rfl, by simp, .nil, headNot_nil _⟩
  | newline c rest hc _ ih =>
    obtain ⟨nls, g, rfl, h1, h2, h3⟩ := ih
    refine ⟨c :: nls, g, rfl, ?_, h2, h3⟩
    intro d hd
    rcases List.mem_cons.1 hd with rfl | hd
    · exact isNl_iff.2 hc
    · exact h1 d hd
  | comment body c rest hb hc hf _ =>
    exact ⟨[], _, rfl, by simp, .comment body c rest hb hc hf, headNot_cons.2 (by decide)⟩

/-- What may follow a line end: the end or a line. -/
def LineStart (r : Str) : Prop := HeadNot isNewlineChar r ∧ r.head? ≠ some ';'

/-- Comment lines are skipped. -/
theorem filler_k : ∀ (n : Nat) (f r : Str), f.length ≤ n → IsFiller f → HeadNot isNewlineChar f → LineStart r → K f r := by
  intro n
  induction n with
  | zero =>
    intro f r hn _ _ hr
    cases f with
    | nil => exact k_nil hr.2
    | cons c t => simp at hn
  | succ n ih =>
    intro f r hn hf hh hr
    cases hf with
    | nil => exact k_nil hr.2
    | newline c rest hc hf =>
      have := headNot_cons.1 hh
      rw [isNl_iff.2 hc] at this
      cases this
    | comment body c rest hb hc hf =>
      obtain ⟨nls, g, rfl, h1, h2, h3⟩ := filler_split hf
      have hg := ih g r (by simp at hn; omega) h2 h3 hr
      obtain ⟨⟨ps, rfl, hp⟩, hfail⟩ := hg
      refine ⟨⟨(';' :: (body ++ c :: nls)) :: ps, by simp, ⟨⟨COMMENT, by simp, [], ?_⟩, hp⟩⟩, hfail⟩
      have hout : Out noSkip NoGap ((.str c!";") ⬝ (.star ((.not .newline) ⬝ .any)) ⬝ NL) .atomic
          (';' :: (body ++ c :: nls)) (ps.flatMap (fun p => p) ++ r) ([] : List (Tree Rule)) := by
        refine (out_seq_atomic (by decide)).2 ⟨c!";", body ++ c :: nls, [], [], rfl, rfl, out_str0, ?_⟩
        refine (out_seq_atomic (by decide)).2 ⟨body, c :: nls, [], [], rfl, rfl, ?_, ?_⟩
        · refine ((likeCls_notNewline (by decide)).star (by decide)).2 ⟨?_, ?_, rfl⟩
          · intro d hd
            simpa using isNewline_iff.2 (hb d hd)
          · exact headNot_cons.2 (by simpa using isNl_iff.2 hc)
        · refine out_run_atomic (by simp) ?_ ?_
          · intro d hd
            rcases List.mem_cons.1 hd with rfl | hd
            · exact isNl_iff.2 hc
            · exact h1 d hd
          · cases e : ps.flatMap (fun p => p) with
            | nil => simpa using hr.1
            | cons d u =>
              rw [e] at h3
              exact headNot_cons.2 (headNot_cons.1 h3)
      exact hout

/-- The line ends and comment lines behind a line. -/
theorem filler_out {f r : Str} (hf : IsFiller f) (hs : StartsLine f) (hr : LineStart r) :
    ∃ s m, f = s ++ m ∧ AtLineEnd (s ++ (m ++ r)) ∧ Out skip K NL .nonAtomic s (m ++ r) [] ∧ K m r := by
  obtain ⟨nls, g, rfl, h1, h2, h3⟩ := filler_split hf
  have hk := filler_k _ g r (Nat.le_refl _) h2 h3 hr
  obtain ⟨c, t, e, hc⟩ := hs
  cases nls with
  | nil =>
    have h3 := h3 c (by simpa using congrArg List.head? e)
    rw [isNl_iff.2 hc] at h3
    cases h3
  | cons d nls =>
    have hgr : HeadNot isNewlineChar (g ++ r) := by
      cases g with
      | nil => simpa using hr.1
      | cons x y => exact headNot_cons.2 (headNot_cons.1 h3)
    obtain ⟨ls, e2, h⟩ := run_split _ (d :: nls) (g ++ r) (Nat.le_refl _) h1 hgr
    cases ls with
    | nil => cases e2
    | cons l ls =>
      obtain ⟨s, m, e3, h4, h5⟩ := out_newlines_build (nl := l) (b := g) (r := r) (bs := ls.map fun q => ([], q))
        skip_uniform skip_exact' k_knil
        (reps_map (txt' := fun p : Str => p) (P := LineEnd) _ (fun _ => by simp) (fun q r' h => ⟨by
          obtain ⟨x, y, e, hx⟩ := lineEnd_head h
          refine k_nil ?_
          rw [e]
          rintro e
          cases e
          exact absurd hx (by decide), h⟩) h.2) hk hr.1 (by simpa [List.flatMap_map] using h.1)
      have e4 : d :: nls ++ g ++ r = s ++ (m ++ r) := by
        rw [e2, ← e3]
        simp [List.flatMap_map]
      refine ⟨s, m, ?_, ?_, h4, h5⟩
      · rw [← List.append_assoc] at e4
        exact List.append_cancel_right e4
      · rw [← e4]
        exact headNot_cons.2 (by simpa using h1 d List.mem_cons_self)

theorem line_head (w : Line) : ∃ c t, w.toText = c :: t ∧ isNewlineChar c = false ∧ c ≠ ';' := by
  cases w with
  | flag k b => cases k <;> exact ⟨_, _, rfl, by decide, by decide⟩
  | int k n => cases k <;> exact ⟨_, _, rfl, by decide, by decide⟩
  | text k v => cases k <;> exact ⟨_, _, rfl, by decide, by decide⟩
  | named k v => cases k <;> exact ⟨_, _, rfl, by decide, by decide⟩
  | _ => exact ⟨_, _, rfl, by decide, by decide⟩

theorem line_start (w : Line) (r : Str) : LineStart (w.toText ++ r) := by
  obtain ⟨c, t, e, h1, h2⟩ := line_head w
  rw [e]
  exact ⟨headNot_cons.2 h1, by simpa using h2⟩

theorem lines_start {s : Str} {ws : List Line} (h : IsLines s ws) : LineStart s := by
  cases h with
  | last w f _ _ _ => exact line_start w _
  | cons w f s ws _ _ _ _ => exact line_start w _

theorem start_nil : LineStart [] := ⟨headNot_nil _, by simp⟩

theorem out_setting {w : Line} {f m r : Str} (hv : w.Valid) (hl : AtLineEnd (f ++ (m ++ r)))
    (h : Out skip K NL .nonAtomic f (m ++ r) []) :
    Out skip K setting .nonAtomic (w.toText ++ f) (m ++ r) [lineTree w] := by
  rw [setting_eq]
  exact out_seq0 (t1 := [_]) (t2 := []) (k_nil (lineEnd_semi hl)) (out_line hv hl) (Or.inl h)

/-- Lines are parsed one by one. -/
theorem lines_parts {s : Str} {ws : List Line} (h : IsLines s ws) :
    ∃ s1 t1, ∃ parts : List ((Str × Str) × List (Tree Rule)), ∃ fin, s = s1 ++ (partsText parts ++ fin) ∧
      Out skip K setting .nonAtomic s1 (partsText parts ++ fin) t1 ∧ Parts skip K setting parts fin ∧
      K fin [] ∧ t1 ++ parts.flatMap (·.2) = ws.map lineTree := by
  induction h with
  | last w f hv hf hs =>
    rcases hs with rfl | hs
    · refine ⟨w.toText, [lineTree w], [], [], by simp [partsText], ?_, trivial, k_nil (by simp), rfl⟩
      rw [setting_eq]
      have h0 : AtLineEnd [] := headNot_nil _
      have := out_seq0 (K := K) (t1 := [lineTree w]) (t2 := []) (s2 := []) (r := []) (y := .opt NL) (k_nil (by simp)) (out_line hv h0)
        (Or.inr ⟨rfl, rfl, fails_plus (fails_newline.2 (headNot_nil _))⟩)
      simpa [partsText] using this
    · obtain ⟨s, m, rfl, h1, h2, h3⟩ := filler_out hf hs start_nil
      refine ⟨w.toText ++ s, [lineTree w], [], m, by simp [partsText], ?_, trivial, h3, rfl⟩
      simpa [partsText] using out_setting hv h1 h2
  | cons w f s ws hv hf hs hl ih =>
    obtain ⟨s1, t1, parts, fin, rfl, h1, h2, h3, h4⟩ := ih
    obtain ⟨s', m, rfl, h5, h6, h7⟩ := filler_out hf hs (lines_start hl)
    refine ⟨w.toText ++ s', [lineTree w], ((m, s1), t1) :: parts, fin, by simp [partsText], ?_, ⟨⟨?_, h1⟩, h2⟩, h3, ?_⟩
    · simpa [partsText] using out_setting hv h5 h6
    · simpa [partsText] using h7
    · simp [h4]

/-- A file is parsed to the tokens of its lines. -/
theorem file_out {content : Str} {ws : List Line} (h : IsFile content ws) :
    Out skip K asr .nonAtomic content [] [.node .asr content (ws.map lineTree ++ [.node .EOI [] []])] := by
  obtain ⟨f, s, rfl, hf, hl⟩ := h
  obtain ⟨s1, t1, parts, fin, rfl, h1, h2, h3, h4⟩ := lines_parts hl
  have hst := lines_start hl
  obtain ⟨t, m, e, h5, h6⟩ := out_plus_build (x := setting) (r := []) skip_exact' (uniform_eval skip_uniform _ rfl _) k_knil
    (by simpa using h1) (by simpa using h2) (by simpa using h3) (⟨0, [], rfl⟩ : Fails skip setting .nonAtomic [])
  rw [h4] at h5
  have hend : Out skip K (.plus setting ⬝ .eoi .EOI) .nonAtomic (t ++ m) [] (ws.map lineTree ++ [.node .EOI [] []]) :=
    ⟨t, m, [], _, [.node .EOI [] []], by simp, by simpa using h6, by simpa using h5, ⟨rfl, rfl, rfl⟩, rfl⟩
  rw [e] at hst ⊢
  refine ⟨_, ?_, rfl⟩
  by_cases hs : StartsLine f
  · obtain ⟨s', m', rfl, h7, h8, h9⟩ := filler_out hf hs hst
    refine ⟨[], [], s' ++ m' ++ (t ++ m), [], _, by simp, ?_, ⟨rfl, rfl⟩,
      ⟨s', m', t ++ m, [], _, rfl, by simpa using h9, Or.inl (by simpa using h8), hend, rfl⟩, rfl⟩
    refine k_nil ?_
    simpa using lineEnd_semi h7
  · have hn : HeadNot isNewlineChar f := by
      intro c hc
      cases f with
      | nil => cases hc
      | cons d f =>
        cases hc
        cases hcc : isNewlineChar c with
        | false => rfl
        | true => exact absurd ⟨c, f, rfl, isNl_iff.1 hcc⟩ hs
    refine ⟨[], f, t ++ m, [], _, by simp, ?_, ⟨rfl, rfl⟩,
      ⟨[], [], t ++ m, [], _, by simp, ?_, Or.inr ⟨rfl, rfl, fails_plus (fails_newline.2 ?_)⟩, hend, rfl⟩, rfl⟩
    · simpa using filler_k _ f (t ++ m) (Nat.le_refl _) hf hn hst
    · simpa using k_nil hst.2
    · simpa using hst.1

theorem file_run {content : Str} {ws : List Line} (h : IsFile content ws) :
    run skip asr content = .ok [.node .asr content (ws.map lineTree ++ [.node .EOI [] []])] := by
  have := run_of_out skip_uniform skip_exact' rfl rfl (file_out h)
  exact this

end Verif.Parse.Asr
