import Verif.Proofs.Airway
/-!
# Lemmas about `parse_airway_txt`: whole files
-/

namespace Verif.Parse.Airway
set_option linter.unusedSectionVars false
open Verif.Peg Verif.Peg.Airway Verif.Spec.Airway
open Verif.Spec.Isec (IsComment IsLineEnd IsCoord IsDesignator)
open Verif.AirwayGraph
open Verif.Parse.Isec (isCoord_isDecimal atLineEnd_nil atLineEnd_of)

theorem lineOK_solid {w : Line} {n1 n2 : Str} (h : LineOK w n1 n2) : Solid (lineText w n1 n2) :=
  solid_append (isDesignator_solid h.1)

theorem isLine_iff {w : Line} {t : Str} : IsLine w t ↔ ∃ n1 n2 cm, LineOK w n1 n2 ∧ (cm = [] ∨ IsComment cm) ∧
    t = lineText w n1 n2 ++ cm := by
  constructor
  · rintro ⟨n1, n2, cm, h1, h2, h3, h4, h5, h6, h7, h8, rfl⟩
    exact ⟨n1, n2, cm, ⟨h1, h2, h3, h4, h5, h6, h7⟩, h8, by simp [lineText]⟩
  · rintro ⟨n1, n2, cm, ⟨h1, h2, h3, h4, h5, h6, h7⟩, h8, rfl⟩
    exact ⟨n1, n2, cm, h1, h2, h3, h4, h5, h6, h7, h8, by simp [lineText]⟩

theorem solid_not_lineEnd {r : Str} (h : Solid r) : ¬ AtLineEnd r := by
  obtain ⟨c, t, rfl, h1, _⟩ := h
  intro h2
  have := headNot_cons.1 h2
  rw [h1] at this
  cases this

/-- Blank text in front of a file. -/
theorem isFile_prefix {m r : Str} {ws : List Line} (hm : K m r) (h : IsFile r ws) : IsFile (m ++ r) ws := by
  rcases (K_iff _ _).1 hm with ⟨rfl, _⟩ | ⟨h1, h2⟩
  · exact h
  · have empty : ∀ b t, (b = [] ∨ IsComment b) → AtLineEnd (b ++ t) → b = [] := by
      rintro b t (rfl | h) h6
      · rfl
      · obtain ⟨w, hw, body, rfl, _⟩ := Isec.isComment_iff.1 h
        exact absurd ⟨w, hw, by simp⟩ (lineEnd_noMark h6)
    cases h with
    | last b hbb =>
      have := empty _ [] hbb (by simpa using h2)
      subst this
      simpa using IsFile.last _ (Or.inr h1)
    | blank b nl rest ws hbb hn hf =>
      have := empty b (nl ++ rest) hbb (by simpa using h2)
      subst this
      simpa using IsFile.blank _ nl rest ws (Or.inr h1) hn hf
    | line w t nl rest ws hl hn hf =>
      exfalso
      obtain ⟨n1, n2, cm, h3, _, rfl⟩ := isLine_iff.1 hl
      refine solid_not_lineEnd ?_ h2
      simpa using solid_append (r := cm ++ (nl ++ rest)) (lineOK_solid h3)

/-! ## From the parse tree -/

theorem sound_NL {s r : Str} {ts : List (Tree Rule)} {ws : List Line}
    (h : Out skip K NL .nonAtomic s r ts) (hr : IsFile r ws) :
    ts = [] ∧ ∃ nl t, s ++ r = nl ++ t ∧ IsLineEnd nl t ∧ IsFile t ws := by
  obtain ⟨s1, t1, m, s2, t2, rfl, rfl, h1, hg, h2, h3⟩ :=
    out_plus_ind h (fun s ts => ts = [] ∧ IsFile (s ++ r) ws) ⟨rfl, hr⟩ (by
      rintro m s ts s' ts' hg ho ⟨rfl, h2⟩
      obtain ⟨hn, rfl⟩ := out_newline_iff.1 ho
      refine ⟨rfl, ?_⟩
      have := IsFile.blank m s (s' ++ r) ws (by
        rcases hg with rfl | hg
        · exact Or.inl rfl
        · exact blank_of hg) hn h2
      simpa using this)
  obtain ⟨hn, rfl⟩ := out_newline_iff.1 h1
  refine ⟨by rw [h2]; rfl, s1, m ++ (s2 ++ r), by simp, hn, isFile_prefix hg h3⟩

/-- The tree of an airway line. -/
def IsLineTree (w : Line) (t : Tree Rule) : Prop := ∃ s n1 n2, t = lineTree w s n1 n2 ∧ LineOK w n1 n2

theorem sound_airway {s r : Str} {ts : List (Tree Rule)} {ws : List Line}
    (h : Out skip K airway .nonAtomic s r ts) (hr : IsFile r ws) :
    ∃ w t, ts = [t] ∧ IsLineTree w t ∧ IsFile (s ++ r) (w :: ws) := by
  obtain ⟨w, n1, n2, m, s2, t2, rfl, hw, hk, hnl, rfl⟩ := out_airway_iff.1 h
  obtain ⟨rfl, nl, tail, e, hn, ht⟩ := sound_NL hnl hr
  refine ⟨w, _, rfl, ⟨_, n1, n2, rfl, hw⟩, ?_⟩
  have := IsFile.line w (lineText w n1 n2 ++ m) nl tail ws (isLine_iff.2 ⟨n1, n2, m, hw, blank_of hk, rfl⟩) hn ht
  rw [List.append_assoc _ nl, ← e] at this
  simpa using this

/-- A list of trees is the trees of the lines `ws`. -/
def AreTrees : List Line → List (Tree Rule) → Prop
  | [], ts => ts = []
  | w :: ws, ts => ∃ t ts', ts = t :: ts' ∧ IsLineTree w t ∧ AreTrees ws ts'

theorem sound_airways {content : Str} {ts : List (Tree Rule)}
    (h : Out skip K airways .nonAtomic content [] ts) :
    ∃ ws trees, ws ≠ [] ∧ ts = [.node .airways content (trees ++ [.node .EOI [] []])] ∧
      AreTrees ws trees ∧ IsFile content ws := by
  obtain ⟨kids, ⟨_, m1, u1, t1, t2, hs, hg1, ⟨rfl, rfl⟩, ⟨nl, m2, u2, t3, t4, rfl, hg2, h2,
    ⟨wt, m3, u3, t5, t6, rfl, hg3, h3, ⟨rfl, _, rfl⟩, rfl⟩, rfl⟩, rfl⟩, rfl⟩ := h
  have hw : ∃ ws, ws ≠ [] ∧ AreTrees ws t5 ∧ IsFile (wt ++ (m3 ++ [])) ws := by
    obtain ⟨s1, t1, m4, s2, t2, rfl, rfl, h5, hg4, ws, h8, h9⟩ :=
      out_plus_ind h3 (fun s ts => ∃ ws, AreTrees ws ts ∧ IsFile (s ++ (m3 ++ [])) ws)
        ⟨[], rfl, by simpa using IsFile.last _ (blank_of hg3)⟩ (by
        rintro m s ts s' ts' hg ho ⟨ws, h8, h9⟩
        obtain ⟨x, y, rfl, hx, hf3⟩ := sound_airway ho h9
        refine ⟨x :: ws, ⟨y, _, rfl, hx, h8⟩, ?_⟩
        rcases hg with rfl | hg
        · simpa using hf3
        · simpa using isFile_prefix hg hf3)
    obtain ⟨w, t, rfl, hw1, hf1⟩ := sound_airway h5 (isFile_prefix hg4 h9)
    exact ⟨w :: ws, by simp, ⟨t, _, rfl, hw1, h8⟩, by simpa using hf1⟩
  obtain ⟨ws, hne, hw1, hw2⟩ := hw
  have hf : t3 = [] ∧ IsFile (nl ++ (m2 ++ (wt ++ (m3 ++ [])))) ws := by
    have hp := isFile_prefix hg2 (by simpa using hw2)
    rcases h2 with h2 | ⟨rfl, rfl, _⟩
    · obtain ⟨rfl, n, t, e, h4, h5⟩ := sound_NL h2 hp
      refine ⟨rfl, ?_⟩
      have := IsFile.blank [] n t ws (Or.inl rfl) h4 h5
      rw [List.nil_append, ← e] at this
      simpa using this
    · exact ⟨rfl, by simpa using hp⟩
  obtain ⟨rfl, hf⟩ := hf
  refine ⟨ws, t5, hne, by simp [emits, inside], hw1, ?_⟩
  rw [hs]
  simpa using isFile_prefix hg1 (by simpa using hf)

/-! ## To the parse tree -/

/-- Lines without data, each with its line end, in front of `r`. -/
def Blanks : List (Str × Str) → Str → Prop :=
  Reps (fun p => p.1 ++ p.2) (fun p r => (p.1 = [] ∨ IsComment p.1) ∧ IsLineEnd p.2 r)

/-- A file is some lines without data, then blank text, then the end or an airway line. -/
theorem isFile_norm {content : Str} {ws : List Line} (h : IsFile content ws) :
    ∃ (bs : List (Str × Str)) (b r : Str), content = bs.flatMap (fun p => p.1 ++ p.2) ++ (b ++ r) ∧
      Blanks bs (b ++ r) ∧ K b r ∧ ((ws = [] ∧ r = []) ∨ ∃ w ws' n1 n2 cm nl rest, ws = w :: ws' ∧
        r = lineText w n1 n2 ++ cm ++ nl ++ rest ∧ LineOK w n1 n2 ∧ (cm = [] ∨ IsComment cm) ∧
        IsLineEnd nl rest ∧ IsFile rest ws') := by
  induction h with
  | last b hb => exact ⟨[], b, [], by simp, trivial, K_lineEnd hb atLineEnd_nil, Or.inl ⟨rfl, rfl⟩⟩
  | blank b nl rest ws hb hn hf ih =>
    obtain ⟨bs, b', r, rfl, h1, h2, h3⟩ := ih
    exact ⟨(b, nl) :: bs, b', r, by simp, ⟨⟨hb, hn⟩, h1⟩, h2, h3⟩
  | line w t nl rest ws hl hn hf ih =>
    obtain ⟨n1, n2, cm, h1, h2, rfl⟩ := isLine_iff.1 hl
    refine ⟨[], [], _, by simp, trivial, ?_, Or.inr ⟨w, ws, n1, n2, cm, nl, rest, rfl, rfl, h1, h2, hn, hf⟩⟩
    refine (tight _ _ ?_).2 rfl
    simpa using solid_append (r := cm ++ (nl ++ rest)) (lineOK_solid h1)

theorem solid_headNot {r : Str} (h : Solid r) : HeadNot isNewlineChar r := by
  obtain ⟨c, t, rfl, h1, _⟩ := h
  exact headNot_cons.2 h1

theorem skip_newline_fails {m r : Str} (hk : K m r) (hr : HeadNot isNewlineChar r) :
    ∃ pos stk, ((skipIf skip .nonAtomic ⟨pos, m ++ r, stk⟩).bind fun s1 _ =>
      eval skip .newline .nonAtomic s1) = .fail := by
  refine ⟨0, [], ?_⟩
  rw [skipIf_exact (a := .nonAtomic) skip_exact' hk rfl, Res.ok_bind]
  exact (uniform_eval skip_uniform .newline rfl _).fail_of (fails_newline.2 hr) _ rfl

theorem K_nil {m r : Str} (hk : K m r) : K [] r := by
  rcases (K_iff _ _).1 hk with ⟨rfl, _⟩ | ⟨_, h⟩
  · exact hk
  · exact K_lineEnd (Or.inl rfl) h

theorem complete_NL {nl b r : Str} {bs : List (Str × Str)} (hb : Blanks bs (b ++ r)) (hk : K b r)
    (hr : HeadNot isNewlineChar r) (hn : IsLineEnd nl (bs.flatMap (fun p => p.1 ++ p.2) ++ (b ++ r))) :
    ∃ s m, nl ++ (bs.flatMap (fun p => p.1 ++ p.2) ++ (b ++ r)) = s ++ (m ++ r) ∧
      Out skip K NL .nonAtomic s (m ++ r) [] ∧ K m r := by
  cases bs with
  | nil =>
    refine ⟨nl ++ b, [], by simp, ⟨nl, b, [], [], [], by simp, by simpa using hk,
      out_newline_iff.2 ⟨by simpa [IsLineEnd, LineEnd] using hn, rfl⟩, Or.inl ⟨rfl, rfl, ?_⟩, rfl⟩, K_nil hk⟩
    exact fails_newline.2 (by simpa using hr)
  | cons p bs =>
    obtain ⟨⟨h1, h2⟩, h3⟩ := hb
    refine ⟨nl ++ (p :: bs).flatMap (fun p => p.1 ++ p.2), b, by simp, ⟨nl, p.1,
      p.2 ++ bs.flatMap (fun p => p.1 ++ p.2), [], [], by simp, ?_, ?_, ?_, rfl⟩, hk⟩
    · refine K_lineEnd h1 ?_
      have := atLineEnd_of (t := bs.flatMap (fun p => p.1 ++ p.2) ++ (b ++ r)) h2
      simpa using this
    · exact out_newline_iff.2 ⟨by simpa [IsLineEnd, LineEnd] using hn, rfl⟩
    · refine Or.inr ⟨p.2, [], bs.map fun q => ((q.1, q.2), []), ?_, ?_, ?_, ?_, skip_newline_fails hk hr⟩
      · simp [List.flatMap_map]
      · simp [List.flatMap_map]
      · refine out_newline_iff.2 ⟨?_, rfl⟩
        simpa [List.flatMap_map, IsLineEnd, LineEnd] using h2
      · refine reps_map (txt' := fun p : Str × Str => p.1 ++ p.2)
          (P := fun p r => (p.1 = [] ∨ IsComment p.1) ∧ IsLineEnd p.2 r) _ (fun _ => rfl) ?_ h3
        rintro q r' ⟨h4, h5⟩
        exact ⟨K_lineEnd h4 (atLineEnd_of h5), out_newline_iff.2 ⟨h5, rfl⟩⟩

/-- What follows a line end: the rest of the line end rule, then airway lines, then blank text. -/
theorem complete_tail (ws : List Line) : ∀ (nl content : Str), IsLineEnd nl content → IsFile content ws →
    ∃ (s : Str) (parts : List ((Str × Str) × List (Tree Rule))) (fin : Str),
      nl ++ content = s ++ (parts.flatMap (fun p => p.1.1 ++ p.1.2) ++ fin) ∧
      Out skip K NL .nonAtomic s (parts.flatMap (fun p => p.1.1 ++ p.1.2) ++ fin) [] ∧
      Reps (fun p => p.1.1 ++ p.1.2) (fun p r => Gap K .nonAtomic p.1.1 (p.1.2 ++ r) ∧
        Out skip K airway .nonAtomic p.1.2 r p.2) parts fin ∧ K fin [] ∧
      AreTrees ws (parts.flatMap (·.2)) := by
  induction ws with
  | nil =>
    intro nl content hn hf
    obtain ⟨bs, b, r, rfl, h1, h2, ⟨_, rfl⟩ | ⟨w, ws', _, _, _, _, _, h, _⟩⟩ := isFile_norm hf
    · obtain ⟨s, m, e, ho, hk⟩ := complete_NL h1 h2 (headNot_nil _) hn
      exact ⟨s, [], m, by simpa using e, by simpa using ho, trivial, hk, rfl⟩
    · cases h
  | cons w ws ih =>
    intro nl content hn hf
    obtain ⟨bs, b, r, rfl, h1, h2, ⟨h, _⟩ | ⟨w', ws', n1, n2, cm, nl', rest, h, rfl, hw, hcm, hn', hf'⟩⟩ :=
      isFile_norm hf
    · cases h
    · cases h
      obtain ⟨s', parts, fin, e', ho', hp, hfin, htr⟩ := ih nl' rest hn' hf'
      have hdn : HeadNot isNewlineChar (lineText w n1 n2 ++ cm ++ nl' ++ rest) := by
        rw [List.append_assoc, List.append_assoc]
        exact solid_headNot (solid_append (lineOK_solid hw))
      obtain ⟨s, m, e, ho, hk⟩ := complete_NL h1 h2 hdn hn
      have hl := out_airway_iff.2 ⟨w, n1, n2, cm, s', [], rfl, hw,
        K_lineEnd hcm (by rw [← e']; exact atLineEnd_of hn'), ho', rfl⟩
      have er : lineText w n1 n2 ++ cm ++ nl' ++ rest = lineText w n1 n2 ++ cm ++ s' ++
            (parts.flatMap (fun p => p.1.1 ++ p.1.2) ++ fin) := by
        rw [List.append_assoc _ nl', e']; simp
      rw [er] at e ho hk
      refine ⟨s, ((m, _), _) :: parts, fin, ?_, ?_, ⟨⟨?_, hl⟩, hp⟩, hfin, ?_⟩
      · rw [er, e]; simp
      · simpa using ho
      · exact hk
      · exact ⟨_, _, rfl, ⟨_, n1, n2, rfl, hw⟩, htr⟩

theorem complete_plus {s1 fin : Str} {t1 : List (Tree Rule)} {parts : List ((Str × Str) × List (Tree Rule))}
    (h1 : Out skip K airway .nonAtomic s1 (parts.flatMap (fun p => p.1.1 ++ p.1.2) ++ fin) t1)
    (hp : Reps (fun p => p.1.1 ++ p.1.2) (fun p r => Gap K .nonAtomic p.1.1 (p.1.2 ++ r) ∧
        Out skip K airway .nonAtomic p.1.2 r p.2) parts fin) (hf : K fin []) :
    ∃ s m, s1 ++ (parts.flatMap (fun p => p.1.1 ++ p.1.2) ++ fin) = s ++ m ∧
      Out skip K (.plus airway) .nonAtomic s m (t1 ++ parts.flatMap (·.2)) ∧ K m [] := by
  have hfail : Fails skip airway .nonAtomic [] := ⟨0, [], rfl⟩
  cases parts with
  | nil =>
    exact ⟨s1 ++ fin, [], by simp, ⟨s1, fin, [], t1, [], by simp, by simpa using hf,
      by simpa using h1, Or.inl ⟨rfl, rfl, hfail⟩, rfl⟩, K_nil hf⟩
  | cons p ps =>
    obtain ⟨⟨h2, h3⟩, h4⟩ := hp
    refine ⟨s1 ++ p.1.1 ++ (p.1.2 ++ ps.flatMap (fun p => p.1.1 ++ p.1.2)), fin,
      by simp, ⟨s1, p.1.1, _, t1, _, rfl, ?_, ?_,
        Or.inr ⟨p.1.2, p.2, ps, rfl, rfl, h3, h4, 0, [], ?_⟩, by simp⟩, hf⟩
    · simpa using h2
    · simpa using h1
    · rw [skipIf_exact (a := .nonAtomic) (m := fin) (r := []) skip_exact' hf (by simp), Res.ok_bind]
      exact (uniform_eval skip_uniform airway rfl _).fail_of hfail _ rfl

theorem complete_airways {content : Str} {ws : List Line} (h : IsFile content ws) (hne : ws ≠ []) :
    ∃ trees, Out skip K airways .nonAtomic content [] [.node .airways content (trees ++ [.node .EOI [] []])] ∧
      AreTrees ws trees := by
  obtain ⟨bs, b, r, rfl, h1, h2, ⟨h, _⟩ | ⟨w, ws, n1, n2, cm, nl, rest, rfl, rfl, hw, hcm, hn, hf⟩⟩ := isFile_norm h
  · exact absurd h hne
  · obtain ⟨s', parts, fin, e', ho', hp, hfin, htr⟩ := complete_tail ws nl rest hn hf
    have hl := out_airway_iff.2 ⟨w, n1, n2, cm, s', [], rfl, hw,
        K_lineEnd hcm (by rw [← e']; exact atLineEnd_of hn), ho', rfl⟩
    have er : lineText w n1 n2 ++ cm ++ nl ++ rest = lineText w n1 n2 ++ cm ++ s' ++
          (parts.flatMap (fun p => p.1.1 ++ p.1.2) ++ fin) := by
      rw [List.append_assoc _ nl, e']; simp
    have hdn : HeadNot isNewlineChar (lineText w n1 n2 ++ cm ++ nl ++ rest) := by
      rw [List.append_assoc, List.append_assoc]
      exact solid_headNot (solid_append (lineOK_solid hw))
    obtain ⟨wt, m3, e4, h4, h5⟩ := complete_plus hl hp hfin
    obtain ⟨ts, hts, h4⟩ : ∃ ts, AreTrees (w :: ws) ts ∧ Out skip K (.plus airway) .nonAtomic wt m3 ts :=
      ⟨_, ⟨_, _, rfl, ⟨_, n1, n2, rfl, hw⟩, htr⟩, h4⟩
    refine ⟨ts, ?_, hts⟩
    rw [er, e4] at hdn h1 h2 ⊢
    have hend : Out skip K (.plus airway ⬝ .eoi .EOI) .nonAtomic (wt ++ m3) [] (ts ++ [.node .EOI [] []]) :=
      ⟨wt, m3, [], ts, [.node .EOI [] []], by simp, h5, by simpa using h4, ⟨rfl, rfl, rfl⟩, rfl⟩
    cases bs with
    | nil =>
      refine ⟨_, ⟨[], b, wt ++ m3, [], ts ++ [.node .EOI [] []], by simp, by simpa using h2, ⟨rfl, rfl⟩,
        ⟨[], [], wt ++ m3, [], _, by simp, ?_, Or.inr ⟨rfl, rfl, ?_⟩, hend, rfl⟩, rfl⟩, rfl⟩
      · simpa using K_nil h2
      · exact fails_plus (fails_newline.2 (by simpa using hdn))
    | cons p bs =>
      obtain ⟨⟨h6, h7⟩, h8⟩ := h1
      obtain ⟨s, m, e5, h9, h10⟩ := complete_NL h8 h2 hdn h7
      refine ⟨_, ⟨[], p.1, s ++ m ++ (wt ++ m3), [], ts ++ [.node .EOI [] []], ?_, ?_, ⟨rfl, rfl⟩,
        ⟨s, m, wt ++ m3, [], _, rfl, by simpa using h10, Or.inl (by simpa using h9), hend, rfl⟩, rfl⟩, rfl⟩
      · rw [List.flatMap_cons, List.append_assoc, List.append_assoc, e5]; simp
      · refine K_lineEnd h6 ?_
        have := atLineEnd_of (t := bs.flatMap (fun p => p.1 ++ p.2) ++ (b ++ (wt ++ m3))) h7
        rw [e5] at this
        simpa using this

/-! ## From the tree to the graph -/

variable {F : Type} [F64 F]

/-- `num` reads every coordinate as the code does. -/
def Reads (num : Str → F) : Prop := ∀ s, IsCoord s → F64.ofText s = some (num s)

/-- The point for a latitude and a longitude. -/
def point (num : Str → F) (lat lng : Str) : Point F := { x := num lng, y := num lat }

theorem parseCoord_tree {num : Str → F} (hn : Reads num) {lat lng : Str} (h1 : IsCoord lat) (h2 : IsCoord lng) :
    parseCoord (coordTree lat lng) = .ok (point num lat lng) := by
  simp [parseCoord, coordTree, hn _ h1, hn _ h2, point]

theorem parseLevel_tree {n : Nb} (h : IsDigits n.level ∨ n.level = c!"NESTB" ∨ n.level = []) :
    parseLevel (levelTree n.level) =
      if ∀ l, levelOf n = some l → l < 4294967296 then .ok (levelOf n) else .error .panic := by
  have h0 : ¬ IsDigits ([] : Str) := fun h => h.1 rfl
  have h1 : ¬ IsDigits c!"NESTB" := fun h => absurd (h.2 'N' (by simp)) (by decide)
  rcases h with h | h | h
  · have e1 : ¬ (n.level = [] ∨ n.level = c!"NESTB") := by
      rintro (e | e)
      · rw [e] at h; exact h0 h
      · rw [e] at h; exact h1 h
    have e2 : levelOf n = some (digitsValue n.level) := by rw [levelOf, if_neg e1]
    rw [e2, levelTree, if_pos h]
    simp only [parseLevel, Tree.asRule_node, Tree.asStr_node, parseUnsigned_digits h]
    by_cases hl : digitsValue n.level < 2 ^ 32
    · rw [if_pos hl, if_pos (by rintro l hl'; cases hl'; exact hl)]
      rfl
    · rw [if_neg hl, if_neg (fun hh => hl (hh _ rfl))]
      rfl
  · have e2 : levelOf n = none := by rw [levelOf, if_pos (Or.inr h)]
    rw [e2, h, levelTree, if_neg h1]
    simp [parseLevel]
  · have e2 : levelOf n = none := by rw [levelOf, if_pos (Or.inl h)]
    rw [e2, h, levelTree, if_neg h0]
    simp [parseLevel]

/-- The level of a neighbour, if there is one, is a `u32`. -/
def NbFits : Option Nb → Prop
  | none => True
  | some n => ∀ l, levelOf n = some l → l < 4294967296

/-- The entry of a neighbour. -/
def nbFix (num : Str → F) (n : Nb) : AirwayFix (Point F) :=
  { fix := { designator := n.designator, coordinate := point num n.lat n.lng }
    validDirection := n.valid = ['Y'], minimumLevel := levelOf n }

open Classical in
theorem parseAirwayFix_tree {num : Str → F} (hn : Reads num) {n : Option Nb} {s : Str} (h : IsNb n s) :
    parseAirwayFix (nbTree n s) =
      if NbFits n then .ok (n.map (nbFix num)) else .error .panic := by
  cases n with
  | none => simp [nbTree, parseAirwayFix, NbFits]
  | some n =>
    obtain ⟨_, c1, c2, l1, _, _⟩ := h
    by_cases hl : NbFits (some n)
    · have hlv : parseLevel (levelTree n.level) = .ok (levelOf n) := by rw [parseLevel_tree l1]; exact if_pos hl
      rw [if_pos hl]
      simp [nbTree, parseAirwayFix, parseCoord_tree hn c1 c2, hlv, validTree, nbFix]
      rfl
    · have hlv : parseLevel (levelTree n.level) = .error .panic := by rw [parseLevel_tree l1]; exact if_neg hl
      rw [if_neg hl]
      simp [nbTree, parseAirwayFix, parseCoord_tree hn c1 c2, hlv]

theorem parseType_tree {w : Line} (h : w.type = ['B'] ∨ w.type = ['H'] ∨ w.type = ['L'] ∨ w.type = []) :
    parseAirwayType (.node .airway_type w.type []) = .ok (typeOf w.type) := by
  rcases h with h | h | h | h <;> rw [h] <;> decide

variable [Quantize (Point F)]

/-- The segments of a line, the positions being read with `num`. -/
def segs (num : Str → F) (w : Line) : List (Segment (Point F)) := segments (point num) w

theorem build_append (pre post : List (Segment (Point F))) :
    build (pre ++ post) = (build pre).bind fun g => post.foldlM (fun g s => g.insertOrUpdateSegment s) g := by
  simp only [build, List.foldlM_append]
  rfl

open Classical in
theorem insertNeighbour_tree {num : Str → F} (hn : Reads num) {w : Line} {n : Option Nb} {s : Str} (h : IsNb n s)
    {pre : List (Segment (Point F))} {g : Graph (Point F)} (hg : build pre = .ok g) :
    insertNeighbour w.airway w.fix (point num w.lat w.lng) (typeOf w.type) g (nbTree n s) =
      if NbFits n then build (pre ++ (n.map (segment (point num) w)).toList) else .error .panic := by
  rw [insertNeighbour, parseAirwayFix_tree hn h]
  split
  · cases n with
    | none => simp [hg]
    | some n =>
      rw [build_append, hg]
      simp only [Option.map_some, run_ok_bind, Option.toList_some, List.foldlM_cons, List.foldlM_nil]
      show _ = (Graph.insertOrUpdateSegment g _) >>= pure
      rw [bind_pure]
      rfl
  · rfl

theorem levelsFit_iff {w : Line} : LevelsFit w ↔ NbFits w.nb1 ∧ NbFits w.nb2 := by
  constructor
  · intro h
    constructor
    · cases hn : w.nb1 with
      | none => trivial
      | some n => exact h n (Or.inl hn)
    · cases hn : w.nb2 with
      | none => trivial
      | some n => exact h n (Or.inr hn)
  · rintro ⟨h1, h2⟩ n (h | h)
    · rw [h] at h1; exact h1
    · rw [h] at h2; exact h2

theorem build_ok (l : List (Segment (Point F))) : ∃ g, build l = .ok g := (build_spec l).imp fun _ h => h.1

open Classical in
theorem step_tree {num : Str → F} (hn : Reads num) {w : Line} {t : Tree Rule} (h : IsLineTree w t)
    {pre : List (Segment (Point F))} {g : Graph (Point F)} (hg : build pre = .ok g) :
    step g t = if LevelsFit w then build (pre ++ segs num w) else .error .panic := by
  obtain ⟨s, n1, n2, rfl, d1, c1, c2, d2, ty, k1, k2⟩ := h
  simp only [step, lineTree, Tree.asRule_node, if_true, Tree.inner_node, next_cons, run_ok_bind,
    parseCoord_tree hn c1 c2, parseType_tree ty, Tree.asStr_node, insertNeighbour_tree hn k1 hg, levelsFit_iff]
  by_cases h1 : NbFits w.nb1
  · rw [if_pos h1]
    obtain ⟨g1, hg1⟩ := build_ok (pre ++ (w.nb1.map (segment (point num) w)).toList)
    rw [hg1, run_ok_bind, insertNeighbour_tree hn k2 hg1]
    simp [h1, segs, segments]
  · rw [if_neg h1, if_neg (fun h => h1 h.1)]
    rfl

open Classical in
theorem fold_trees {num : Str → F} (hn : Reads num) {ws : List Line} {ts : List (Tree Rule)} (h : AreTrees ws ts)
    (pre : List (Segment (Point F))) (g : Graph (Point F)) (hg : build pre = .ok g) :
    ts.foldlM step g = if ∀ w ∈ ws, LevelsFit w then build (pre ++ ws.flatMap (segs num)) else .error .panic := by
  induction ws generalizing ts pre g with
  | nil =>
    have : ts = [] := h
    subst this
    simp [hg]
  | cons w ws ih =>
    obtain ⟨t, ts', rfl, h1, h2⟩ := h
    rw [List.foldlM_cons, step_tree hn h1 hg]
    by_cases hw : LevelsFit w
    · rw [if_pos hw]
      obtain ⟨g1, hg1⟩ := build_ok (pre ++ segs num w)
      rw [hg1, run_ok_bind, ih h2 _ g1 hg1]
      simp [hw]
    · rw [if_neg hw, if_neg (fun h => hw (h w (by simp)))]
      rfl

open Classical in
theorem parse_trees {num : Str → F} (hn : Reads num) {content : Str} {ws : List Line} {trees : List (Tree Rule)}
    (h : run skip airways content = .ok [.node .airways content (trees ++ [.node .EOI [] []])])
    (h1 : AreTrees ws trees) :
    parseAirwayTxt (F := F) content =
      if ∀ w ∈ ws, LevelsFit w then build (ws.flatMap (segs num)) else .error .panic := by
  simp only [parseAirwayTxt, h, run_ok_bind, next_cons, Tree.inner_node]
  rw [List.foldlM_append, fold_trees hn h1 [] Graph.empty rfl]
  split
  · rw [List.nil_append]
    obtain ⟨g, hg⟩ := build_ok (ws.flatMap (segs num))
    rw [hg, run_ok_bind]
    simp [step]
  · rfl

theorem parse_sound (content : Str) :
    parseAirwayTxt (F := F) content = .error .parseError ∨ ∃ ws, ws ≠ [] ∧ IsFile content ws := by
  rcases run_whole skip_ok (e := airways) rfl rfl content with h | ⟨ts, h, ho⟩
  · exact Or.inl (by simp [parseAirwayTxt, h])
  · obtain ⟨ws, trees, hne, rfl, h1, h2⟩ := sound_airways ho
    exact Or.inr ⟨ws, hne, h2⟩

open Classical in
theorem parse_complete {num : Str → F} (hn : Reads num) {content : Str} {ws : List Line} (h : IsFile content ws)
    (hne : ws ≠ []) : parseAirwayTxt (F := F) content =
      if ∀ w ∈ ws, LevelsFit w then build (ws.flatMap (segs num)) else .error .panic := by
  obtain ⟨trees, ho, ht⟩ := complete_airways h hne
  exact parse_trees hn (run_of_out skip_uniform skip_exact' rfl rfl ho) ht

end Verif.Parse.Airway
