import Verif.Parse.Isec
import Verif.Peg.Blank
import Verif.Spec.Isec
/-!
# Lemmas about `parse_isec_txt`
-/

namespace Verif.Parse.Isec
open Verif.Peg Verif.Peg.Isec Verif.Spec.Isec
open Verif.AirwayGraph (Fix)

variable {F : Type}

/-- What the skip of this grammar consumes. -/
abbrev K : Str → Str → Prop := Blank [WHITESPACE, COMMENT]

theorem skip_ok : SkipOK K skip := skipBoth_ok rfl rfl

theorem like_ws : LikeCls noSkip NoGap WHITESPACE .atomic isSpTab :=
  (likeCls_spTab .atomic uniform_noSkip).quiet

theorem like_comment : LikeComment COMMENT commentMarks := likeComment_std

theorem skip_uniform : Uniform skip := uniform_skipBoth rfl rfl

theorem skip_exact' : SkipExact K skip :=
  skipBoth_exact rfl rfl rfl rfl (disjoint_of like_ws like_comment apart_spTab rfl)

theorem K_iff (m r : Str) : K m r ↔ BlankText isSpTab commentMarks m r :=
  blank_iff like_ws like_comment apart_spTab m r

/-! ## Specification side -/

theorem isSpaces_iff {s : Str} : IsSpaces s ↔ ∀ c ∈ s, isSpTab c = true := by simp [IsSpaces]

theorem isComment_iff {s : Str} : IsComment s ↔ CommentText commentMarks s := by
  simp only [IsComment, CommentText, commentMarks, List.mem_cons, List.not_mem_nil, or_false]
  constructor
  · rintro ⟨body, h | h, hb⟩
    · exact ⟨_, Or.inl rfl, body, h, fun c hc => by simp [isNewlineChar, hb c hc]⟩
    · exact ⟨_, Or.inr rfl, body, h, fun c hc => by simp [isNewlineChar, hb c hc]⟩
  · rintro ⟨w, rfl | rfl, body, h, hb⟩
    · exact ⟨body, Or.inl h, fun c hc => by simpa [isNewlineChar] using hb c hc⟩
    · exact ⟨body, Or.inr h, fun c hc => by simpa [isNewlineChar] using hb c hc⟩

theorem isBlank_of {m r : Str} (h : K m r) : IsBlank m := by
  obtain ⟨sp, cm, rfl, h1, h2⟩ := (K_iff m r).1 h
  refine ⟨sp, cm, rfl, isSpaces_iff.2 h1, ?_⟩
  rcases h2 with ⟨h, _⟩ | ⟨h, _⟩
  · exact Or.inl h
  · exact Or.inr (isComment_iff.2 h)

/-- In front of a character that starts neither a line end nor a comment the gap is blanks. -/
theorem spaces_of {m r : Str} {c : Char} (hc : isNewlineChar c = false) (h : K m (c :: r)) : IsSpaces m := by
  obtain ⟨sp, cm, rfl, h1, h2⟩ := (K_iff m _).1 h
  rcases h2 with ⟨rfl, _⟩ | ⟨_, h⟩
  · simpa [isSpaces_iff] using h1
  · have := headNot_cons.1 h
    simp [hc] at this

theorem K_spaces {m r : Str} {c : Char} (hm : IsSpaces m) (h1 : isSpTab c = false) (h2 : c ≠ ';')
    (h3 : c ≠ '/') : K m (c :: r) := by
  refine (K_iff m _).2 ⟨m, [], by simp, isSpaces_iff.1 hm, Or.inl ⟨rfl, headNot_cons.2 h1, ?_⟩⟩
  rintro ⟨w, hw, hp⟩
  simp only [commentMarks, List.mem_cons, List.not_mem_nil, or_false] at hw
  rcases hw with rfl | rfl
  · rw [List.cons_prefix_cons] at hp; exact h2 hp.1.symm
  · rw [List.cons_prefix_cons] at hp; exact h3 hp.1.symm

theorem K_lineEnd {m r : Str} (hm : IsBlank m) (hr : AtLineEnd r) : K m r := by
  obtain ⟨sp, cm, rfl, h1, h2⟩ := hm
  refine (K_iff _ _).2 ⟨sp, cm, rfl, isSpaces_iff.1 h1, ?_⟩
  rcases h2 with rfl | h2
  · exact Or.inl ⟨rfl, atLineEnd_not apart_spTab hr⟩
  · exact Or.inr ⟨isComment_iff.1 h2, hr⟩

theorem atLineEnd_nil : AtLineEnd [] := headNot_nil _

theorem atLineEnd_of {nl r t : Str} (h : LineEnd nl r) : AtLineEnd (nl ++ t) := by
  rcases h with rfl | rfl | ⟨rfl, _⟩ <;> exact headNot_cons.2 (by decide)

/-- Blank text in front of a file. -/
theorem isFile_prefix {m r : Str} {ws : List Wpt} (hm : K m r) (h : IsFile r ws) : IsFile (m ++ r) ws := by
  have hsp : IsSpaces m → IsFile (m ++ r) ws := by
    intro hs
    cases h with
    | last b hb =>
      obtain ⟨sp, cm, rfl, h1, h2⟩ := hb
      refine .last _ ⟨m ++ sp, cm, by simp, ?_, h2⟩
      intro c hc
      rcases List.mem_append.1 hc with hc | hc
      · exact hs c hc
      · exact h1 c hc
    | blank b nl rest ws hb hn hf =>
      obtain ⟨sp, cm, rfl, h1, h2⟩ := hb
      have := IsFile.blank (m ++ (sp ++ cm)) nl rest ws ⟨m ++ sp, cm, by simp, by
        intro c hc
        rcases List.mem_append.1 hc with hc | hc
        · exact hs c hc
        · exact h1 c hc, h2⟩ hn hf
      simpa using this
    | line w t nl rest ws hl hn hf =>
      obtain ⟨b0, b1, b2, b3, b4, rfl, d1, d2, d3, s0, d4⟩ := hl
      have := IsFile.line w (m ++ b0 ++ w.designator ++ b1 ++ w.lat ++ b2 ++ w.lng ++ b3 ++ c!"15" ++ b4)
        nl rest ws ⟨m ++ b0, b1, b2, b3, b4, by simp, d1, d2, d3, by
          intro c hc
          rcases List.mem_append.1 hc with hc | hc
          · exact hs c hc
          · exact s0 c hc, d4⟩ hn hf
      simpa using this
  obtain ⟨sp, cm, rfl, h1, h2⟩ := (K_iff _ _).1 hm
  rcases h2 with ⟨rfl, _⟩ | ⟨h2, h3⟩
  · exact hsp (by simpa [isSpaces_iff] using h1)
  · have hb : IsBlank (sp ++ cm) := isBlank_of hm
    have empty : ∀ b t, IsBlank b → AtLineEnd (b ++ t) → b = [] := by
      rintro b t ⟨sp, cm, rfl, h4, h5⟩ h6
      have h7 := atLineEnd_not apart_spTab h6
      cases sp with
      | cons c sp =>
        have := headNot_cons.1 (show HeadNot isSpTab (c :: (sp ++ cm ++ t)) by simpa using h7.1)
        rw [isSpaces_iff.1 h4 c List.mem_cons_self] at this
        cases this
      | nil =>
        rcases h5 with rfl | h5
        · rfl
        · obtain ⟨w, hw, body, rfl, _⟩ := isComment_iff.1 h5
          exact absurd ⟨w, hw, by simp⟩ h7.2
    cases h with
    | last b hbb =>
      have := empty _ [] hbb (by simpa using h3)
      subst this
      simpa using IsFile.last _ hb
    | blank b nl rest ws hbb hn hf =>
      have := empty b (nl ++ rest) hbb (by simpa using h3)
      subst this
      simpa using IsFile.blank _ nl rest ws hb hn hf
    | line w t nl rest ws hl hn hf =>
      exfalso
      obtain ⟨b0, b1, b2, b3, b4, rfl, ⟨d0, d1⟩, d2, d3, s0, d4⟩ := hl
      have hb0 := empty b0 _ ⟨b0, [], by simp, s0, Or.inl rfl⟩
        (show AtLineEnd (b0 ++ (w.designator ++ b1 ++ w.lat ++ b2 ++ w.lng ++ b3 ++ c!"15" ++ b4 ++ nl ++ rest))
          by simpa using h3)
      subst hb0
      cases hd : w.designator with
      | nil => exact d0 hd
      | cons c d =>
        rw [hd] at h3
        have h5 := headNot_cons.1 (show HeadNot _ (c :: _) by simpa [AtLineEnd] using h3)
        have h6 := d1 c (by rw [hd]; exact List.mem_cons_self)
        simp only [Bool.not_eq_false'] at h5
        simp only [isNewlineChar, Bool.or_eq_true, decide_eq_true_eq] at h5
        rcases h5 with rfl | rfl <;> revert h6 <;> decide

/-! ## From the parse tree -/

theorem sound_NL {s r : Str} {ts : List (Tree Rule)} {ws : List Wpt}
    (h : Out skip K NL .nonAtomic s r ts) (hr : IsFile r ws) :
    ts = [] ∧ ∃ nl t, s ++ r = nl ++ t ∧ IsLineEnd nl t ∧ IsFile t ws := by
  obtain ⟨s1, t1, m, s2, t2, rfl, rfl, h1, hg, h2, h3⟩ :=
    out_plus_ind h (fun s ts => ts = [] ∧ IsFile (s ++ r) ws) ⟨rfl, hr⟩ (by
      rintro m s ts s' ts' hg ho ⟨rfl, h2⟩
      obtain ⟨hn, rfl⟩ := out_newline_iff.1 ho
      refine ⟨rfl, ?_⟩
      have := IsFile.blank m s (s' ++ r) ws (by
        rcases hg with rfl | hg
        · exact ⟨[], [], rfl, by simp [IsSpaces], Or.inl rfl⟩
        · exact isBlank_of hg) hn h2
      simpa using this)
  obtain ⟨hn, rfl⟩ := out_newline_iff.1 h1
  refine ⟨by rw [h2]; rfl, s1, m ++ (s2 ++ r), by simp, hn, isFile_prefix hg h3⟩

theorem like_designator {sk : St → Res Rule} {K : Str → Str → Prop} (hu : Uniform sk) (a : Atom) :
    LikeCls sk K ((.cls isAsciiUpper) ∥ (.cls isAsciiDigit)) a (fun c => isAsciiUpper c || isAsciiDigit c) :=
  (likeCls_cls _ a).alt (likeCls_cls _ a) (uniform_eval hu _ rfl a)

theorem out_designator_iff {a : Atom} {s r : Str} {ts : List (Tree Rule)} :
    Out skip K designator a s r ts ↔ IsDesignator s ∧
      HeadNot (fun c => isAsciiUpper c || isAsciiDigit c) r ∧ ts = [.node .designator s []] := by
  show (∃ kids, _ ∧ _) ↔ _
  have ha : inside Ty.compound a ≠ .nonAtomic := by simp [inside]
  simp only [(like_designator (K := K) skip_uniform (inside Ty.compound a)).plus ha]
  constructor
  · rintro ⟨kids, ⟨h1, h2, h3, rfl⟩, rfl⟩
    exact ⟨⟨h1, fun c hc => by simpa using h2 c hc⟩, h3, by simp [emits]⟩
  · rintro ⟨⟨h1, h2⟩, h3, rfl⟩
    exact ⟨[], ⟨h1, fun c hc => by simpa using h2 c hc, h3, rfl⟩, by simp [emits]⟩

theorem out_DECIMAL_iff {s r : Str} {ts : List (Tree Rule)} :
    Out skip K DECIMAL .compound s r ts ↔ IsCoord s ∧ HeadNot isAsciiDigit r ∧
      ts = [.node .DECIMAL s []] := by
  show (∃ kids, Out skip K _ .atomic s r kids ∧ _) ↔ _
  simp only [out_seq_atomic (show Atom.atomic ≠ .nonAtomic by simp),
    (likeCls_cls (sk := skip) (K := K) isAsciiDigit .atomic).plus (by simp)]
  constructor
  · rintro ⟨kids, ⟨sg, u1, t1, t2, rfl, rfl, h1, ds, u2, t3, t4, rfl, rfl, ⟨h3, h4, h5, rfl⟩,
      pt, fs, t5, t6, rfl, rfl, ⟨rfl, rfl⟩, h7, h8, h9, rfl⟩, rfl⟩
    have : (sg = [] ∨ sg = ['-']) ∧ t1 = [] := by
      rcases h1 with ⟨rfl, rfl⟩ | ⟨rfl, rfl, _⟩ <;> simp
    obtain ⟨hsg, rfl⟩ := this
    exact ⟨⟨sg, ds, fs, by simp, hsg, ⟨h3, h4⟩, ⟨h7, h8⟩⟩, h9, by simp [emits]⟩
  · rintro ⟨⟨sg, ds, fs, rfl, hsg, ⟨h3, h4⟩, h7, h8⟩, h9, rfl⟩
    refine ⟨[], ⟨sg, ds ++ ('.' :: fs), [], [], by simp, rfl, ?_, ds, '.' :: fs, [], [], rfl, rfl,
      ⟨h3, h4, headNot_cons.2 (by decide), rfl⟩, ['.'], fs, [], [], rfl, rfl, ⟨rfl, rfl⟩,
      h7, h8, h9, rfl⟩, by simp [emits]⟩
    rcases hsg with rfl | rfl
    · refine Or.inr ⟨rfl, rfl, fails_str.2 ?_⟩
      cases ds with
      | nil => exact absurd rfl h3
      | cons c ds =>
        have := isDigit_ne (h4 c List.mem_cons_self) (d := '-') (by decide)
        simpa using fun e => this e.symm
    · exact Or.inl ⟨rfl, rfl⟩

theorem out_coord_part_iff {a : Atom} {s r : Str} {ts : List (Tree Rule)} :
    Out skip K coord_part a s r ts ↔ IsCoord s ∧ HeadNot isAsciiDigit r ∧
      ts = [.node .coord_part s [.node .DECIMAL s []]] := by
  show (∃ kids, Out skip K DECIMAL .compound s r kids ∧ _) ↔ _
  simp only [out_DECIMAL_iff]
  constructor
  · rintro ⟨kids, ⟨h1, h2, rfl⟩, rfl⟩; exact ⟨h1, h2, by simp [emits]⟩
  · rintro ⟨h1, h2, rfl⟩; exact ⟨_, ⟨h1, h2, rfl⟩, by simp [emits]⟩

theorem isCoord_isDecimal {s : Str} (h : IsCoord s) : IsDecimal s := by
  obtain ⟨sg, ds, fs, rfl, h1, h2, h3⟩ := h
  refine ⟨sg, ds, '.' :: fs, rfl, ?_, h2.2, Or.inr ⟨fs, rfl, h3⟩⟩
  rcases h1 with rfl | rfl <;> simp [IsSign]

theorem isCoord_head {s : Str} (h : IsCoord s) : ∃ c t, s = c :: t ∧ (c = '-' ∨ isAsciiDigit c = true) := by
  obtain ⟨sg, ds, fs, rfl, h1, h2, h3⟩ := h
  rcases h1 with rfl | rfl
  · cases ds with
    | nil => exact absurd rfl h2.1
    | cons c ds => exact ⟨c, _, rfl, Or.inr (h2.2 c List.mem_cons_self)⟩
  · exact ⟨'-', _, rfl, Or.inl rfl⟩

theorem digit_props {c : Char} (h : c = '-' ∨ isAsciiDigit c = true) :
    isNewlineChar c = false ∧ isSpTab c = false ∧ c ≠ ';' ∧ c ≠ '/' := by
  rcases h with rfl | h
  · decide
  · have := fun d => isDigit_ne h (d := d)
    simp [isNewlineChar, this '\n' (by decide), this '\r' (by decide), this ' ' (by decide),
      this '\t' (by decide), this ';' (by decide), this '/' (by decide)]

theorem designator_props {c : Char} (h : isAsciiUpper c = true ∨ isAsciiDigit c = true) :
    isNewlineChar c = false ∧ isSpTab c = false ∧ c ≠ ';' ∧ c ≠ '/' := by
  rcases h with h | h
  · have : ∀ d, isAsciiUpper d = false → c ≠ d := by
      rintro d hd rfl
      rw [h] at hd; cases hd
    simp [isNewlineChar, this '\n' (by decide), this '\r' (by decide), this ' ' (by decide),
      this '\t' (by decide), this ';' (by decide), this '/' (by decide)]
  · exact digit_props (Or.inr h)

/-- The tree of a waypoint line. -/
def IsWptTree (w : Wpt) (t : Tree Rule) : Prop :=
  ∃ s cs k1 k2, t = .node .wpt s [.node .designator w.designator [],
    .node .coord cs [.node .coord_part w.lat k1, .node .coord_part w.lng k2]]

theorem sound_wpt {s r : Str} {ts : List (Tree Rule)} {ws : List Wpt}
    (h : Out skip K wpt .nonAtomic s r ts) (hr : IsFile r ws) :
    ∃ w t, ts = [t] ∧ IsWptTree w t ∧ IsCoord w.lat ∧ IsCoord w.lng ∧ IsFile (s ++ r) (w :: ws) := by
  obtain ⟨kids, ⟨d, m1, u1, t1, t2, hs, hg1, h1, ⟨c, m2, u2, t3, t4, rfl, hg2, h2,
    ⟨_, m3, u3, t5, t6, rfl, hg3, ⟨rfl, rfl⟩, h3, rfl⟩, rfl⟩, rfl⟩, rfl⟩ := h
  obtain ⟨rfl, nl, tail, e3, hn, ht⟩ := sound_NL h3 hr
  obtain ⟨hd, hd2, rfl⟩ := out_designator_iff.1 h1
  obtain ⟨kids, ⟨lat, m4, lng, t7, t8, rfl, hg4, h4, h5, rfl⟩, rfl⟩ := h2
  obtain ⟨hlat, hlat2, rfl⟩ := out_coord_part_iff.1 h4
  obtain ⟨hlng, hlng2, rfl⟩ := out_coord_part_iff.1 h5
  refine ⟨⟨d, lat, lng⟩, _, rfl, ⟨s, lat ++ m4 ++ lng, [.node .DECIMAL lat []], [.node .DECIMAL lng []], by simp [inside, emits]⟩, hlat, hlng, ?_⟩
  replace hg1 : K _ _ := hg1
  replace hg2 : K _ _ := hg2
  replace hg4 : K _ _ := hg4
  obtain ⟨ca, ta, ea, ha⟩ := isCoord_head hlat
  obtain ⟨cb, tb, eb, hb⟩ := isCoord_head hlng
  have := IsFile.line ⟨d, lat, lng⟩ (d ++ m1 ++ lat ++ m4 ++ lng ++ m2 ++ c!"15" ++ m3) nl tail ws
    ⟨[], m1, m4, m2, m3, by simp, hd, hlat, hlng, by simp [IsSpaces], ?_, ?_, ?_, isBlank_of hg3, ?_, ?_, ?_⟩
    hn ht
  · have e : s ++ r = d ++ m1 ++ lat ++ m4 ++ lng ++ m2 ++ c!"15" ++ m3 ++ (u3 ++ r) := by
      rw [hs]; simp
    rw [e, e3]
    simpa using this
  · rw [ea] at hg1
    exact spaces_of (digit_props ha).1 (by simpa using hg1)
  · rw [eb] at hg4
    exact spaces_of (digit_props hb).1 (by simpa using hg4)
  · exact spaces_of (c := '1') (by decide) (by simpa using hg2)
  · rintro rfl
    rw [ea] at hd2 ⊢
    have := headNot_cons.1 (show HeadNot _ (ca :: _) by simpa using hd2)
    rcases ha with rfl | ha
    · rfl
    · simp [ha] at this
  · rintro rfl
    rw [eb] at hlat2 ⊢
    have := headNot_cons.1 (show HeadNot _ (cb :: _) by simpa using hlat2)
    rcases hb with rfl | hb
    · rfl
    · simp [hb] at this
  · rintro rfl
    have := headNot_cons.1 (show HeadNot isAsciiDigit ('1' :: _) by simpa using hlng2)
    revert this; decide

/-- A list of trees is the waypoint trees of `ws`. -/
def AreWptTrees : List Wpt → List (Tree Rule) → Prop
  | [], ts => ts = []
  | w :: ws, ts => ∃ t ts', ts = t :: ts' ∧ IsWptTree w t ∧ IsCoord w.lat ∧ IsCoord w.lng ∧
      AreWptTrees ws ts'

theorem sound_wpts {content : Str} {ts : List (Tree Rule)}
    (h : Out skip K wpts .nonAtomic content [] ts) :
    ∃ ws trees, ws ≠ [] ∧ ts = [.node .wpts content (trees ++ [.node .EOI [] []])] ∧
      AreWptTrees ws trees ∧ IsFile content ws := by
  obtain ⟨kids, ⟨_, m1, u1, t1, t2, hs, hg1, ⟨rfl, rfl⟩, ⟨nl, m2, u2, t3, t4, rfl, hg2, h2,
    ⟨wt, m3, u3, t5, t6, rfl, hg3, h3, ⟨rfl, _, rfl⟩, rfl⟩, rfl⟩, rfl⟩, rfl⟩ := h
  have hw : ∃ ws, ws ≠ [] ∧ AreWptTrees ws t5 ∧ IsFile (wt ++ (m3 ++ [])) ws := by
    obtain ⟨s1, t1, m4, s2, t2, rfl, rfl, h5, hg4, ws, h8, h9⟩ :=
      out_plus_ind h3 (fun s ts => ∃ ws, AreWptTrees ws ts ∧ IsFile (s ++ (m3 ++ [])) ws)
        ⟨[], rfl, by simpa using IsFile.last _ (isBlank_of hg3)⟩ (by
        rintro m s ts s' ts' hg ho ⟨ws, h8, h9⟩
        obtain ⟨x, y, rfl, hx, hc5, hc6, hf3⟩ := sound_wpt ho h9
        refine ⟨x :: ws, ⟨y, _, rfl, hx, hc5, hc6, h8⟩, ?_⟩
        rcases hg with rfl | hg
        · simpa using hf3
        · simpa using isFile_prefix hg hf3)
    obtain ⟨w, t, rfl, hw1, hc1, hc2, hf1⟩ := sound_wpt h5 (isFile_prefix hg4 h9)
    exact ⟨w :: ws, by simp, ⟨t, _, rfl, hw1, hc1, hc2, h8⟩, by simpa using hf1⟩
  obtain ⟨ws, hne, hw1, hw2⟩ := hw
  have hf : t3 = [] ∧ IsFile (nl ++ (m2 ++ (wt ++ (m3 ++ [])))) ws := by
    have hp := isFile_prefix hg2 (by simpa using hw2)
    rcases h2 with h2 | ⟨rfl, rfl, _⟩
    · obtain ⟨rfl, n, t, e, h4, h5⟩ := sound_NL h2 hp
      refine ⟨rfl, ?_⟩
      have := IsFile.blank [] n t ws ⟨[], [], rfl, by simp [IsSpaces], Or.inl rfl⟩ h4 h5
      rw [List.nil_append, ← e] at this
      simpa using this
    · exact ⟨rfl, by simpa using hp⟩
  obtain ⟨rfl, hf⟩ := hf
  refine ⟨ws, t5, hne, by simp [emits, inside], hw1, ?_⟩
  rw [hs]
  simpa using isFile_prefix hg1 (by simpa using hf)

/-! ## To the parse tree -/

/-- Lines without data, each with its line end, in front of `r`. -/
def Blanks : List (Str × Str) → Str → Prop :=
  Reps (fun p => p.1 ++ p.2) (fun p r => IsBlank p.1 ∧ IsLineEnd p.2 r)

/-- A file is some lines without data, then blank text, then the end or a waypoint. -/
theorem isFile_norm {content : Str} {ws : List Wpt} (h : IsFile content ws) :
    ∃ (bs : List (Str × Str)) (b r : Str), content = bs.flatMap (fun p => p.1 ++ p.2) ++ (b ++ r) ∧
      Blanks bs (b ++ r) ∧ K b r ∧
      ((ws = [] ∧ r = []) ∨ ∃ w ws' t nl rest, ws = w :: ws' ∧ r = t ++ nl ++ rest ∧
        (∃ b1 b2 b3 b4, IsLine w t ∧
          t = w.designator ++ b1 ++ w.lat ++ b2 ++ w.lng ++ b3 ++ c!"15" ++ b4 ∧
          IsDesignator w.designator ∧ IsCoord w.lat ∧ IsCoord w.lng ∧
          IsSpaces b1 ∧ IsSpaces b2 ∧ IsSpaces b3 ∧ IsBlank b4 ∧
          (b1 = [] → w.lat.head? = some '-') ∧ (b2 = [] → w.lng.head? = some '-') ∧ b3 ≠ []) ∧
        IsLineEnd nl rest ∧ IsFile rest ws') := by
  induction h with
  | last b hb => exact ⟨[], b, [], by simp, trivial, K_lineEnd hb atLineEnd_nil, Or.inl ⟨rfl, rfl⟩⟩
  | blank b nl rest ws hb hn hf ih =>
    obtain ⟨bs, b', r, rfl, h1, h2, h3⟩ := ih
    exact ⟨(b, nl) :: bs, b', r, by simp, ⟨⟨hb, hn⟩, h1⟩, h2, h3⟩
  | line w t nl rest ws hl hn hf ih =>
    obtain ⟨b0, b1, b2, b3, b4, rfl, d1, d2, d3, s0, s1, s2, s3, s4, s5⟩ := hl
    have hl' : IsLine w (w.designator ++ b1 ++ w.lat ++ b2 ++ w.lng ++ b3 ++ c!"15" ++ b4) :=
      ⟨[], b1, b2, b3, b4, by simp, d1, d2, d3, by simp [IsSpaces], s1, s2, s3, s4, s5⟩
    refine ⟨[], b0, w.designator ++ b1 ++ w.lat ++ b2 ++ w.lng ++ b3 ++ c!"15" ++ b4 ++ nl ++ rest,
      by simp, trivial, ?_, Or.inr ⟨w, ws, _, nl, rest, rfl, rfl, ⟨b1, b2, b3, b4, hl', rfl, d1, d2, d3,
      s1, s2, s3, s4, s5⟩, hn, hf⟩⟩
    cases hd : w.designator with
    | nil => exact absurd hd d1.1
    | cons c d =>
      have := designator_props (d1.2 c (by rw [hd]; exact List.mem_cons_self))
      simpa using K_spaces (r := d ++ b1 ++ w.lat ++ b2 ++ w.lng ++ b3 ++ c!"15" ++ b4 ++ nl ++ rest)
        s0 this.2.1 this.2.2.1 this.2.2.2

theorem skip_newline_fails {m r : Str} (hk : K m r) (hr : HeadNot isNewlineChar r) :
    ∃ pos stk, ((skipIf skip .nonAtomic ⟨pos, m ++ r, stk⟩).bind fun s1 _ =>
      eval skip .newline .nonAtomic s1) = .fail := by
  refine ⟨0, [], ?_⟩
  rw [skipIf_exact (a := .nonAtomic) skip_exact' hk rfl, Res.ok_bind]
  exact (uniform_eval skip_uniform .newline rfl _).fail_of (fails_newline.2 hr) _ rfl

theorem complete_NL {nl b r : Str} {bs : List (Str × Str)} (hb : Blanks bs (b ++ r)) (hk : K b r)
    (hr : HeadNot isNewlineChar r) (hn : IsLineEnd nl (bs.flatMap (fun p => p.1 ++ p.2) ++ (b ++ r))) :
    ∃ s m, nl ++ (bs.flatMap (fun p => p.1 ++ p.2) ++ (b ++ r)) = s ++ (m ++ r) ∧
      Out skip K NL .nonAtomic s (m ++ r) [] ∧ K m r := by
  cases bs with
  | nil =>
    refine ⟨nl ++ b, [], by simp, ⟨nl, b, [], [], [], by simp, by simpa using hk,
      out_newline_iff.2 ⟨by simpa [IsLineEnd, LineEnd] using hn, rfl⟩, Or.inl ⟨rfl, rfl, ?_⟩, rfl⟩, ?_⟩
    · exact fails_newline.2 (by simpa using hr)
    · obtain ⟨sp, cm, _, _, h⟩ := (K_iff _ _).1 hk
      refine (K_iff _ _).2 ⟨[], [], rfl, by simp, Or.inl ⟨rfl, ?_⟩⟩
      rcases h with ⟨_, h⟩ | ⟨_, h⟩
      · exact h
      · exact atLineEnd_not apart_spTab h
  | cons p bs =>
    obtain ⟨⟨h1, h2⟩, h3⟩ := hb
    refine ⟨nl ++ (p :: bs).flatMap (fun p => p.1 ++ p.2), b, by simp, ⟨nl, p.1,
      p.2 ++ bs.flatMap (fun p => p.1 ++ p.2), [], [], by simp, ?_, ?_, ?_, rfl⟩, hk⟩
    · refine K_lineEnd h1 ?_
      have := atLineEnd_of (t := bs.flatMap (fun p => p.1 ++ p.2) ++ (b ++ r)) h2
      simpa using this
    · exact out_newline_iff.2 ⟨by simpa [IsLineEnd, LineEnd] using hn, rfl⟩
    · refine Or.inr ⟨p.2, [], bs.map fun q => ((q.1, q.2), []), ?_, ?_, ?_, ?_, skip_newline_fails hk hr⟩
      · simp [List.flatMap_map]
      · simp [List.flatMap_map]
      · refine out_newline_iff.2 ⟨?_, rfl⟩
        simpa [List.flatMap_map, IsLineEnd, LineEnd] using h2
      · refine reps_map (txt' := fun p : Str × Str => p.1 ++ p.2)
          (P := fun p r => IsBlank p.1 ∧ IsLineEnd p.2 r) _ (fun _ => rfl) ?_ h3
        rintro q r' ⟨h4, h5⟩
        exact ⟨K_lineEnd h4 (atLineEnd_of h5), out_newline_iff.2 ⟨h5, rfl⟩⟩

theorem headNot_of_not_cons {c : Char} {r : Str} {p : Char → Bool} (h : p c = false) : HeadNot p (c :: r) :=
  headNot_cons.2 h

/-- The tokens of a waypoint line with text `s`. -/
def wptTree (w : Wpt) (s cs : Str) : Tree Rule := .node .wpt s [.node .designator w.designator [],
    .node .coord cs [.node .coord_part w.lat [.node .DECIMAL w.lat []],
      .node .coord_part w.lng [.node .DECIMAL w.lng []]]]

theorem complete_wpt {w : Wpt} {b1 b2 b3 b4 s r : Str} (d1 : IsDesignator w.designator)
    (d2 : IsCoord w.lat) (d3 : IsCoord w.lng) (s1 : IsSpaces b1) (s2 : IsSpaces b2) (s3 : IsSpaces b3)
    (s4 : IsBlank b4) (e1 : b1 = [] → w.lat.head? = some '-') (e2 : b2 = [] → w.lng.head? = some '-')
    (e3 : b3 ≠ []) (hn : Out skip K NL .nonAtomic s r []) (hs : AtLineEnd (s ++ r)) :
    Out skip K wpt .nonAtomic (w.designator ++ b1 ++ w.lat ++ b2 ++ w.lng ++ b3 ++ c!"15" ++ b4 ++ s) r
      [wptTree w (w.designator ++ b1 ++ w.lat ++ b2 ++ w.lng ++ b3 ++ c!"15" ++ b4 ++ s)
        (w.lat ++ b2 ++ w.lng)] := by
  obtain ⟨ca, ta, ea, ha⟩ := isCoord_head d2
  obtain ⟨cb, tb, eb, hb⟩ := isCoord_head d3
  have pa := digit_props ha
  have pb := digit_props hb
  have hsp : ∀ {p : Char → Bool} {b t : Str}, IsSpaces b → b ≠ [] → p ' ' = false → p '\t' = false →
      HeadNot p (b ++ t) := by
    intro p b t h1 h2 h3 h4
    cases b with
    | nil => exact absurd rfl h2
    | cons c b =>
      refine headNot_cons.2 ?_
      rcases h1 c List.mem_cons_self with rfl | rfl
      · exact h3
      · exact h4
  refine ⟨[.node .designator w.designator [], .node .coord (w.lat ++ b2 ++ w.lng)
    [.node .coord_part w.lat [.node .DECIMAL w.lat []], .node .coord_part w.lng [.node .DECIMAL w.lng []]]],
    ⟨w.designator, b1, w.lat ++ b2 ++ w.lng ++ b3 ++ (c!"15" ++ b4 ++ s), [.node .designator w.designator []],
      _, by simp, ?_, ?_, ⟨w.lat ++ b2 ++ w.lng, b3, c!"15" ++ b4 ++ s, [.node .coord (w.lat ++ b2 ++ w.lng)
    [.node .coord_part w.lat [.node .DECIMAL w.lat []], .node .coord_part w.lng [.node .DECIMAL w.lng []]]],
      [], by simp, ?_, ?_, ⟨c!"15", b4, s, [], [], by simp, ?_, ⟨rfl, rfl⟩, hn, rfl⟩, rfl⟩, rfl⟩, rfl⟩
  · have := K_spaces (r := ta ++ b2 ++ w.lng ++ b3 ++ (c!"15" ++ b4 ++ s) ++ r) s1 pa.2.1 pa.2.2.1 pa.2.2.2
    rw [ea]
    simpa using this
  · refine out_designator_iff.2 ⟨d1, ?_, rfl⟩
    by_cases hb1 : b1 = []
    · have := e1 hb1
      rw [ea, List.head?_cons, Option.some.injEq] at this
      rw [hb1, ea, this]
      exact headNot_cons.2 (by decide)
    · exact hsp s1 hb1 (by decide) (by decide)
  · have := K_spaces (c := '1') (r := c!"5" ++ b4 ++ s ++ r) s3 (by decide) (by decide) (by decide)
    simpa using this
  · refine ⟨_, ⟨w.lat, b2, w.lng, _, _, rfl, ?_, out_coord_part_iff.2 ⟨d2, ?_, rfl⟩,
      out_coord_part_iff.2 ⟨d3, ?_, rfl⟩, rfl⟩, rfl⟩
    · have := K_spaces (r := tb ++ (b3 ++ (c!"15" ++ b4 ++ s ++ r))) s2 pb.2.1 pb.2.2.1 pb.2.2.2
      rw [eb]
      simpa using this
    · by_cases hb1 : b2 = []
      · have := e2 hb1
        rw [eb, List.head?_cons, Option.some.injEq] at this
        rw [hb1, eb, this]
        exact headNot_cons.2 (by decide)
      · exact hsp s2 hb1 (by decide) (by decide)
    · exact hsp s3 e3 (by decide) (by decide)
  · exact K_lineEnd s4 hs

/-- What follows a line end: the rest of the line end rule, then waypoints, then blank text. -/
theorem complete_tail (ws : List Wpt) : ∀ (nl content : Str), IsLineEnd nl content → IsFile content ws →
    ∃ (s : Str) (parts : List ((Str × Str) × List (Tree Rule))) (fin : Str),
      nl ++ content = s ++ (parts.flatMap (fun p => p.1.1 ++ p.1.2) ++ fin) ∧
      Out skip K NL .nonAtomic s (parts.flatMap (fun p => p.1.1 ++ p.1.2) ++ fin) [] ∧
      Reps (fun p => p.1.1 ++ p.1.2) (fun p r => Gap K .nonAtomic p.1.1 (p.1.2 ++ r) ∧
        Out skip K wpt .nonAtomic p.1.2 r p.2) parts fin ∧ K fin [] ∧
      AreWptTrees ws (parts.flatMap (·.2)) := by
  induction ws with
  | nil =>
    intro nl content hn hf
    obtain ⟨bs, b, r, rfl, h1, h2, ⟨_, rfl⟩ | ⟨w, ws', _, _, _, h, _⟩⟩ := isFile_norm hf
    · obtain ⟨s, m, e, ho, hk⟩ := complete_NL h1 h2 (headNot_nil _) hn
      exact ⟨s, [], m, by simpa using e, by simpa using ho, trivial, hk, rfl⟩
    · cases h
  | cons w ws ih =>
    intro nl content hn hf
    obtain ⟨bs, b, r, rfl, h1, h2, ⟨h, _⟩ | ⟨w', ws', t, nl', rest, h, rfl,
      ⟨b1, b2, b3, b4, hl, rfl, d1, d2, d3, s1, s2, s3, s4, e1, e2, e3⟩, hn', hf'⟩⟩ := isFile_norm hf
    · cases h
    · cases h
      obtain ⟨s', parts, fin, e', ho', hp, hfin, htr⟩ := ih nl' rest hn' hf'
      have hdn : HeadNot isNewlineChar (w.designator ++ b1 ++ w.lat ++ b2 ++ w.lng ++ b3 ++ c!"15" ++ b4 ++
          nl' ++ rest) := by
        cases hd : w.designator with
        | nil => exact absurd hd d1.1
        | cons c d =>
          have := designator_props (d1.2 c (by rw [hd]; exact List.mem_cons_self))
          exact headNot_cons.2 this.1
      obtain ⟨s, m, e, ho, hk⟩ := complete_NL h1 h2 hdn hn
      have hw := complete_wpt d1 d2 d3 s1 s2 s3 s4 e1 e2 e3 ho' (by rw [← e']; exact atLineEnd_of hn')
      have er : w.designator ++ b1 ++ w.lat ++ b2 ++ w.lng ++ b3 ++ c!"15" ++ b4 ++ nl' ++ rest =
          w.designator ++ b1 ++ w.lat ++ b2 ++ w.lng ++ b3 ++ c!"15" ++ b4 ++ s' ++
            (parts.flatMap (fun p => p.1.1 ++ p.1.2) ++ fin) := by
        rw [List.append_assoc _ nl', e']; simp
      rw [er] at e ho hk
      refine ⟨s, ((m, _), _) :: parts, fin, ?_, ?_, ⟨⟨?_, hw⟩, hp⟩, hfin, ?_⟩
      · rw [er, e]; simp
      · simpa using ho
      · exact hk
      · exact ⟨_, _, rfl, ⟨_, _, _, _, rfl⟩, d2, d3, htr⟩

theorem K_nil {m r : Str} (hk : K m r) : K [] r := by
  obtain ⟨sp, cm, _, _, h⟩ := (K_iff _ _).1 hk
  refine (K_iff _ _).2 ⟨[], [], rfl, by simp, Or.inl ⟨rfl, ?_⟩⟩
  rcases h with ⟨_, h⟩ | ⟨_, h⟩
  · exact h
  · exact atLineEnd_not apart_spTab h

theorem complete_plus {s1 fin : Str} {t1 : List (Tree Rule)} {parts : List ((Str × Str) × List (Tree Rule))}
    (h1 : Out skip K wpt .nonAtomic s1 (parts.flatMap (fun p => p.1.1 ++ p.1.2) ++ fin) t1)
    (hp : Reps (fun p => p.1.1 ++ p.1.2) (fun p r => Gap K .nonAtomic p.1.1 (p.1.2 ++ r) ∧
        Out skip K wpt .nonAtomic p.1.2 r p.2) parts fin) (hf : K fin []) :
    ∃ s m, s1 ++ (parts.flatMap (fun p => p.1.1 ++ p.1.2) ++ fin) = s ++ m ∧
      Out skip K (.plus wpt) .nonAtomic s m (t1 ++ parts.flatMap (·.2)) ∧ K m [] := by
  have hfail : Fails skip wpt .nonAtomic [] := ⟨0, [], rfl⟩
  cases parts with
  | nil =>
    exact ⟨s1 ++ fin, [], by simp, ⟨s1, fin, [], t1, [], by simp, by simpa using hf,
      by simpa using h1, Or.inl ⟨rfl, rfl, hfail⟩, rfl⟩, K_nil hf⟩
  | cons p ps =>
    obtain ⟨⟨h2, h3⟩, h4⟩ := hp
    refine ⟨s1 ++ p.1.1 ++ (p.1.2 ++ ps.flatMap (fun p => p.1.1 ++ p.1.2)), fin,
      by simp, ⟨s1, p.1.1, _, t1, _, rfl, ?_, ?_,
        Or.inr ⟨p.1.2, p.2, ps, rfl, rfl, h3, h4, 0, [], ?_⟩, by simp⟩, hf⟩
    · simpa using h2
    · simpa using h1
    · rw [skipIf_exact (a := .nonAtomic) (m := fin) (r := []) skip_exact' hf (by simp), Res.ok_bind]
      exact (uniform_eval skip_uniform wpt rfl _).fail_of hfail _ rfl

theorem complete_wpts {content : Str} {ws : List Wpt} (h : IsFile content ws) (hne : ws ≠ []) :
    ∃ trees, Out skip K wpts .nonAtomic content [] [.node .wpts content (trees ++ [.node .EOI [] []])] ∧
      AreWptTrees ws trees := by
  obtain ⟨bs, b, r, rfl, h1, h2, ⟨h, _⟩ | ⟨w, ws, t, nl, rest, rfl, rfl,
    ⟨b1, b2, b3, b4, hl, rfl, d1, d2, d3, s1, s2, s3, s4, e1, e2, e3⟩, hn, hf⟩⟩ := isFile_norm h
  · exact absurd h hne
  · obtain ⟨s', parts, fin, e', ho', hp, hfin, htr⟩ := complete_tail ws nl rest hn hf
    have hw := complete_wpt d1 d2 d3 s1 s2 s3 s4 e1 e2 e3 ho' (by rw [← e']; exact atLineEnd_of hn)
    have er : w.designator ++ b1 ++ w.lat ++ b2 ++ w.lng ++ b3 ++ c!"15" ++ b4 ++ nl ++ rest =
        w.designator ++ b1 ++ w.lat ++ b2 ++ w.lng ++ b3 ++ c!"15" ++ b4 ++ s' ++
          (parts.flatMap (fun p => p.1.1 ++ p.1.2) ++ fin) := by
      rw [List.append_assoc _ nl, e']; simp
    have hdn : HeadNot isNewlineChar (w.designator ++ b1 ++ w.lat ++ b2 ++ w.lng ++ b3 ++ c!"15" ++ b4 ++
        nl ++ rest) := by
      cases hd : w.designator with
      | nil => exact absurd hd d1.1
      | cons c d =>
        have := designator_props (d1.2 c (by rw [hd]; exact List.mem_cons_self))
        exact headNot_cons.2 this.1
    obtain ⟨wt, m3, e4, h4, h5⟩ := complete_plus hw hp hfin
    obtain ⟨ts, hts, h4⟩ : ∃ ts, AreWptTrees (w :: ws) ts ∧ Out skip K (.plus wpt) .nonAtomic wt m3 ts :=
      ⟨_, ⟨_, _, rfl, ⟨_, _, _, _, rfl⟩, d2, d3, htr⟩, h4⟩
    refine ⟨ts, ?_, hts⟩
    rw [er, e4] at hdn h1 h2 ⊢
    have hend : Out skip K (.plus wpt ⬝ .eoi .EOI) .nonAtomic (wt ++ m3) [] (ts ++ [.node .EOI [] []]) :=
      ⟨wt, m3, [], ts, [.node .EOI [] []], by simp, h5, by simpa using h4, ⟨rfl, rfl, rfl⟩, rfl⟩
    cases bs with
    | nil =>
      refine ⟨_, ⟨[], b, wt ++ m3, [], ts ++ [.node .EOI [] []], by simp, by simpa using h2, ⟨rfl, rfl⟩,
        ⟨[], [], wt ++ m3, [], _, by simp, ?_, Or.inr ⟨rfl, rfl, ?_⟩, hend, rfl⟩, rfl⟩, rfl⟩
      · simpa using K_nil h2
      · exact fails_plus (fails_newline.2 (by simpa using hdn))
    | cons p bs =>
      obtain ⟨⟨h6, h7⟩, h8⟩ := h1
      obtain ⟨s, m, e5, h9, h10⟩ := complete_NL h8 h2 hdn h7
      refine ⟨_, ⟨[], p.1, s ++ m ++ (wt ++ m3), [], ts ++ [.node .EOI [] []], ?_, ?_, ⟨rfl, rfl⟩,
        ⟨s, m, wt ++ m3, [], _, rfl, by simpa using h10, Or.inl (by simpa using h9), hend, rfl⟩, rfl⟩, rfl⟩
      · rw [List.flatMap_cons, List.append_assoc, List.append_assoc, e5]; simp
      · refine K_lineEnd h6 ?_
        have := atLineEnd_of (t := bs.flatMap (fun p => p.1 ++ p.2) ++ (b ++ (wt ++ m3))) h7
        rw [e5] at this
        simpa using this

variable [F64 F]

/-- The fix of a line. -/
def fixOf (w : Wpt) : Option (Fix (Point F)) :=
  (F64.ofText w.lat).bind fun y => (F64.ofText w.lng).map fun x =>
    { designator := w.designator, coordinate := { x, y } }

theorem fixOf_some {w : Wpt} (h1 : IsCoord w.lat) (h2 : IsCoord w.lng) :
    ∃ x y : F, F64.ofText w.lat = some y ∧ F64.ofText w.lng = some x ∧
      fixOf w = some ⟨w.designator, ⟨x, y⟩⟩ := by
  obtain ⟨y, hy⟩ := F64.some_of_decimal (F := F) (isCoord_isDecimal h1)
  obtain ⟨x, hx⟩ := F64.some_of_decimal (F := F) (isCoord_isDecimal h2)
  exact ⟨x, y, hy, hx, by simp [fixOf, hx, hy]⟩

theorem step_wpt (acc : IsecMap F) {w : Wpt} {t : Tree Rule} (h : IsWptTree w t)
    {f : Fix (Point F)} (hf : fixOf w = some f) :
    step acc t = .ok (MultiMap.insert acc w.designator f) := by
  obtain ⟨s, cs, k1, k2, rfl⟩ := h
  simp only [fixOf, Option.bind_eq_some_iff, Option.map_eq_some_iff] at hf
  obtain ⟨y, hy, x, hx, rfl⟩ := hf
  simp [step, parseCoord, hy, hx]

theorem foldlM_wpts {ws : List Wpt} {ts : List (Tree Rule)} (h : AreWptTrees ws ts)
    (rest : List (Tree Rule)) (acc : IsecMap F) : ∃ fs : List (Fix (Point F)),
      ws.map fixOf = fs.map some ∧
      (ts ++ rest).foldlM step acc =
        rest.foldlM step (fs.foldl (fun (m : IsecMap F) f => MultiMap.insert m f.designator f) acc) := by
  induction ws generalizing ts acc with
  | nil =>
    simp only [AreWptTrees] at h
    subst h
    exact ⟨[], rfl, rfl⟩
  | cons w ws ih =>
    obtain ⟨t, ts', rfl, h1, h2, h3, h4⟩ := h
    obtain ⟨x, y, hy, hx, hf⟩ := fixOf_some (F := F) h2 h3
    obtain ⟨fs, e1, e2⟩ := ih h4 (MultiMap.insert acc w.designator ⟨w.designator, ⟨x, y⟩⟩)
    refine ⟨⟨w.designator, ⟨x, y⟩⟩ :: fs, by simp [hf, e1], ?_⟩
    rw [List.cons_append, List.foldlM_cons, step_wpt acc h1 hf]
    exact e2

/-- What the code makes of a list of waypoint lines. -/
def collect (fs : List (Fix (Point F))) : IsecMap F :=
  fs.foldl (fun (m : IsecMap F) f => MultiMap.insert m f.designator f) []

theorem parse_trees {content : Str} {ws : List Wpt} {trees : List (Tree Rule)}
    (h : run skip wpts content = .ok [.node .wpts content (trees ++ [.node .EOI [] []])])
    (h1 : AreWptTrees ws trees) : ∃ fs : List (Fix (Point F)), ws.map fixOf = fs.map some ∧
      parseIsecTxt content = .ok (collect fs) := by
  obtain ⟨fs, e1, e2⟩ := foldlM_wpts (F := F) h1 [.node .EOI [] []] []
  refine ⟨fs, e1, ?_⟩
  simp only [parseIsecTxt, h, run_ok_bind, next_cons, Tree.inner_node]
  rw [e2]
  rfl

/-- The parser rejects the text, or it returns exactly the waypoint lines of the text. -/
theorem parse_cases (content : Str) :
    parseIsecTxt (F := F) content = .error .parseError ∨
    ∃ (ws : List Wpt) (fs : List (Fix (Point F))), ws ≠ [] ∧ IsFile content ws ∧
      ws.map fixOf = fs.map some ∧ parseIsecTxt content = .ok (collect fs) := by
  rcases run_whole skip_ok (e := wpts) rfl rfl content with h | ⟨ts, h, ho⟩
  · exact Or.inl (by simp [parseIsecTxt, h])
  · obtain ⟨ws, trees, hne, rfl, h1, h2⟩ := sound_wpts ho
    obtain ⟨fs, e1, e2⟩ := parse_trees (F := F) h h1
    exact Or.inr ⟨ws, fs, hne, h2, e1, e2⟩

/-- A waypoint file is accepted. -/
theorem parse_complete {content : Str} {ws : List Wpt} (h : IsFile content ws) (hne : ws ≠ []) :
    ∃ fs : List (Fix (Point F)), ws.map fixOf = fs.map some ∧ parseIsecTxt content = .ok (collect fs) := by
  obtain ⟨trees, ho, ht⟩ := complete_wpts h hne
  exact parse_trees (run_of_out skip_uniform skip_exact' rfl rfl ho) ht

/-! ## Printing -/

omit [F64 F] in
theorem getVec_collect (fs : List (Fix (Point F))) (m : IsecMap F) (d : Str) :
    MultiMap.getVec (fs.foldl (fun (m : IsecMap F) f => MultiMap.insert m f.designator f) m) d =
      MultiMap.getVec m d ++ fs.filter fun f => f.designator = d := by
  rw [MultiMap.getVec_foldl_insert fs (fun f => f.designator) (fun f => f) m d]
  simp

/-- The line that is printed for a fix. -/
def wptOf (show6 : F → Str) (f : Fix (Point F)) : Wpt :=
  ⟨f.designator, show6 f.coordinate.y, show6 f.coordinate.x⟩

omit [F64 F] in
theorem isSpaces_pad (w : Nat) (s : Str) : ∃ b, padLeft w s = b ++ s ∧ IsSpaces b :=
  ⟨_, rfl, fun _ hc => Or.inl (List.eq_of_mem_replicate hc)⟩

omit [F64 F] in
theorem isFile_lines (show6 : F → Str) (l : List (Fix (Point F)))
    (hl : ∀ f ∈ l, IsDesignator f.designator ∧ IsCoord (show6 f.coordinate.x) ∧
      IsCoord (show6 f.coordinate.y)) :
    IsFile (l.flatMap (showLine show6)) (l.map (wptOf show6)) := by
  induction l with
  | nil => exact .last [] ⟨[], [], rfl, by simp [IsSpaces], Or.inl rfl⟩
  | cons f l ih =>
    obtain ⟨h1, h2, h3⟩ := hl f List.mem_cons_self
    obtain ⟨p1, e1, s1⟩ := isSpaces_pad 10 (show6 f.coordinate.y)
    obtain ⟨p2, e2, s2⟩ := isSpaces_pad 11 (show6 f.coordinate.x)
    have tab : ∀ {b : Str}, IsSpaces b → IsSpaces ('\t' :: b) := by
      intro b hb c hc
      rcases List.mem_cons.1 hc with rfl | hc
      · exact Or.inr rfl
      · exact hb c hc
    have := IsFile.line (wptOf show6 f) (f.designator ++ ('\t' :: p1) ++ show6 f.coordinate.y ++
        ('\t' :: p2) ++ show6 f.coordinate.x ++ ['\t'] ++ c!"15") ['\n'] (l.flatMap (showLine show6))
      (l.map (wptOf show6))
      ⟨[], '\t' :: p1, '\t' :: p2, ['\t'], [], by simp [wptOf], h1, h3, h2, by simp [IsSpaces], tab s1,
        tab s2, tab (by simp [IsSpaces]), ⟨[], [], rfl, by simp [IsSpaces], Or.inl rfl⟩, by simp, by simp,
        by simp⟩ (Or.inl rfl) (ih fun g hg => hl g (List.mem_cons_of_mem _ hg))
    simpa [showLine, e1, e2] using this

omit [F64 F] in
theorem mem_sortedFixes {le : Str → Str → Bool} {m : IsecMap F} {f : Fix (Point F)}
    (h : f ∈ sortedFixes le m) : ∃ e ∈ m, f ∈ e.2 := by
  simp only [sortedFixes, List.mem_map, List.mem_mergeSort, List.mem_flatMap] at h
  obtain ⟨p, ⟨e, he, g, hg, rfl⟩, rfl⟩ := h
  exact ⟨e, he, hg⟩

omit [F64 F] in
theorem sortedFixes_ne (le : Str → Str → Bool) {m : IsecMap F} {e : Str × List (Fix (Point F))}
    (he : e ∈ m) (h : e.2 ≠ []) : sortedFixes le m ≠ [] := by
  intro h0
  have := congrArg List.length h0
  simp only [sortedFixes, List.length_map, List.length_mergeSort, List.length_nil,
    List.length_eq_zero_iff, List.flatMap_eq_nil_iff] at this
  have h2 := this e he
  simp at h2
  exact h h2

/-- Sorting by key does not reorder entries with the same key. -/
theorem filter_mergeSort {A : Type} (le : Str → Str → Bool)
    (hle : ∀ a b c, le a b = true → le b c = true → le a c = true)
    (htot : ∀ a b, (le a b || le b a) = true) (l : List (Str × A)) (d : Str) :
    (l.mergeSort fun a b => le a.1 b.1).filter (fun e => e.1 = d) = l.filter fun e => e.1 = d := by
  have hrefl : ∀ a, le a a = true := fun a => by simpa using htot a a
  have hpw : (l.filter fun e => e.1 = d).Pairwise (fun a b => le a.1 b.1 = true) := by
    refine List.Pairwise.imp_of_mem (R := fun _ _ => True) ?_ (List.pairwise_of_forall fun _ _ => trivial)
    intro a b ha hb _
    simp only [List.mem_filter, decide_eq_true_eq] at ha hb
    rw [ha.2, hb.2]
    exact hrefl d
  have hsub := List.sublist_mergeSort (le := fun a b : Str × A => le a.1 b.1)
    (fun a b c => hle a.1 b.1 c.1) (fun a b => htot a.1 b.1) hpw List.filter_sublist
  have h2 := hsub.filter (fun e => e.1 = d)
  rw [List.filter_filter] at h2
  simp only [Bool.and_self] at h2
  refine (h2.eq_of_length ?_).symm
  exact ((List.mergeSort_perm l _).filter _).length_eq.symm

omit [F64 F] in
theorem filter_sortedFixes (le : Str → Str → Bool)
    (hle : ∀ a b c, le a b = true → le b c = true → le a c = true)
    (htot : ∀ a b, (le a b || le b a) = true) {m : IsecMap F} (hn : (Map.keys m).Nodup)
    (hk : ∀ e ∈ m, ∀ f ∈ e.2, f.designator = e.1) (d : Str) :
    (sortedFixes le m).filter (fun f => f.designator = d) = MultiMap.getVec m d := by
  have h1 : (sortedFixes le m).filter (fun f => f.designator = d) =
      (((m.flatMap fun e => e.2.map fun f => (e.1, f)).mergeSort fun a b => le a.1 b.1).filter
        fun e => e.1 = d).map (·.2) := by
    rw [sortedFixes, List.filter_map]
    congr 1
    refine List.filter_congr ?_
    intro p hp
    simp only [List.mem_mergeSort, List.mem_flatMap, List.mem_map] at hp
    obtain ⟨e, he, f, hf, rfl⟩ := hp
    simp [hk e he f hf]
  rw [h1, filter_mergeSort le hle htot]
  clear h1
  induction m with
  | nil => rfl
  | cons e m ih =>
    obtain ⟨k, v⟩ := e
    have hn' : (Map.keys m).Nodup ∧ k ∉ Map.keys m := by
      simp only [Map.keys, List.map_cons, List.nodup_cons] at hn
      exact ⟨hn.2, hn.1⟩
    have ih' := ih hn'.1 fun e he => hk e (List.mem_cons_of_mem _ he)
    rw [List.flatMap_cons, List.filter_append, List.map_append, ih']
    by_cases hd : k = d
    · subst hd
      have : MultiMap.getVec m k = [] := by
        unfold MultiMap.getVec
        rw [Map.get?_eq_none_iff.2 hn'.2]
        rfl
      rw [this]
      have e2 : MultiMap.getVec ((k, v) :: m) k = v := by simp [MultiMap.getVec, Map.get?]
      rw [e2, List.filter_eq_self.2]
      · simp [Function.comp_def]
      · intro p hp
        obtain ⟨f, _, rfl⟩ := List.mem_map.1 hp
        simp
    · have e2 : MultiMap.getVec ((k, v) :: m) d = MultiMap.getVec m d := by
        simp [MultiMap.getVec, Map.get?, hd]
      rw [e2, List.filter_eq_nil_iff.2]
      · rfl
      · intro p hp
        obtain ⟨f, _, rfl⟩ := List.mem_map.1 hp
        simpa using hd

omit [F64 F] in
theorem collect_wf (fs : List (Fix (Point F))) :
    (Map.keys (collect fs)).Nodup ∧ (∀ e ∈ collect fs, ∀ f ∈ e.2, f.designator = e.1 ∧ f ∈ fs) := by
  have gen : ∀ (fs : List (Fix (Point F))) (m : IsecMap F), (Map.keys m).Nodup →
      (Map.keys (fs.foldl (fun (m : IsecMap F) f => MultiMap.insert m f.designator f) m)).Nodup := by
    intro fs
    induction fs with
    | nil => intro m h; exact h
    | cons f fs ih => intro m h; exact ih _ (Map.nodup_insert h _ _)
  have hn : (Map.keys (collect fs)).Nodup := gen fs [] List.nodup_nil
  refine ⟨hn, ?_⟩
  intro e he f hf
  have h1 : MultiMap.getVec (collect fs) e.1 = e.2 := by
    unfold MultiMap.getVec
    rw [Map.get?_of_mem hn (v := e.2) he]
    rfl
  have h2 := getVec_collect fs [] e.1
  rw [show fs.foldl (fun (m : IsecMap F) f => MultiMap.insert m f.designator f) [] = collect fs from rfl, h1]
    at h2
  rw [h2] at hf
  simp only [MultiMap.getVec, Map.get?_nil, Option.getD_none, List.nil_append, List.mem_filter,
    decide_eq_true_eq] at hf
  exact ⟨hf.2, hf.1⟩

theorem isFile_designators {content : Str} {ws : List Wpt} (h : IsFile content ws) :
    ∀ w ∈ ws, IsDesignator w.designator := by
  induction h with
  | last => simp
  | blank _ _ _ _ _ _ _ ih => exact ih
  | line w t nl rest ws hl _ _ ih =>
    intro v hv
    rcases List.mem_cons.1 hv with rfl | hv
    · obtain ⟨_, _, _, _, _, _, h, _⟩ := hl
      exact h
    · exact ih v hv

end Verif.Parse.Isec
