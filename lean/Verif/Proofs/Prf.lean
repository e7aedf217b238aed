import Verif.Parse.Prf
import Verif.Peg.Lines
import Verif.Spec.Prf
/-!
# Lemmas about `Prf::parse`
-/

namespace Verif.Parse.Prf
open Verif.Peg Verif.Peg.Prf Verif.Spec.Prf

set_option linter.unusedSectionVars false

variable [UnicodeTables]

/-- What the skip of this grammar consumes. -/
abbrev K : Str → Str → Prop := Blank [WHITESPACE]

theorem skip_ok : SkipOK K skip := skipOne_ok rfl

theorem like_ws : LikeCls noSkip NoGap WHITESPACE .atomic isSpTab :=
  (likeCls_spTab .atomic uniform_noSkip).quiet

theorem skip_uniform : Uniform skip := uniform_skipOne rfl

theorem skip_exact' : SkipExact K skip := skipOne_exact rfl rfl

theorem K_iff (m r : Str) : K m r ↔ (∀ c ∈ m, isSpTab c = true) ∧ HeadNot isSpTab r :=
  blank1_iff like_ws m r

theorem K_nil : KNil K := fun _ _ h => (K_iff _ _).2 ⟨by simp, ((K_iff _ _).1 h).2⟩

theorem letter_false {c : Char} (h : c.toNat < 128) (h1 : (isAsciiUpper c || isAsciiLower c) = false) :
    UnicodeTables.letter c = false := by rw [UnicodeTables.letter_ascii c h, h1]

theorem gap_void {c : Char} (h : isGapChar c = true) : isVoidChar c = true := by
  simp only [isGapChar, isVoidChar, Bool.or_eq_true] at *
  exact Or.inl h

theorem isSpTab_eq (c : Char) : isSpTab c = isGapChar c := rfl

/-! ## Specification side -/

theorem isFile_char {c : Char} {r : Str} {ws : List Setting} (hc : isVoidChar c = true)
    (h : IsFile r ws) : IsFile (c :: r) ws := by
  have cons : ∀ {b : Str}, (∀ d ∈ b, isVoidChar d = true) → ∀ d ∈ c :: b, isVoidChar d = true := by
    intro b hb d hd
    rcases List.mem_cons.1 hd with rfl | hd
    · exact hc
    · exact hb d hd
  have line : ∀ {w t}, IsLine w t → IsLine w (c :: t) := by
    rintro w t ⟨b0, b1, b2, rfl, h0, h⟩
    exact ⟨c :: b0, b1, b2, by simp, cons h0, h⟩
  cases h with
  | last b hb => exact .last _ (cons hb)
  | lastLine w t hl => exact .lastLine w _ (line hl)
  | blank b rest ws hb hf => exact .blank (c :: b) rest ws (cons hb) hf
  | line w t rest ws hl hf => exact .line w (c :: t) rest ws (line hl) hf

theorem isFile_void {v r : Str} {ws : List Setting}
    (hv : ∀ c ∈ v, (isVoidChar c || c == '\n') = true) (h : IsFile r ws) : IsFile (v ++ r) ws := by
  induction v with
  | nil => exact h
  | cons c v ih =>
    have ih := ih fun d hd => hv d (List.mem_cons_of_mem _ hd)
    have := hv c List.mem_cons_self
    simp only [Bool.or_eq_true, beq_iff_eq] at this
    rcases this with hc | rfl
    · exact isFile_char hc ih
    · exact .blank [] (v ++ r) ws (by simp) ih

/-! ## Token rules -/

theorem like_key (a : Atom) : LikeCls skip K
    ((.cls UnicodeTables.letter) ∥ (.cls isAsciiDigit) ∥ (.str c!"_")) a isKeyChar :=
  ((likeCls_cls _ a).alt ((likeCls_cls _ a).alt (likeCls_char '_' a) (uniform_eval skip_uniform _ rfl a))
    (uniform_eval skip_uniform _ rfl a)).congr fun c => by simp [isKeyChar, Bool.or_assoc]

theorem like_value {a : Atom} (ha : a ≠ .nonAtomic) : LikeCls skip K ((.not (.str ['\n'])) ⬝ .any) a
    (fun c => !(c == '\n')) :=
  likeCls_not_any ha (fun c r pos stk h => by simp [eval, List.isPrefixOf] at h ⊢; exact fun e => h e.symm)
    (fun c r pos stk h => by simp at h; subst h; simp [eval, List.isPrefixOf])
    (Or.inl (fails_str.2 (by simp)))

theorem out_category {s r : Str} {ts : List (Tree Rule)} :
    Out skip K category .nonAtomic s r ts ↔ s ≠ [] ∧ (∀ c ∈ s, UnicodeTables.letter c = true) ∧
      HeadNot UnicodeTables.letter r ∧ ts = [.node .category s []] := by
  show (∃ kids, Out skip K _ .atomic s r kids ∧ _) ↔ _
  simp only [(likeCls_cls (sk := skip) (K := K) UnicodeTables.letter .atomic).plus (by simp)]
  constructor
  · rintro ⟨kids, ⟨h1, h2, h3, rfl⟩, rfl⟩; exact ⟨h1, h2, h3, by simp [emits]⟩
  · rintro ⟨h1, h2, h3, rfl⟩; exact ⟨[], ⟨h1, h2, h3, rfl⟩, by simp [emits]⟩

theorem out_key {s r : Str} {ts : List (Tree Rule)} :
    Out skip K key .nonAtomic s r ts ↔ s ≠ [] ∧ (∀ c ∈ s, isKeyChar c = true) ∧
      HeadNot isKeyChar r ∧ ts = [.node .key s []] := by
  show (∃ kids, Out skip K _ .atomic s r kids ∧ _) ↔ _
  simp only [(like_key .atomic).plus (by simp)]
  constructor
  · rintro ⟨kids, ⟨h1, h2, h3, rfl⟩, rfl⟩; exact ⟨h1, h2, h3, by simp [emits]⟩
  · rintro ⟨h1, h2, h3, rfl⟩; exact ⟨[], ⟨h1, h2, h3, rfl⟩, by simp [emits]⟩

theorem out_value {s r : Str} {ts : List (Tree Rule)} :
    Out skip K value .nonAtomic s r ts ↔ s ≠ [] ∧ (∀ c ∈ s, c ≠ '\n') ∧
      HeadNot (fun c => !(c == '\n')) r ∧ ts = [.node .value s []] := by
  show (∃ kids, Out skip K _ .atomic s r kids ∧ _) ↔ _
  simp only [(like_value (a := .atomic) (by simp)).plus (by simp)]
  constructor
  · rintro ⟨kids, ⟨h1, h2, h3, rfl⟩, rfl⟩; exact ⟨h1, by simpa using h2, h3, by simp [emits]⟩
  · rintro ⟨h1, h2, h3, rfl⟩; exact ⟨[], ⟨h1, by simpa using h2, h3, rfl⟩, by simp [emits]⟩

/-! ## From the parse tree -/

theorem newline_void {s r : Str} (h : LineEnd s r) : ∀ c ∈ s, (isVoidChar c || c == '\n') = true := by
  rcases h with rfl | rfl | ⟨rfl, _⟩ <;> decide

theorem gaps_void {m : Str} (h : ∀ c ∈ m, isSpTab c = true) : ∀ c ∈ m, (isVoidChar c || c == '\n') = true := by
  intro c hc
  have := gap_void (isSpTab_eq c ▸ h c hc)
  simp [this]

theorem sound_NL {s r : Str} {ts : List (Tree Rule)} (h : Out skip K NL .nonAtomic s r ts) :
    ts = [] ∧ ∃ s1 s2, s = s1 ++ s2 ∧ LineEnd s1 (s2 ++ r) ∧ ∀ c ∈ s2, (isVoidChar c || c == '\n') = true := by
  obtain ⟨s1, t1, m, s2, t2, rfl, rfl, h1, hg, h2, h3⟩ :=
    out_plus_ind h (fun s ts => ts = [] ∧ ∀ c ∈ s, (isVoidChar c || c == '\n') = true) ⟨rfl, by simp⟩ (by
      rintro m s ts s' ts' hg ho ⟨rfl, h2⟩
      obtain ⟨hn, rfl⟩ := out_newline_iff.1 ho
      refine ⟨rfl, fun c hc => ?_⟩
      rcases List.mem_append.1 hc with hc | hc
      · rcases List.mem_append.1 hc with hc | hc
        · rcases hg with rfl | hg
          · cases hc
          · exact gaps_void ((K_iff _ _).1 hg).1 c hc
        · exact newline_void hn c hc
      · exact h2 c hc)
  obtain ⟨hn, rfl⟩ := out_newline_iff.1 h1
  refine ⟨by rw [h2]; rfl, s1, m ++ s2, by simp, by simpa using hn, fun c hc => ?_⟩
  rcases List.mem_append.1 hc with hc | hc
  · exact gaps_void ((K_iff _ _).1 hg).1 c hc
  · exact h3 c hc

/-- The tree of a setting line. -/
def IsTree (w : Setting) (t : Tree Rule) : Prop :=
  ∃ s, t = .node .setting s [.node .category w.category [], .node .key w.key [], .node .value w.value []]

theorem sound_setting {s r : Str} {ts : List (Tree Rule)} {ws : List Setting}
    (h : Out skip K setting .nonAtomic s r ts) (hr : IsFile r ws) (hr0 : r = [] → ws = []) :
    ∃ w t, ts = [t] ∧ IsTree w t ∧ IsFile (s ++ r) (w :: ws) := by
  obtain ⟨kids, ⟨cat, m1, u1, t1, t2, hs, hg1, h1, ⟨ky, m2, u2, t3, t4, rfl, hg2, h2,
    ⟨val, m3, u3, t5, t6, rfl, hg3, h3, h4, rfl⟩, rfl⟩, rfl⟩, rfl⟩ := h
  obtain ⟨c1, c2, c3, rfl⟩ := out_category.1 h1
  obtain ⟨k1, k2, k3, rfl⟩ := out_key.1 h2
  obtain ⟨v1, v2, v3, rfl⟩ := out_value.1 h3
  replace hg1 := (K_iff _ _).1 hg1
  replace hg2 := (K_iff _ _).1 hg2
  replace hg3 := (K_iff _ _).1 hg3
  have hline : IsLine ⟨cat, ky, val⟩ (cat ++ m1 ++ ky ++ m2 ++ val) := by
    refine ⟨[], m1, m2, by simp, by simp, hg1.1, hg2.1, c1, c2, k1, k2, v1, v2, ?_, ?_, ?_⟩
    · intro c hc
      refine hg2.2 c ?_
      cases val with
      | nil => exact absurd rfl v1
      | cons d v => simpa using hc
    · rintro rfl c hc
      refine c3 c ?_
      cases ky with
      | nil => exact absurd rfl k1
      | cons d v => simpa using hc
    · rintro rfl c hc
      refine k3 c ?_
      cases val with
      | nil => exact absurd rfl v1
      | cons d v => simpa using hc
  have hm3 : m3 = [] := by
    cases m3 with
    | nil => rfl
    | cons c m3 =>
      have h5 := headNot_cons.1 (show HeadNot _ (c :: (m3 ++ (u3 ++ r))) by simpa using v3)
      have h6 := hg3.1 c List.mem_cons_self
      simp only [Bool.not_eq_false', beq_iff_eq] at h5
      subst h5
      exact absurd h6 (by decide)
  subst hm3
  rcases h4 with h4 | ⟨rfl, rfl, h4⟩
  · obtain ⟨rfl, s1, s2, rfl, h5, h6⟩ := sound_NL h4
    have : s1 = ['\n'] := by
      rcases h5 with rfl | rfl | ⟨rfl, _⟩
      · rfl
      · have := headNot_cons.1 (show HeadNot _ ('\r' :: ('\n' :: (s2 ++ r))) by simpa using v3)
        revert this; decide
      · have := headNot_cons.1 (show HeadNot _ ('\r' :: (s2 ++ r)) by simpa using v3)
        revert this; decide
    subst this
    refine ⟨⟨cat, ky, val⟩, _, rfl, ⟨s, by simp⟩, ?_⟩
    have := IsFile.line ⟨cat, ky, val⟩ _ (s2 ++ r) ws hline (isFile_void h6 hr)
    rw [hs]
    simpa using this
  · refine ⟨⟨cat, ky, val⟩, _, rfl, ⟨s, by simp⟩, ?_⟩
    have hre : r = [] := by
      have h5 : Fails skip (.plus .newline) .nonAtomic r := h4
      have h6 : HeadNot isNewlineChar r := by
        obtain ⟨pos, stk, h5⟩ := h5
        rw [← fails_newline (sk := skip) (a := .nonAtomic)]
        have := (fails_seq_iff skip_ok (eval_star_ok skip_ok (x := .newline) rfl .nonAtomic)).1 ⟨pos, stk, h5⟩
        exact this
      cases r with
      | nil => rfl
      | cons c r =>
        have h7 := headNot_cons.1 h6
        have h8 := headNot_cons.1 (show HeadNot _ (c :: r) by simpa using v3)
        simp only [Bool.not_eq_false', beq_iff_eq] at h8
        subst h8
        exact absurd h7 (by decide)
    rw [hr0 hre, hs, hre]
    simpa using IsFile.lastLine _ _ hline

/-- A list of trees is the setting trees of `ws`. -/
def AreTrees : List Setting → List (Tree Rule) → Prop
  | [], ts => ts = []
  | w :: ws, ts => ∃ t ts', ts = t :: ts' ∧ IsTree w t ∧ AreTrees ws ts'

theorem sound_prf {content : Str} {ts : List (Tree Rule)} (h : Out skip K prf .nonAtomic content [] ts) :
    ∃ ws trees, ws ≠ [] ∧ ts = [.node .prf content (trees ++ [.node .EOI [] []])] ∧
      AreTrees ws trees ∧ IsFile content ws := by
  obtain ⟨kids, ⟨_, m1, u1, t1, t2, hs, hg1, ⟨rfl, rfl⟩, ⟨nl, m2, u2, t3, t4, rfl, hg2, h2,
    ⟨wt, m3, u3, t5, t6, rfl, hg3, h3, ⟨rfl, _, rfl⟩, rfl⟩, rfl⟩, rfl⟩, rfl⟩ := h
  replace hg1 := (K_iff _ _).1 hg1
  replace hg2 := (K_iff _ _).1 hg2
  replace hg3 := (K_iff _ _).1 hg3
  have hw : ∃ ws, ws ≠ [] ∧ AreTrees ws t5 ∧ IsFile (wt ++ (m3 ++ [])) ws := by
    obtain ⟨s1, t1, m4, s2, t2, rfl, rfl, h5, hg4, ws, h8, h9, h10⟩ :=
      out_plus_ind h3 (fun s ts => ∃ ws, AreTrees ws ts ∧ IsFile (s ++ (m3 ++ [])) ws ∧
          (s ++ (m3 ++ []) = [] → ws = []))
        ⟨[], rfl, by simpa using IsFile.last _ (fun c hc => gap_void (hg3.1 c hc)), by simp⟩ (by
        rintro m s ts s' ts' hg ho ⟨ws, h8, h9, h10⟩
        obtain ⟨x, y, rfl, hx, hf3⟩ := sound_setting ho h9 h10
        have hne : s ≠ [] := by
          rintro rfl
          obtain ⟨_, ⟨cat, _, _, _, _, e, _, hc, _⟩, _⟩ := ho
          have := (out_category.1 hc).1
          simp at e
          exact this e.1
        refine ⟨x :: ws, ⟨y, _, rfl, hx, h8⟩, ?_, ?_⟩
        · rcases hg with rfl | hg
          · simpa using hf3
          · have := isFile_void (gaps_void ((K_iff _ _).1 hg).1) hf3
            simpa using this
        · intro e
          simp at e
          exact absurd e.2.1 hne)
    have hx : IsFile (m4 ++ (s2 ++ (m3 ++ []))) ws := isFile_void (gaps_void ((K_iff _ _).1 hg4).1) h9
    obtain ⟨w, t, rfl, hw1, hf1⟩ := sound_setting h5 hx (by
      intro e
      simp only [List.append_eq_nil_iff] at e
      exact h10 (by simp [e]))
    exact ⟨w :: ws, by simp, ⟨t, _, rfl, hw1, h8⟩, by simpa using hf1⟩
  obtain ⟨ws, hne, hw1, hw2⟩ := hw
  have hf : t3 = [] ∧ IsFile (nl ++ (m2 ++ (wt ++ (m3 ++ [])))) ws := by
    have hp := isFile_void (gaps_void hg2.1) hw2
    rcases h2 with h2 | ⟨rfl, rfl, _⟩
    · obtain ⟨rfl, n, t, rfl, h4, h5⟩ := sound_NL h2
      refine ⟨rfl, ?_⟩
      have := isFile_void (newline_void h4) (isFile_void h5 hp)
      simpa using this
    · exact ⟨rfl, by simpa using hp⟩
  obtain ⟨rfl, hf⟩ := hf
  refine ⟨ws, t5, hne, by simp [emits], hw1, ?_⟩
  rw [hs]
  simpa using isFile_void (gaps_void hg1.1) hf

/-! ## To the parse tree -/

/-- No void character and no line feed. -/
def Solid (c : Char) : Prop := isVoidChar c = false ∧ c ≠ '\n'

theorem letter_solid {c : Char} (h : UnicodeTables.letter c = true) : Solid c := by
  have key : ∀ d : Char, d.toNat < 128 → (isAsciiUpper d || isAsciiLower d) = false → c ≠ d := by
    rintro d h1 h2 rfl
    rw [letter_false h1 h2] at h; cases h
  simp [Solid, isVoidChar, key ' ' (by decide) (by decide), key '\t' (by decide) (by decide),
    key '\r' (by decide) (by decide), key '\n' (by decide) (by decide)]

theorem solid_gap {c : Char} (h : Solid c) : isSpTab c = false := by
  have := h.1
  simp only [isVoidChar, Bool.or_eq_false_iff] at this
  simp [isSpTab, this]

theorem solid_newline {c : Char} (h : Solid c) : isNewlineChar c = false := by
  have := h.1
  simp only [isVoidChar, Bool.or_eq_false_iff, beq_eq_false_iff_ne] at this
  simp [isNewlineChar, this, h.2]

/-- Text of void characters and line feeds is blank lines and a gap. -/
theorem void_split (n : Nat) : ∀ (v r : Str), v.length ≤ n →
    (∀ c ∈ v, (isVoidChar c || c == '\n') = true) → (∀ c, r.head? = some c → Solid c) →
    ∃ (bs : List (Str × Str)) (b : Str), v = bs.flatMap (fun p => p.1 ++ p.2) ++ b ∧
      BlankLines K bs (b ++ r) ∧ K b r := by
  induction n with
  | zero =>
    intro v r hn hv hr
    have : v = [] := List.length_eq_zero_iff.1 (by omega)
    subst this
    exact ⟨[], [], rfl, trivial, (K_iff _ _).2 ⟨by simp, fun c hc => solid_gap (hr c hc)⟩⟩
  | succ n ih =>
    intro v r hn hv hr
    cases v with
    | nil => exact ⟨[], [], rfl, trivial, (K_iff _ _).2 ⟨by simp, fun c hc => solid_gap (hr c hc)⟩⟩
    | cons c v =>
      have hc := hv c List.mem_cons_self
      have hv' : ∀ d ∈ v, (isVoidChar d || d == '\n') = true := fun d hd => hv d (List.mem_cons_of_mem _ hd)
      obtain ⟨bs, b, e, h1, h2⟩ := ih v r (by simpa using hn) hv' hr
      by_cases hg : isSpTab c = true
      · -- a blank joins the first gap
        cases bs with
        | nil =>
          simp only [List.flatMap_nil, List.nil_append] at e
          subst e
          refine ⟨[], c :: v, rfl, trivial, (K_iff _ _).2 ⟨?_, ((K_iff _ _).1 h2).2⟩⟩
          intro d hd
          rcases List.mem_cons.1 hd with rfl | hd
          · exact hg
          · exact ((K_iff _ _).1 h2).1 d hd
        | cons p bs =>
          refine ⟨(c :: p.1, p.2) :: bs, b, by simp [e], ⟨⟨?_, h1.1.2⟩, h1.2⟩, h2⟩
          have h3 := (K_iff _ _).1 h1.1.1
          refine (K_iff _ _).2 ⟨?_, h3.2⟩
          intro d hd
          rcases List.mem_cons.1 hd with rfl | hd
          · exact hg
          · exact h3.1 d hd
      · have hcc : c = '\r' ∨ c = '\n' := by
          simp only [isVoidChar, Bool.or_eq_true, beq_iff_eq] at hc
          simp only [isSpTab, Bool.or_eq_true, beq_iff_eq] at hg
          rcases hc with (h | h) | h
          · exact absurd h hg
          · exact Or.inl h
          · exact Or.inr h
        have nogap : ∀ (x : Str), K [] (c :: x) := by
          intro x
          refine (K_iff _ _).2 ⟨by simp, headNot_cons.2 (by rcases hcc with rfl | rfl <;> decide)⟩
        rcases hcc with rfl | rfl
        · by_cases hn2 : (v ++ r).head? = some '\n'
          · -- CR LF
            cases v with
            | nil =>
              have := hr '\n' (by simpa using hn2)
              exact absurd rfl this.2
            | cons d v =>
              have : d = '\n' := by simpa using hn2
              subst this
              obtain ⟨bs, b, e, h1, h2⟩ := ih v r (by simp at hn; omega)
                (fun d hd => hv' d (List.mem_cons_of_mem _ hd)) hr
              exact ⟨([], ['\r', '\n']) :: bs, b, by simp [e], ⟨⟨nogap _, Or.inr (Or.inl rfl)⟩, h1⟩, h2⟩
          · refine ⟨([], ['\r']) :: bs, b, by simp [e], ⟨⟨nogap _, Or.inr (Or.inr ⟨rfl, ?_⟩)⟩, h1⟩, h2⟩
            rw [← List.append_assoc, ← e]
            exact hn2
        · exact ⟨([], ['\n']) :: bs, b, by simp [e], ⟨⟨nogap _, Or.inl rfl⟩, h1⟩, h2⟩

/-- A file is void text, then the end or a setting. -/
theorem isFile_norm {content : Str} {ws : List Setting} (h : IsFile content ws) :
    ∃ v r, content = v ++ r ∧ (∀ c ∈ v, (isVoidChar c || c == '\n') = true) ∧
      (∀ c, r.head? = some c → Solid c) ∧
      ((ws = [] ∧ r = []) ∨ ∃ w ws' t tail, ws = w :: ws' ∧ r = t ++ tail ∧
        (∃ b1 b2, t = w.category ++ b1 ++ w.key ++ b2 ++ w.value ∧
          (∀ c ∈ b1, isGapChar c = true) ∧ (∀ c ∈ b2, isGapChar c = true) ∧
          w.category ≠ [] ∧ (∀ c ∈ w.category, UnicodeTables.letter c = true) ∧
          w.key ≠ [] ∧ (∀ c ∈ w.key, isKeyChar c = true) ∧
          w.value ≠ [] ∧ (∀ c ∈ w.value, c ≠ '\n') ∧
          (∀ c, w.value.head? = some c → isGapChar c = false) ∧
          (b1 = [] → ∀ c, w.key.head? = some c → UnicodeTables.letter c = false) ∧
          (b2 = [] → ∀ c, w.value.head? = some c → isKeyChar c = false)) ∧
        ((tail = [] ∧ ws' = []) ∨ ∃ rest, tail = '\n' :: rest ∧ IsFile rest ws')) := by
  have void : ∀ {b : Str}, (∀ c ∈ b, isVoidChar c = true) → ∀ c ∈ b, (isVoidChar c || c == '\n') = true := by
    intro b hb c hc
    simp [hb c hc]
  have hsolid : ∀ {w : Setting} {x : Str}, w.category ≠ [] → (∀ c ∈ w.category, UnicodeTables.letter c = true) →
      ∀ c, (w.category ++ x).head? = some c → Solid c := by
    intro w x h1 h2 c hc
    cases hw : w.category with
    | nil => exact absurd hw h1
    | cons d cs =>
      rw [hw] at hc
      have : d = c := by simpa using hc
      subst this
      exact letter_solid (h2 d (by simp [hw]))
  induction h with
  | last b hb => exact ⟨b, [], by simp, void hb, by simp, Or.inl ⟨rfl, rfl⟩⟩
  | lastLine w t hl =>
    obtain ⟨b0, b1, b2, rfl, h0, h1, h2, h3, h4, h5⟩ := hl
    exact ⟨b0, w.category ++ b1 ++ w.key ++ b2 ++ w.value, by simp, void h0,
      by simpa using hsolid (x := b1 ++ (w.key ++ (b2 ++ w.value))) h3 h4,
      Or.inr ⟨w, [], _, [], rfl, by simp, ⟨b1, b2, rfl, h1, h2, h3, h4, h5⟩, Or.inl ⟨rfl, rfl⟩⟩⟩
  | blank b rest ws hb hf ih =>
    obtain ⟨v, r, rfl, h1, h2⟩ := ih
    refine ⟨b ++ '\n' :: v, r, by simp, ?_, h2⟩
    intro c hc
    rcases List.mem_append.1 hc with hc | hc
    · exact void hb c hc
    · rcases List.mem_cons.1 hc with rfl | hc
      · decide
      · exact h1 c hc
  | line w t rest ws hl hf ih =>
    obtain ⟨b0, b1, b2, rfl, h0, h1, h2, h3, h4, h5⟩ := hl
    exact ⟨b0, w.category ++ b1 ++ w.key ++ b2 ++ w.value ++ '\n' :: rest, by simp, void h0,
      by simpa using hsolid (x := b1 ++ (w.key ++ (b2 ++ (w.value ++ '\n' :: rest)))) h3 h4,
      Or.inr ⟨w, ws, _, '\n' :: rest, rfl, rfl, ⟨b1, b2, rfl, h1, h2, h3, h4, h5⟩, Or.inr ⟨rest, rfl, hf⟩⟩⟩

theorem complete_setting {w : Setting} {b1 b2 s r : Str} (h1 : ∀ c ∈ b1, isGapChar c = true)
    (h2 : ∀ c ∈ b2, isGapChar c = true) (h3 : w.category ≠ [])
    (h4 : ∀ c ∈ w.category, UnicodeTables.letter c = true) (h5 : w.key ≠ [])
    (h6 : ∀ c ∈ w.key, isKeyChar c = true) (h7 : w.value ≠ []) (h8 : ∀ c ∈ w.value, c ≠ '\n')
    (h9 : ∀ c, w.value.head? = some c → isGapChar c = false)
    (h10 : b1 = [] → ∀ c, w.key.head? = some c → UnicodeTables.letter c = false)
    (h11 : b2 = [] → ∀ c, w.value.head? = some c → isKeyChar c = false)
    (ho : Out skip K (.opt NL) .nonAtomic s r []) (hs : s ++ r = [] ∨ ∃ x, s ++ r = '\n' :: x) :
    ∃ t, IsTree w t ∧ Out skip K setting .nonAtomic
      (w.category ++ b1 ++ w.key ++ b2 ++ w.value ++ s) r [t] := by
  have hgap : ∀ {p : Char → Bool} {b t : Str}, (∀ c ∈ b, isGapChar c = true) → b ≠ [] → p ' ' = false →
      p '\t' = false → HeadNot p (b ++ t) := by
    intro p b t h1 h2 h3 h4
    cases b with
    | nil => exact absurd rfl h2
    | cons c b =>
      refine headNot_cons.2 ?_
      have := h1 c List.mem_cons_self
      simp only [isGapChar, Bool.or_eq_true, beq_iff_eq] at this
      rcases this with rfl | rfl
      · exact h3
      · exact h4
  have hkeych : ∀ {c : Char}, isKeyChar c = true → isSpTab c = false := by
    intro c hc
    simp only [isKeyChar, Bool.or_eq_true, beq_iff_eq] at hc
    rcases hc with (hc | hc) | rfl
    · exact solid_gap (letter_solid hc)
    · cases h : isSpTab c with
      | false => rfl
      | true =>
        simp only [isSpTab, Bool.or_eq_true, beq_iff_eq] at h
        rcases h with rfl | rfl <;> revert hc <;> decide
    · decide
  have nl1 : UnicodeTables.letter ' ' = false := letter_false (by decide) (by decide)
  have nl2 : UnicodeTables.letter '\t' = false := letter_false (by decide) (by decide)
  have nk1 : isKeyChar ' ' = false := by simp [isKeyChar, nl1]; decide
  have nk2 : isKeyChar '\t' = false := by simp [isKeyChar, nl2]; decide
  obtain ⟨kc, kt, hk⟩ : ∃ c t, w.key = c :: t := by
    cases hk : w.key with
    | nil => exact absurd hk h5
    | cons c t => exact ⟨c, t, rfl⟩
  obtain ⟨vc, vt, hv⟩ : ∃ c t, w.value = c :: t := by
    cases hk : w.value with
    | nil => exact absurd hk h7
    | cons c t => exact ⟨c, t, rfl⟩
  refine ⟨.node .setting (w.category ++ b1 ++ w.key ++ b2 ++ w.value ++ s) [.node .category w.category [],
      .node .key w.key [], .node .value w.value []], ⟨_, rfl⟩, ?_⟩
  refine ⟨[.node .category w.category [], .node .key w.key [], .node .value w.value []],
    ⟨w.category, b1, w.key ++ b2 ++ (w.value ++ s), [.node .category w.category []],
      [.node .key w.key [], .node .value w.value []], by simp, (K_iff _ _).2 ⟨h1, ?_⟩,
      out_category.2 ⟨h3, h4, ?_, rfl⟩,
      ⟨w.key, b2, w.value ++ s, [.node .key w.key []], [.node .value w.value []], rfl, (K_iff _ _).2 ⟨h2, ?_⟩,
        out_key.2 ⟨h5, h6, ?_, rfl⟩,
        ⟨w.value, [], s, [.node .value w.value []], [], by simp, (K_iff _ _).2 ⟨by simp, ?_⟩,
          out_value.2 ⟨h7, h8, ?_, rfl⟩, ho, rfl⟩, rfl⟩, rfl⟩, rfl⟩
  · rw [hk]; exact headNot_cons.2 (hkeych (h6 kc (by simp [hk])))
  · by_cases hb : b1 = []
    · subst hb
      rw [hk]
      exact headNot_cons.2 (h10 rfl kc (by simp [hk]))
    · exact hgap h1 hb nl1 nl2
  · rw [hv]; exact headNot_cons.2 (h9 vc (by simp [hv]))
  · by_cases hb : b2 = []
    · subst hb
      rw [hv]
      exact headNot_cons.2 (h11 rfl vc (by simp [hv]))
    · exact hgap h2 hb nk1 nk2
  · rcases hs with hs | ⟨x, hs⟩
    · rw [hs]; exact headNot_nil _
    · rw [hs]; exact headNot_cons.2 (by decide)
  · rcases hs with hs | ⟨x, hs⟩
    · simp [hs, headNot_nil]
    · simp [hs, headNot_cons]

theorem headNot_of_solid {r : Str} (h : ∀ c, r.head? = some c → Solid c) : HeadNot isNewlineChar r :=
  fun c hc => solid_newline (h c hc)

/-- The parts of a file that starts with a setting. -/
theorem complete_items (ws : List Setting) : ∀ (r : Str) (w : Setting) (t tail : Str), r = t ++ tail →
    (∃ b1 b2, t = w.category ++ b1 ++ w.key ++ b2 ++ w.value ∧
          (∀ c ∈ b1, isGapChar c = true) ∧ (∀ c ∈ b2, isGapChar c = true) ∧
          w.category ≠ [] ∧ (∀ c ∈ w.category, UnicodeTables.letter c = true) ∧
          w.key ≠ [] ∧ (∀ c ∈ w.key, isKeyChar c = true) ∧
          w.value ≠ [] ∧ (∀ c ∈ w.value, c ≠ '\n') ∧
          (∀ c, w.value.head? = some c → isGapChar c = false) ∧
          (b1 = [] → ∀ c, w.key.head? = some c → UnicodeTables.letter c = false) ∧
          (b2 = [] → ∀ c, w.value.head? = some c → isKeyChar c = false)) →
    ((tail = [] ∧ ws = []) ∨ ∃ rest, tail = '\n' :: rest ∧ IsFile rest ws) →
    ∃ (s1 : Str) (t1 : Tree Rule) (parts : List ((Str × Str) × List (Tree Rule))) (fin : Str),
      r = s1 ++ (partsText parts ++ fin) ∧ IsTree w t1 ∧
      Out skip K setting .nonAtomic s1 (partsText parts ++ (fin ++ [])) [t1] ∧
      Parts skip K setting parts (fin ++ []) ∧ K fin [] ∧ AreTrees ws (parts.flatMap (·.2)) := by
  induction ws with
  | nil =>
    rintro r w t tail rfl ⟨b1, b2, rfl, h1, h2, h3, h4, h5, h6, h7, h8, h9, h10, h11⟩ htail
    rcases htail with ⟨rfl, _⟩ | ⟨rest, rfl, hf⟩
    · obtain ⟨t1, ht, ho⟩ := complete_setting (s := []) (r := []) h1 h2 h3 h4 h5 h6 h7 h8 h9 h10 h11
        (Or.inr ⟨rfl, rfl, fails_plus (fails_newline.2 (headNot_nil _))⟩) (Or.inl rfl)
      exact ⟨_, t1, [], [], by simp only [partsText, List.flatMap_nil, List.append_nil]; rfl, ht,
        by simpa using ho, trivial, (K_iff _ _).2 ⟨by simp, headNot_nil _⟩, rfl⟩
    · obtain ⟨v, r, rfl, hv, hr, ⟨_, rfl⟩ | ⟨_, _, _, _, h, _⟩⟩ := isFile_norm hf
      · obtain ⟨bs, b, rfl, hb, hk⟩ := void_split _ v [] (Nat.le_refl _) hv hr
        obtain ⟨s, m, e, ho, hk2⟩ := out_newlines_build skip_uniform skip_exact' K_nil hb hk
          (headNot_nil _) (nl := ['\n']) (Or.inl rfl)
        obtain ⟨t1, ht, ho1⟩ := complete_setting (s := s) (r := m) h1 h2 h3 h4 h5 h6 h7 h8 h9 h10 h11
          (Or.inl (by rw [List.append_nil] at ho; exact ho)) (Or.inr ⟨_, by simpa using e.symm⟩)
        refine ⟨_, t1, [], m, ?_, ht, by simpa using ho1, trivial, hk2, rfl⟩
        have e' : '\n' :: (bs.flatMap (fun p => p.1 ++ p.2) ++ b) = s ++ m := by simpa using e
        simp [e']
      · cases h
  | cons w2 ws ih =>
    rintro r w t tail rfl ⟨b1, b2, rfl, h1, h2, h3, h4, h5, h6, h7, h8, h9, h10, h11⟩ htail
    rcases htail with ⟨_, h⟩ | ⟨rest, rfl, hf⟩
    · cases h
    · obtain ⟨v, r, rfl, hv, hr, ⟨h, _⟩ | ⟨w', ws', t', tail', h, hrt, hl, ht'⟩⟩ := isFile_norm hf
      · cases h
      · cases h
        obtain ⟨s1, t1, parts, fin, e1, ht1, ho1, hp, hfin, htr⟩ := ih r w2 t' tail' hrt hl ht'
        obtain ⟨bs, b, rfl, hb, hk⟩ := void_split _ v r (Nat.le_refl _) hv hr
        obtain ⟨s, m, e, ho, hk2⟩ := out_newlines_build skip_uniform skip_exact' K_nil hb hk
          (headNot_of_solid hr) (nl := ['\n']) (Or.inl rfl)
        obtain ⟨t0, ht0, ho0⟩ := complete_setting (s := s) (r := m ++ r) h1 h2 h3 h4 h5 h6 h7 h8 h9 h10 h11
          (Or.inl ho) (Or.inr ⟨_, by simpa using e.symm⟩)
        refine ⟨w.category ++ b1 ++ w.key ++ b2 ++ w.value ++ s, t0, ((m, s1), [t1]) :: parts, fin, ?_, ht0, ?_, ⟨⟨?_, ho1⟩, hp⟩, hfin, ⟨t1, _, rfl, ht1, htr⟩⟩
        · have e' : '\n' :: (bs.flatMap (fun p => p.1 ++ p.2) ++ b ++ r) = s ++ (m ++ r) := by simpa using e
          rw [e', e1]; simp [partsText]
        · rw [e1] at ho0; simpa [partsText] using ho0
        · rw [e1] at hk2; simpa [partsText] using hk2

theorem setting_fails_nil : Fails skip setting .nonAtomic [] :=
  fails_rule (fails_seq_left (fails_rule (fails_plus (fails_cls.2 (headNot_nil _)))))

theorem complete_prf {content : Str} {ws : List Setting} (h : IsFile content ws) (hne : ws ≠ []) :
    ∃ trees, Out skip K prf .nonAtomic content [] [.node .prf content (trees ++ [.node .EOI [] []])] ∧
      AreTrees ws trees := by
  obtain ⟨v, r, rfl, hv, hr, ⟨h, _⟩ | ⟨w, ws, t, tail, rfl, hrt, hl, ht⟩⟩ := isFile_norm h
  · exact absurd h hne
  · obtain ⟨s1, t1, parts, fin, e1, ht1, ho1, hp, hfin, htr⟩ := complete_items ws r w t tail hrt hl ht
    obtain ⟨wt, m3, e4, h4, h5⟩ := out_plus_build skip_exact' (uniform_eval skip_uniform setting rfl _) K_nil ho1 hp hfin
      setting_fails_nil
    refine ⟨_, ?_, (⟨t1, _, rfl, ht1, htr⟩ : AreTrees (w :: ws) ([t1] ++ parts.flatMap (·.2)))⟩
    generalize [t1] ++ parts.flatMap (·.2) = ts at h4
    rw [e1, e4] at hr ⊢
    have hend : Out skip K (.plus setting ⬝ .eoi .EOI) .nonAtomic (wt ++ m3) [] (ts ++ [.node .EOI [] []]) :=
      ⟨wt, m3, [], ts, [.node .EOI [] []], by simp, by simpa using h5, by simpa using h4, ⟨rfl, rfl, rfl⟩, rfl⟩
    obtain ⟨bs, b, rfl, hb, hk⟩ := void_split _ v (wt ++ m3) (Nat.le_refl _) hv hr
    cases bs with
    | nil =>
      refine ⟨_, ⟨[], b, wt ++ m3, [], ts ++ [.node .EOI [] []], by simp, by simpa using hk, ⟨rfl, rfl⟩,
        ⟨[], [], wt ++ m3, [], _, by simp, ?_, Or.inr ⟨rfl, rfl, ?_⟩, hend, rfl⟩, rfl⟩, rfl⟩
      · simpa using K_nil _ _ hk
      · exact fails_plus (fails_newline.2 (by simpa using headNot_of_solid hr))
    | cons p bs =>
      obtain ⟨⟨h6, h7⟩, h8⟩ := hb
      obtain ⟨s, m, e5, h9, h10⟩ := out_newlines_build skip_uniform skip_exact' K_nil h8 hk
        (headNot_of_solid hr) h7
      refine ⟨_, ⟨[], p.1, s ++ m ++ (wt ++ m3), [], ts ++ [.node .EOI [] []], ?_, ?_, ⟨rfl, rfl⟩,
        ⟨s, m, wt ++ m3, [], _, rfl, by simpa using h10, Or.inl (by rw [List.append_nil]; exact h9), hend, rfl⟩, rfl⟩, rfl⟩
      · have : (p :: bs).flatMap (fun p => p.1 ++ p.2) ++ b ++ (wt ++ m3) =
            p.1 ++ (p.2 ++ (bs.flatMap (fun p => p.1 ++ p.2) ++ (b ++ (wt ++ m3)))) := by simp
        rw [this, e5]; simp
      · rw [e5] at h6
        simpa using h6

/-! ## The code -/

theorem mapM_trees {ws : List Setting} {ts : List (Tree Rule)} (h : AreTrees ws ts) :
    (ts ++ [Tree.node Rule.EOI [] []]).mapM parseSetting =
      .ok (ws.map (fun w : Setting => some ((w.category, w.key), w.value)) ++ [none]) := by
  induction ws generalizing ts with
  | nil => cases h; rfl
  | cons w ws ih =>
    obtain ⟨t, ts', rfl, ⟨s, rfl⟩, h⟩ := h
    simp only [List.cons_append, List.mapM_cons, ih h]
    rfl

theorem parse_trees {content : Str} {ws : List Setting} {trees : List (Tree Rule)}
    (h : run skip prf content = .ok [.node .prf content (trees ++ [.node .EOI [] []])])
    (h1 : AreTrees ws trees) :
    parsePrf content = .ok (Map.ofList (ws.map fun w => ((w.category, w.key), w.value))) := by
  simp only [parsePrf, h, run_ok_bind, next_cons, Tree.inner_node, mapM_trees h1]
  simp [List.filterMap_map, Function.comp_def, pure, Except.pure]

theorem parse_cases (content : Str) : parsePrf content = .error .parseError ∨
    ∃ ws, ws ≠ [] ∧ IsFile content ws ∧
      parsePrf content = .ok (Map.ofList (ws.map fun w => ((w.category, w.key), w.value))) := by
  rcases run_whole skip_ok (e := prf) rfl rfl content with h | ⟨ts, h, ho⟩
  · exact Or.inl (by simp [parsePrf, h])
  · obtain ⟨ws, trees, hne, rfl, h1, h2⟩ := sound_prf ho
    exact Or.inr ⟨ws, hne, h2, parse_trees h h1⟩

theorem parse_complete {content : Str} {ws : List Setting} (h : IsFile content ws) (hne : ws ≠ []) :
    parsePrf content = .ok (Map.ofList (ws.map fun w => ((w.category, w.key), w.value))) := by
  obtain ⟨trees, ho, ht⟩ := complete_prf h hne
  exact parse_trees (run_of_out skip_uniform skip_exact' rfl rfl ho) ht

end Verif.Parse.Prf
