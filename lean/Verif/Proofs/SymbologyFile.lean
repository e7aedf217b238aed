import Verif.Peg.Toks
import Verif.Proofs.Gated
import Verif.Proofs.Asr
import Verif.Proofs.SymbolRuleSound
import Verif.Spec.Symbology
import Verif.Props.Colours
/-!
# Symbology files
-/

namespace Verif.Proofs.Symbology
open Verif.Peg Verif.Spec Verif.Spec.Symbology Verif.Parse.Symbology Verif.Proofs.SymbolRule
open Verif.Peg.Symbology (Rule skip)
open Verif.Parse.SymbolRule (Kind Close parseRule)
open Verif.Settings (SymbolType Symbol SymbolRule)
open Verif.Colours (Colour fromEuroscope)

set_option linter.unusedSectionVars false

/-! ## Blanks -/

/-- What the skip of this grammar consumes. -/
abbrev K : Str → Str → Prop := Blank [Peg.Symbology.WHITESPACE]

theorem like_ws : LikeCls noSkip NoGap Peg.Symbology.WHITESPACE .atomic isSpTab := (likeCls_spTab .atomic uniform_noSkip).quiet

theorem apart_none : Apart isSpTab [] := ⟨apart_spTab.1, by simp⟩

theorem lineSkip : LineSkip skip K isSpTab [] where
  ok := skipOne_ok rfl
  exact := skipOne_exact rfl rfl
  uniform := uniform_skipOne rfl
  iff := fun m r => by
    refine (blank1_iff like_ws m r).trans ?_
    constructor
    · rintro ⟨h1, h2⟩
      exact ⟨m, [], by simp, h1, Or.inl ⟨rfl, h2, by simp [CommentStart]⟩⟩
    · rintro ⟨sp, cm, rfl, h1, h2 | ⟨⟨w, hw, _⟩, _⟩⟩
      · obtain ⟨rfl, h2, _⟩ := h2
        exact ⟨by simpa using h1, h2⟩
      · cases hw
  apart := apart_none
  blank := fun _ h => h

theorem good : Good skip K := ⟨lineSkip.ok, lineSkip.exact, lineSkip.uniform⟩

abbrev S := Seg skip K
abbrev P := Pb skip K
abbrev Start := LineStart isSpTab []

theorem plain_cons {c : Char} {t : Str} (h : isSpTab c = false) : Plain isSpTab [] (c :: t) :=
  ⟨headNot_cons.2 h, by simp [CommentStart]⟩

theorem k_cons {c : Char} {t : Str} (h : isSpTab c = false) : K [] (c :: t) := lineSkip.nil (plain_cons h)

theorem k_colon (r : Str) : K [] (':' :: r) := k_cons (by decide)

theorem k_end {r : Str} (h : AtLineEnd r) : K [] r := lineSkip.nil (plain_lineEnd apart_none h)

theorem k_start {r : Str} (h : Start r) : K [] r := lineSkip.nil h.1

theorem start_cons {c : Char} {t : Str} (h : isSpTab c = false) (hn : isNewlineChar c = false) : Start (c :: t) :=
  ⟨plain_cons h, headNot_cons.2 hn⟩

/-! ## Tokens -/

theorem seg_atomic {C : Str → Prop} {q : Rule} {x : Expr Rule} {v : Str} (h : ∀ r, C r → Out skip K x .atomic v r [])
    (hk : ∀ r, C r → K [] (v ++ r)) : S C (.rule q .atomic x) v [.node q v []] := fun r hr =>
  ⟨out_rule_atomic (h r hr), hk r hr⟩

theorem head_of {v : Str} (h : IsField v) {c : Char} (hc : v.head? = some c) : isSpTab c = false := by
  cases hb : isSpTab c with
  | false => rfl
  | true => exact absurd (blankChar_iff.1 hb) (h.2 c hc)

theorem start_field {v r : Str} (h : IsField v) : Start (v ++ ':' :: r) := by
  cases v with
  | nil => exact start_cons (by decide) (by decide)
  | cons c t => exact start_cons (head_of h rfl) (not_newline_iff.2 (h.1 c List.mem_cons_self).2)

theorem field_chars {v : Str} (h : IsField v) : ∀ c ∈ v, c ≠ ':' ∧ isNewlineChar c = false := fun c hc =>
  ⟨(h.1 c hc).1, not_newline_iff.2 (h.1 c hc).2⟩

abbrev text : Str → Tree Rule := fun v => .node .colon_delimited_text v []

theorem seg_field {v : Str} (h : IsField v) : S Colon Peg.Symbology.colon_delimited_text v [text v] :=
  seg_atomic (fun r hr => by
    obtain ⟨t, rfl⟩ := hr
    exact out_colonText lineSkip (field_chars h))
    fun r hr => by
      obtain ⟨t, rfl⟩ := hr
      exact k_start (start_field h)

theorem digit_head {c : Char} (h : isAsciiDigit c = true) : isSpTab c = false := by
  have h1 := isDigit_ne h (d := ' ') (by decide)
  have h2 := isDigit_ne h (d := '\t') (by decide)
  simp [h1, h2]

theorem decimal_head {v : Str} (h : IsDecimal v) : ∃ c t, v = c :: t ∧ (isAsciiDigit c = true ∨ c ∈ c!"+-.") := by
  obtain ⟨sg, ds, fs, rfl, h1, h2, h3⟩ := h
  rcases h1 with rfl | rfl | rfl
  · cases ds with
    | cons c t => exact ⟨c, t ++ fs, rfl, Or.inl (h2 c List.mem_cons_self)⟩
    | nil =>
      rcases h3 with ⟨_, h⟩ | ⟨d, rfl, _⟩
      · exact absurd rfl h
      · exact ⟨'.', d, rfl, Or.inr (by simp)⟩
  · exact ⟨'-', ds ++ fs, rfl, Or.inr (by simp)⟩
  · exact ⟨'+', ds ++ fs, rfl, Or.inr (by simp)⟩

theorem k_decimal {v r : Str} (h : IsDecimal v) : K [] (v ++ r) := by
  obtain ⟨c, t, rfl, hc⟩ := decimal_head h
  refine k_cons ?_
  rcases hc with hc | hc
  · exact digit_head hc
  · simp only [List.mem_cons, List.not_mem_nil, or_false] at hc
    rcases hc with rfl | rfl | rfl <;> decide

theorem spTab_of {p : Char → Bool} (h1 : p ' ' = false) (h2 : p '\t' = false) {b r : Str} (hb : ∀ c ∈ b, isSpTab c = true) (hr : HeadNot p r) :
    HeadNot p (b ++ r) := by
  cases b with
  | nil => exact hr
  | cons c b =>
    refine headNot_cons.2 ?_
    rcases blankChar_iff.1 (hb c List.mem_cons_self) with rfl | rfl <;> assumption

theorem numEnd_blanks {b r : Str} (hb : ∀ c ∈ b, isSpTab c = true) (hr : NumEnd r) : NumEnd (b ++ r) :=
  spTab_of (by decide) (by decide) hb hr

theorem numEnd_colon (r : Str) : NumEnd (':' :: r) := headNot_cons.2 (by decide)

theorem numEnd_newline {r : Str} (h : AtLineEnd r) : NumEnd r := fun c hc => by
  have := h c hc
  simp only [Bool.not_eq_false'] at this
  rcases newline_iff.1 this with rfl | rfl <;> decide

theorem seg_integer {v : Str} (h : IsInteger v) : S NumEnd Peg.Symbology.integer v [.node .integer v []] :=
  seg_atomic (fun _ hr => out_integer_build lineSkip.uniform (by decide) h (NumEnd.digit hr))
    fun _ _ => k_decimal h.isDecimal

theorem seg_decimal {v : Str} (h : IsDecimal v) : S NumEnd Peg.Symbology.decimal v [.node .decimal v []] :=
  seg_atomic (fun _ hr => out_decimal_build lineSkip.ok lineSkip.uniform (by decide) h hr)
    fun _ _ => k_decimal h

theorem seg_style {p : Str × Str} (h : p ∈ styles) : S (fun _ => True) Peg.Symbology.line_style p.1 [.node .line_style p.1 []] := by
  have key : ∀ c : Char, inRange '0' '4' c = true → S (fun _ => True) Peg.Symbology.line_style [c] [.node .line_style [c] []] := fun c hc r _ => by
    refine ⟨out_rule_normal ⟨c, rfl, hc, rfl⟩, ?_⟩
    refine k_cons ?_
    cases hb : isSpTab c with
    | false => rfl
    | true => rcases blankChar_iff.1 hb with rfl | rfl <;> exact absurd hc (by decide)
  simp only [styles, List.mem_cons, List.not_mem_nil, or_false] at h
  rcases h with rfl | rfl | rfl | rfl | rfl <;> exact key _ (by decide)

theorem fails_lit {w r : Str} {a : Atom} (h : ¬ w <+: r) : Fails skip (.str w : Expr Rule) a r := fails_str.2 h

theorem seg_alignment {p : Str × Alignment} (h : p ∈ alignments) :
    S (HeadNot isAsciiDigit) Peg.Symbology.alignment p.1 [.node .alignment p.1 []] := by
  intro r hr
  have f2 : ∀ c d e : Char, isAsciiDigit e = true → ¬ ([d, e] : Str) <+: c :: r := fun c d e he hp => by
    rw [List.cons_prefix_cons] at hp
    obtain ⟨t, rfl⟩ := hp.2
    have := headNot_cons.1 hr
    rw [he] at this
    cases this
  have low : ∀ c, inRange '0' '2' c = true → Out skip K Peg.Symbology.alignment .nonAtomic [c] r [.node .alignment [c] []] := fun c hc =>
    out_rule_normal (Or.inr ⟨Or.inr ⟨Or.inr ⟨Or.inl ⟨c, rfl, hc, rfl⟩, fails_lit (f2 _ _ _ (by decide))⟩,
      fails_lit (f2 _ _ _ (by decide))⟩, fails_lit (f2 _ _ _ (by decide))⟩)
  have high : ∀ c, inRange '0' '2' c = false → inRange '6' '8' c = true →
      Out skip K Peg.Symbology.alignment .nonAtomic [c] r [.node .alignment [c] []] := fun c h0 hc =>
    out_rule_normal (Or.inr ⟨Or.inr ⟨Or.inr ⟨Or.inr ⟨⟨c, rfl, hc, rfl⟩, fails_cls.2 (headNot_cons.2 h0)⟩, fails_lit (f2 _ _ _ (by decide))⟩,
      fails_lit (f2 _ _ _ (by decide))⟩, fails_lit (f2 _ _ _ (by decide))⟩)
  simp only [alignments, List.mem_cons, List.not_mem_nil, or_false] at h
  rcases h with rfl | rfl | rfl | rfl | rfl | rfl | rfl | rfl | rfl
  · exact ⟨low _ (by decide), k_cons (by decide)⟩
  · exact ⟨low _ (by decide), k_cons (by decide)⟩
  · exact ⟨low _ (by decide), k_cons (by decide)⟩
  · exact ⟨high _ (by decide) (by decide), k_cons (by decide)⟩
  · exact ⟨high _ (by decide) (by decide), k_cons (by decide)⟩
  · exact ⟨high _ (by decide) (by decide), k_cons (by decide)⟩
  · exact ⟨out_rule_normal (Or.inl ⟨rfl, rfl⟩), k_cons (by decide)⟩
  · exact ⟨out_rule_normal (Or.inr ⟨Or.inl ⟨rfl, rfl⟩, fails_lit (by simp)⟩), k_cons (by decide)⟩
  · exact ⟨out_rule_normal (Or.inr ⟨Or.inr ⟨Or.inl ⟨rfl, rfl⟩, fails_lit (by simp)⟩, fails_lit (by simp)⟩), k_cons (by decide)⟩

/-! ## Tokens and blanks -/

theorem seg_str {c : Char} {w : Str} (h : isSpTab c = false) : S (fun _ => True) (.str (c :: w)) (c :: w) [] := fun _ _ =>
  ⟨out_str0, k_cons h⟩

theorem pb_then {C : Str → Prop} {x y : Expr Rule} {v b t r : Str} {u1 u2 : List (Tree Rule)} (h1 : S C x v u1) (hc : C (b ++ (t ++ r)))
    (hb : ∀ c ∈ b, isSpTab c = true) (h2 : P y t r u2) : P (x ⬝ y) (v ++ (b ++ t)) r (u1 ++ u2) := by
  obtain ⟨o, k⟩ := h1 _ hc
  have := pb_seq (t1 := v ++ b) ⟨blk_gap o (lineSkip.spaces hb (lineSkip.plain h2.2)), by simpa using k⟩ h2.1
  simpa using this

theorem pb_field {y : Expr Rule} {v b t r : Str} {u : List (Tree Rule)} (h : IsField v) (hb : ∀ c ∈ b, isSpTab c = true) (h2 : P y t r u) :
    P (Peg.Symbology.colon_delimited_text ⬝ (.str c!":") ⬝ y) ((v ++ c!":") ++ (b ++ t)) r (text v :: u) := by
  have := pb_then (b := []) (seg_field h) (⟨_, rfl⟩) (by simp) (pb_then (seg_str (c := ':') (w := []) (by decide)) trivial hb h2)
  simpa using this

theorem break_blanks {f b : Str} (hf : IsBreak f) (hb : ∀ c ∈ b, isSpTab c = true) : IsBreak (f ++ b) := by
  obtain ⟨c, t, rfl, hc, ht⟩ := hf
  exact ⟨c, t ++ b, rfl, hc, filler_append ht (filler_blanks hb)⟩

theorem pb_break {f b r : Str} (hf : IsBreak f) (hb : ∀ c ∈ b, isSpTab c = true) (hr : Start r) : P Peg.Symbology.NL (f ++ (b ++ [])) r [] := by
  rw [List.append_nil]
  exact pb_NL lineSkip (break_blanks hf hb) hr

theorem pb_break_end {f t r : Str} (hf : IsBreak f) : AtLineEnd ((f ++ t) ++ r) := by
  rw [List.append_assoc]
  exact break_lineEnd hf

/-! ## Items -/

def itemTrees (i : ItemLine) : List (Tree Rule) :=
  [text i.folder, text i.name, .node .integer i.colour [], .node .decimal i.scale [], .node .line_style i.style.1 [],
    .node .integer i.weight [], .node .alignment i.alignment.1 []]

theorem pb_item {i : ItemLine} {f t r : Str} (h : i.Valid) (hf : IsBreak f) (ht : Spaced (i.tokens ++ [f]) t) (hr : Start r) :
    ∃ s, P Peg.Symbology.item t r [.node .item s (itemTrees i)] := by
  obtain ⟨h1, h2, h3, h4, h5, h6, h7⟩ := h
  obtain ⟨b1, t, rfl, g1, ht⟩ := spaced_cons ht
  obtain ⟨b2, t, rfl, g2, ht⟩ := spaced_cons ht
  obtain ⟨b3, t, rfl, g3, ht⟩ := spaced_cons ht
  obtain ⟨b4, t, rfl, g4, ht⟩ := spaced_cons ht
  obtain ⟨b5, t, rfl, g5, ht⟩ := spaced_cons ht
  obtain ⟨b6, t, rfl, g6, ht⟩ := spaced_cons ht
  obtain ⟨b7, t, rfl, g7, ht⟩ := spaced_cons ht
  obtain ⟨b8, t, rfl, g8, ht⟩ := spaced_cons ht
  obtain ⟨b9, t, rfl, g9, ht⟩ := spaced_cons ht
  obtain ⟨b10, t, rfl, g10, ht⟩ := spaced_cons ht
  obtain ⟨b11, t, rfl, g11, ht⟩ := spaced_cons ht
  obtain ⟨b12, t, rfl, g12, ht⟩ := spaced_cons ht
  obtain rfl := spaced_nil ht
  have c12 := pb_break (r := r) hf g12 hr
  have c11 := pb_then (seg_alignment h7) (NumEnd.digit (numEnd_blanks g11 (numEnd_newline (pb_break_end hf)))) g11 c12
  have c10 := pb_then (seg_str (c := ':') (w := []) (by decide)) trivial g10 c11
  have c9 := pb_then (seg_integer h6) (numEnd_blanks g9 (numEnd_colon _)) g9 c10
  have c8 := pb_then (seg_str (c := ':') (w := []) (by decide)) trivial g8 c9
  have c7 := pb_then (seg_style h5) trivial g7 c8
  have c6 := pb_then (seg_str (c := ':') (w := []) (by decide)) trivial g6 c7
  have c5 := pb_then (seg_decimal h4) (numEnd_blanks g5 (numEnd_colon _)) g5 c6
  have c4 := pb_then (seg_str (c := ':') (w := []) (by decide)) trivial g4 c5
  have c3 := pb_then (seg_integer h3) (numEnd_blanks g3 (numEnd_colon _)) g3 c4
  have c2 := pb_field h2 g2 c3
  have c1 := pb_field h1 g1 c2
  exact pb_rule (q := Rule.item) c1

theorem read_style {p : Str × Str} (h : p ∈ styles) : parseLinestyle (.node .line_style p.1 []) = .ok p.2 := by
  simp only [styles, List.mem_cons, List.not_mem_nil, or_false] at h
  rcases h with rfl | rfl | rfl | rfl | rfl <;> rfl

theorem read_alignment {p : Str × Alignment} (h : p ∈ alignments) : parseAlignment (.node .alignment p.1 []) = .ok p.2 := by
  simp only [alignments, List.mem_cons, List.not_mem_nil, or_false] at h
  rcases h with rfl | rfl | rfl | rfl | rfl | rfl | rfl | rfl | rfl <;> rfl

theorem colour_eq (n : Int) : fromEuroscope n = colourOf n := by
  unfold colourOf
  by_cases h : 0 ≤ n ∧ n < 2 ^ 24
  · rw [if_pos h, Colours.fromEuroscope_eq_some]
    refine ⟨rfl, ?_⟩
    simp only [Fin.ofNat]
    omega
  · rw [if_neg h]
    have := Colours.C34_accepted_iff n
    cases hc : fromEuroscope n with
    | none => rfl
    | some c =>
      rw [hc] at this
      have := this.1 rfl
      omega

theorem read_i32 {s : Str} (h : IsInteger s) : unwrap (parseSigned (2 ^ 31) s) = gated (FitsI32 s) (intValue s) := by
  rw [parseSigned_integer h (by decide), unwrap_gated]
  rfl

theorem read_item {G : Type} [F64 G] (num : Str → G) (hnum : ∀ s, IsDecimal s → F64.ofText s = some (num s)) {i : ItemLine}
    (h : i.Valid) (s : Str) : parseItem (.node .item s (itemTrees i)) = gated i.Fits (i.value num) := by
  obtain ⟨h1, h2, h3, h4, h5, h6, h7⟩ := h
  show (unwrap (parseSigned (2 ^ 31) i.colour)).bind _ = _
  rw [read_i32 h3]
  refine gated_bind ?_
  show (unwrap (F64.ofText i.scale)).bind _ = _
  rw [hnum _ h4]
  show (parseLinestyle (.node .line_style i.style.1 [])).bind _ = _
  rw [read_style h5]
  show (unwrap (parseSigned (2 ^ 31) i.weight)).bind _ = _
  rw [read_i32 h6]
  refine gated_ok ?_
  show (parseAlignment (.node .alignment i.alignment.1 [])).bind _ = _
  rw [read_alignment h7]
  show Except.ok _ = _
  rw [colour_eq]
  rfl

/-! ## Symbols -/

/-- The names of the drawing rules. -/
def names : Names Rule where
  decimal := .decimal
  integer := .integer
  point := .symbol_rule_point
  name
    | .moveto => .moveto
    | .line => .line
    | .fillarc => .fillarc
    | .fillarcEllipse => .fillarc_ellipse
    | .arc => .arc
    | .arcEllipse => .arc_ellipse
    | .ellipse => .ellipse
    | .ellipseCircle => .ellipse_circle
    | .polygon => .polygon
    | .pixel => .pixel
    | .fillrect => .fillrect

theorem kind_name (k : Kind) : kindOf (names.name k) = some k := by cases k <;> rfl

theorem symbolrule_eq : Peg.Symbology.symbolrule = rulesE names ⬝ (.opt Base.NL) := rfl

/-- A line end or one of the keywords behind a drawing rule follows. -/
def Stops (r : Str) : Prop := ∃ c t, r = c :: t ∧ (IsNewline c ∨ c = 'S' ∨ c = 'm')

theorem stops_not {p : Char → Bool} (h : ∀ c ∈ c!"\n\rSm", p c = false) {r : Str} (hr : Stops r) : HeadNot p r := by
  obtain ⟨c, t, rfl, (rfl | rfl) | rfl | rfl⟩ := hr <;> exact headNot_cons.2 (h _ (by simp))

theorem argsEnd_stops {b r : Str} (hb : ∀ c ∈ b, isSpTab c = true) (hr : Stops r) : ArgsEnd (b ++ r) := by
  refine ⟨numEnd_blanks hb (stops_not (by decide) hr), fun d u e hd => ?_⟩
  cases b with
  | nil =>
    obtain ⟨c, t, rfl, hc⟩ := hr
    obtain ⟨rfl, _⟩ := List.cons.inj e
    rcases hc with (rfl | rfl) | rfl | rfl <;> rcases hd with hd | hd <;> exact absurd hd (by decide)
  | cons c b =>
    obtain ⟨rfl, rfl⟩ := List.cons.inj e
    exact spTab_of (by decide) (by decide) (fun d hd => hb d (List.mem_cons_of_mem _ hd)) (stops_not (by decide) hr)

theorem drawing_head {d : Drawing.Drawing} {s : Str} (h : d.IsText s) : ∃ c t, s = c :: t ∧ isSpTab c = false := by
  obtain ⟨_, t, _, rfl⟩ := h
  cases d <;> exact ⟨_, _, rfl, by decide⟩

theorem k_key {w : Str} (h : w ≠ [] ∧ ∀ c, w.head? = some c → isSpTab c = false) (r : Str) : K [] (w ++ r) := by
  cases w with
  | nil => exact absurd rfl h.1
  | cons c t => exact k_cons (h.2 c rfl)

section
variable {F : Type} [F64 F] [Close F] (num : Str → F) (hnum : ∀ s, IsDecimal s → F64.ofText s = some (num s))
include hnum

/-- One of the keywords behind a drawing rule follows. -/
def Letter (r : Str) : Prop := ∃ c t, r = c :: t ∧ (c = 'S' ∨ c = 'm')

omit hnum in
theorem letter_start {r : Str} (h : Letter r) : Start r := by
  obtain ⟨c, t, rfl, rfl | rfl⟩ := h <;> exact start_cons (by decide) (by decide)

omit hnum in
theorem letter_stops {r : Str} (h : Letter r) : Stops r := by
  obtain ⟨c, t, rfl, h⟩ := h
  exact ⟨c, t, rfl, Or.inr h⟩

omit hnum in
theorem break_stops {f r : Str} (h : IsBreak f) : Stops (f ++ r) := by
  obtain ⟨c, t, rfl, h, _⟩ := h
  exact ⟨c, t ++ r, rfl, Or.inl h⟩

theorem blk_drawing {d : DrawingLine} {t r : Str} (h : d.Valid) (ht : Spaced d.tokens t) (hr : Letter r) :
    (∃ u, Blk skip K Peg.Symbology.symbolitem t r [u] ∧
      parseRule kindOf u = gated d.drawing.Fits (d.drawing.value num Close.close)) ∧ Letter (t ++ r) := by
  obtain ⟨hd, hb⟩ := h
  obtain ⟨b1, t, rfl, g1, ht⟩ := spaced_cons ht
  obtain ⟨b2, t, rfl, g2, ht⟩ := spaced_cons ht
  obtain ⟨b3, t, rfl, g3, ht⟩ := spaced_cons ht
  obtain rfl := spaced_nil ht
  refine ⟨?_, ⟨'S', _, rfl, Or.inl rfl⟩⟩
  obtain ⟨c, e, ec, hc⟩ := drawing_head hd
  have kd : ∀ r, K [] (d.rule ++ r) := fun r => by rw [ec]; exact k_cons hc
  -- the line end
  have key : ∃ b f, b2 ++ (d.brk ++ (b3 ++ [])) = b ++ f ∧ (∀ c ∈ b, isSpTab c = true) ∧ Stops (f ++ r) ∧
      Pb skip K (.opt Peg.Symbology.NL : Expr Rule) f r [] := by
    rcases hb with hb | hb
    · refine ⟨b2 ++ b3, [], by simp [hb], ?_, letter_stops hr, ?_⟩
      · intro c hc
        rcases List.mem_append.1 hc with hc | hc
        · exact g2 c hc
        · exact g3 c hc
      · have hs := letter_start hr
        exact ⟨blk_opt_none (fails_plus (fails_nlOne lineSkip hs.1 hs.2)) (k_start hs), k_start hs⟩
    · have hp := pb_break (r := r) hb g3 (letter_start hr)
      exact ⟨b2, d.brk ++ (b3 ++ []), rfl, g2, by rw [List.append_assoc]; exact break_stops hb, blk_opt_some hp.1, hp.2⟩
  obtain ⟨b, f, e2, hb, hs, hp⟩ := key
  obtain ⟨u, ho, _, hu⟩ := rule_out good names kind_name num hnum hd (argsEnd_stops hb hs)
  refine ⟨u, ?_, hu⟩
  rw [e2]
  have c1 := pb_seq (t1 := d.rule ++ b) ⟨blk_gap ho (lineSkip.spaces hb (lineSkip.plain hp.2)), by simpa using kd _⟩ hp.1
  have c2 := pb_then (b := b1) (seg_str (c := 'S') (w := c!"YMBOLITEM:") (by decide)) trivial g1 c1
  have c3 := c2.1
  simp only [List.append_assoc] at c3
  exact c3

/-- Another symbol or the footer follows. -/
def Next (r : Str) : Prop := (∃ t, r = c!"SYMBOL:" ++ t) ∨ ∃ t, r = c!"m_ClipArea:" ++ t

omit hnum in
theorem next_letter {r : Str} (h : Next r) : Letter r := by
  rcases h with ⟨t, rfl⟩ | ⟨t, rfl⟩
  · exact ⟨_, _, rfl, Or.inl rfl⟩
  · exact ⟨_, _, rfl, Or.inr rfl⟩

omit hnum in
theorem next_start {r : Str} (h : Next r) : Start r := by
  rcases h with ⟨t, rfl⟩ | ⟨t, rfl⟩ <;> exact start_cons (by decide) (by decide)

def symbolTrees (n : Str) (ts : List (Tree Rule)) : List (Tree Rule) := .node .integer n [] :: ts

theorem read_type {s : SymbolDef} (h : IsInteger s.number) :
    unwrap (parseUnsigned 10 (2 ^ 32) s.number) = gated (FitsU32 s.number) (intValue s.number).toNat := by
  rw [parseUnsigned_integer h, unwrap_gated]
  rfl

omit hnum in
theorem type_eq (n : Nat) : SymbolType.fromU32 n = types[n]? := by
  by_cases h : n < 24
  · have : ∀ n : Fin 24, SymbolType.fromU32 n.val = types[n.val]? := by decide
    exact this ⟨n, h⟩
  · rw [List.getElem?_eq_none (by simpa [types] using h)]
    obtain ⟨m, rfl⟩ : ∃ m, n = m + 24 := ⟨n - 24, by omega⟩
    rfl

theorem pb_symbol {s : SymbolDef} {t r : Str} (h : s.Valid) (ht : Spaced s.tokens t) (hr : Next r) :
    (∃ u, P Peg.Symbology.symbol t r [u] ∧ u.asRule = .symbol ∧
      parseSymbolRules u = gated s.Fits (s.type.map fun ty => (ty, s.value num Close.close))) ∧ ∃ t', t = c!"SYMBOL:" ++ t' := by
  obtain ⟨h1, h2, h3, h4⟩ := h
  obtain ⟨b1, t, rfl, g1, ht⟩ := spaced_cons ht
  obtain ⟨b2, t, rfl, g2, ht⟩ := spaced_cons ht
  obtain ⟨b3, t, rfl, g3, ht⟩ := spaced_cons ht
  refine ⟨?_, _, rfl⟩
  obtain ⟨l, el, rfl, hl⟩ := spaced_flatMap ht
  obtain ⟨hre, hst⟩ := reps_of (C := Letter) (l := l) (r := r) (txt := fun e : DrawingLine × Str => e.2)
    (P := fun (e : DrawingLine × Str) r => ∃ u, Blk skip K Peg.Symbology.symbolitem e.2 r [u] ∧
      parseRule kindOf u = gated e.1.drawing.Fits (e.1.drawing.value num Close.close))
    (fun e he r hr => blk_drawing num hnum (h4 e.1 (by rw [← el]; exact List.mem_map_of_mem he)) (hl e he) hr) (next_letter hr)
  have hf : Fails skip Peg.Symbology.symbolitem .nonAtomic r := by
    refine fails_seq_left (fails_str.2 ?_)
    rcases hr with ⟨t, rfl⟩ | ⟨t, rfl⟩ <;> simp
  have hne : l ≠ [] := by
    rintro rfl
    exact h3 el.symm
  obtain ⟨ts, b, e⟩ := blk_plus_read lineSkip.exact (uniform_eval lineSkip.uniform _ rfl _) lineSkip.knil hne hre hf
  have hsr := letter_start hst
  have c1 := pb_seq (pb_NL (sk := skip) (R := Rule) lineSkip (break_blanks h2 g3) hsr) b
  have c2 := pb_then (b := b2) (seg_integer h1) (numEnd_blanks g2 (numEnd_newline (by
    simp only [List.append_assoc]; exact break_lineEnd h2))) g2 c1
  have c3 := pb_then (b := b1) (seg_str (c := 'S') (w := c!"YMBOL:") (by decide)) trivial g1 c2
  simp only [List.append_assoc] at c3
  obtain ⟨w, hw⟩ := pb_rule (q := .symbol) c3
  refine ⟨_, hw, rfl, ?_⟩
  show (unwrap (parseUnsigned 10 (2 ^ 32) s.number)).bind _ = _
  rw [read_type num hnum h1]
  refine gated_bind ?_
  show (ts.mapM (parseRule kindOf)).bind _ = _
  have e' : ts.map (parseRule (F := F) kindOf) = s.rules.map fun d => gated d.drawing.Fits (d.drawing.value num Close.close) := by
    rw [e, ← el, List.map_map]; rfl
  rw [mapM_of_map e', mapM_gated]
  refine gated_ok ?_
  show Except.ok _ = _
  rw [type_eq]
  rfl

end

/-! ## The file -/

section
variable {F G : Type} [F64 F] [F64 G] [Close F] (num : Str → F) (numG : Str → G)

/-- The table with a further item. -/
def addItem (acc : Symbology F G) (i : ItemLine) : Symbology F G :=
  match i.value numG with
  | some v => { acc with items := acc.items.insert (v.folder, v.name) v }
  | none => acc

/-- The table with a further symbol. -/
def addSymbol (acc : Symbology F G) (s : SymbolDef) : Symbology F G :=
  match s.type with
  | some ty => { acc with symbols := acc.symbols.insert ty (s.value num Close.close) }
  | none => acc

omit [F64 F] [F64 G] [Close F] in
theorem foldlM_gated {A B : Type} {p : B → Prop} [DecidablePred p] {v : A → B → A} : ∀ (l : List B) (a : A),
    (l.map fun b (a : A) => gated (p b) (v a b)).foldlM (fun a f => f a) a = gated (∀ b ∈ l, p b) (l.foldl v a)
  | [], a => by simp [gated]
  | b :: l, a => by
    rw [List.map_cons, List.foldlM_cons]
    refine (gated_bind (p := p b) (v := v a b) (f := fun x => (l.map fun b (a : A) => gated (p b) (v a b)).foldlM (fun a f => f a) x)
      (foldlM_gated l _)).trans ?_
    exact gated_congr (by simp) rfl

theorem foldlM_read {A R : Type} (f : A → Tree R → Run A) (ts : List (Tree R)) (a : A) :
    ts.foldlM f a = (ts.map fun t a => f a t).foldlM (fun a g => g a) a := by
  induction ts generalizing a with
  | nil => rfl
  | cons t ts ih =>
    rw [List.map_cons, List.foldlM_cons, List.foldlM_cons]
    exact bind_congr fun _ => ih _

variable (hnum : ∀ s, IsDecimal s → F64.ofText s = some (num s)) (hnumG : ∀ s, IsDecimal s → F64.ofText s = some (numG s))

include hnumG in
theorem step_item {i : ItemLine} (h : i.Valid) (s : Str) (acc : Symbology F G) :
    step acc (.node .item s (itemTrees i)) = gated i.Fits (addItem numG acc i) := by
  show (parseItem (.node .item s (itemTrees i))).bind _ = _
  rw [read_item numG hnumG h]
  refine gated_ok ?_
  unfold addItem
  cases i.value numG <;> rfl

theorem step_symbol {s : SymbolDef} {t : Tree Rule} (ht : t.asRule = .symbol)
    (h : parseSymbolRules t = gated s.Fits (s.type.map fun ty => (ty, s.value num Close.close))) (acc : Symbology F G) :
    step acc t = gated s.Fits (addSymbol num acc s) := by
  unfold step
  rw [ht]
  show (parseSymbolRules t).bind _ = _
  rw [h]
  refine gated_ok ?_
  unfold addSymbol
  cases s.type <;> rfl

/-- What stands in front of the first of some characters. -/
theorem first_of {p : Char → Bool} {a a' : Str} {c c' : Char} {t t' : Str} (ha : ∀ d ∈ a, p d = false) (hc : p c = true)
    (ha' : ∀ d ∈ a', p d = false) (hc' : p c' = true) (e : a ++ c :: t = a' ++ c' :: t') : a = a' ∧ c = c' ∧ t = t' := by
  induction a generalizing a' with
  | nil =>
    cases a' with
    | nil => exact ⟨rfl, (List.cons.inj e).1, (List.cons.inj e).2⟩
    | cons d a' =>
      obtain ⟨rfl, _⟩ := List.cons.inj e
      rw [ha' _ List.mem_cons_self] at hc; cases hc
  | cons d a ih =>
    cases a' with
    | nil =>
      obtain ⟨rfl, _⟩ := List.cons.inj e
      rw [ha _ List.mem_cons_self] at hc'; cases hc'
    | cons d' a' =>
      obtain ⟨rfl, e'⟩ := List.cons.inj e
      obtain ⟨rfl, h2, h3⟩ := ih (fun d hd => ha d (List.mem_cons_of_mem _ hd)) (fun d hd => ha' d (List.mem_cons_of_mem _ hd)) e'
      exact ⟨rfl, h2, h3⟩

theorem number_chars {n : Str} (hn : IsInteger n) : ∀ c ∈ n, c ≠ ':' ∧ isNewlineChar c = false := by
  obtain ⟨sg, ds, rfl, h1, h2⟩ := hn
  intro c hc
  rcases List.mem_append.1 hc with hc | hc
  · rcases h1 with rfl | rfl | rfl
    · cases hc
    · rw [List.mem_singleton.1 hc]; decide
    · rw [List.mem_singleton.1 hc]; decide
  · have hd := h2.2 c hc
    exact ⟨isDigit_ne hd (by decide), by
      have h1 := isDigit_ne hd (d := '\n') (by decide)
      have h2 := isDigit_ne hd (d := '\r') (by decide)
      simp [isNewlineChar, h1, h2]⟩

theorem fails_item {a : Str} {c : Char} {t : Str} (ha : ∀ d ∈ a, d ≠ ':' ∧ isNewlineChar d = false) (hc : IsNewline c) :
    Fails skip Peg.Symbology.item .nonAtomic (c!"SYMBOL:" ++ (a ++ c :: t)) := by
  refine fails_of_not_out lineSkip.ok (by rfl) ?_
  rintro s r ts e ⟨kids, ⟨s1, m1, w1, t1, u1, rfl, g1, ⟨k1, o1, _⟩, ⟨s2, m2, w2, t2, u2, rfl, g2, ⟨rfl, rfl⟩, ⟨s3, m3, w3, t3, u3, rfl, g3,
    ⟨k3, o3, _⟩, ⟨s4, m4, w4, t4, u4, rfl, g4, ⟨rfl, rfl⟩, _, _⟩, _⟩, _⟩, _⟩, _⟩
  have c1 := colonText_chars lineSkip o1
  have c3 := colonText_chars lineSkip o3
  have blank : ∀ {m r : Str}, K m r → ∀ d ∈ m, d ≠ ':' ∧ isNewlineChar d = false := fun hk d hd => by
    rcases blankChar_iff.1 (lineSkip.isBlank hk d hd) with rfl | rfl <;> decide
  have b1 := blank (show K m1 _ from g1)
  have b2 := blank (show K m2 _ from g2)
  have b3 := blank (show K m3 _ from g3)
  have both : ∀ {x y : Str}, (∀ d ∈ x, d ≠ ':' ∧ isNewlineChar d = false) → (∀ d ∈ y, d ≠ ':' ∧ isNewlineChar d = false) →
      ∀ d ∈ x ++ y, d ≠ ':' ∧ isNewlineChar d = false := fun hx hy d hd => by
    rcases List.mem_append.1 hd with hd | hd
    · exact hx d hd
    · exact hy d hd
  let p : Char → Bool := fun d => d == ':' || isNewlineChar d
  have hp : ∀ {x : Str}, (∀ d ∈ x, d ≠ ':' ∧ isNewlineChar d = false) → ∀ d ∈ x, p d = false := fun hx d hd => by
    simp [p, (hx d hd).1, (hx d hd).2]
  obtain ⟨_, _, e2⟩ := first_of (p := p) (a := c!"SYMBOL") (a' := s1 ++ m1) (c := ':') (c' := ':') (hp (by decide)) (by decide)
    (hp (both c1 b1)) (by decide) (t := a ++ c :: t) (t' := (m2 ++ (s3 ++ m3)) ++ ':' :: (m4 ++ w4 ++ r)) (by simpa using e)
  obtain ⟨_, e3, _⟩ := first_of (p := p) (hp ha) (by simp [p, newline_iff.2 hc]) (hp (both b2 (both c3 b3))) (by decide) e2
  subst e3
  rcases hc with hc | hc <;> exact absurd hc (by decide)

end

/-- Blanks and empty lines in front of a file. -/
theorem lead_build {R : Type} {sk : St → Res R} {K : Str → Str → Prop} {pw : Char → Bool} {marks : List Str} {y : Expr R}
    (h : LineSkip sk K pw marks) {f r : Str} {us : List (Tree R)} (hf : IsFiller marks f) (hr : LineStart pw marks r)
    (o : Out sk K y .nonAtomic r [] us) :
    ∃ m s, f ++ r = m ++ s ∧ K m s ∧ Out sk K ((.opt Base.NL) ⬝ y) .nonAtomic s [] us := by
  obtain ⟨parts, fin, e1, p1, p2, p3⟩ := filler_parts (cm := []) (r := r) h
    (fun _ _ hl => out_nlOne h hl) (fun sp hs => by simpa using h.spaces hs hr.1) hr.2 _ f (Nat.le_refl _) hf
  rw [List.append_nil] at e1
  have hnl := fails_nlOne (sk := sk) h hr.1 hr.2
  cases parts with
  | nil =>
    refine ⟨fin, r, ?_, p2, ?_⟩
    · simp [e1, partsText]
    · refine ⟨[], [], r, [], _, rfl, ?_, Or.inr ⟨rfl, rfl, ?_⟩, o, rfl⟩
      · show K [] _
        rw [List.append_nil]; exact h.nil hr.1
      · rw [List.append_nil]; exact fails_plus hnl
  | cons p ps =>
    obtain ⟨⟨q1, q2⟩, q3⟩ := p1
    obtain ⟨s, m, e3, o3, k3⟩ := out_plus_build h.exact (uniform_eval h.uniform _ rfl _) h.knil
      (s1 := p.1.2) (t1 := p.2) (parts := ps) q2 q3 p2 hnl
    have e4 : p.2 ++ ps.flatMap (·.2) = [] := p3
    rw [e4] at o3
    refine ⟨p.1.1, (s ++ m) ++ r, ?_, ?_, ?_⟩
    · rw [← e3]
      simp [e1, partsText]
    · rw [← e3]
      have q1 : K p.1.1 _ := q1
      simpa [partsText] using q1
    · refine ⟨s, m, r, [], _, rfl, ?_, Or.inl ?_, o, rfl⟩
      · show K m _
        rw [List.append_nil]; exact k3
      · rw [List.append_nil]; exact o3

/-- A block and what matches after it. -/
theorem out_blk_seq {R : Type} {sk : St → Res R} {K : Str → Str → Prop} {x y : Expr R} {t s2 r : Str} {u1 u2 : List (Tree R)}
    (b : Blk sk K x t (s2 ++ r) u1) (o : Out sk K y .nonAtomic s2 r u2) : Out sk K (x ⬝ y) .nonAtomic (t ++ s2) r (u1 ++ u2) := by
  obtain ⟨s, m, rfl, o1, k⟩ := b
  exact ⟨s, m, s2, u1, u2, by simp, k, by simpa using o1, o, rfl⟩

section
variable {F G : Type} [F64 F] [F64 G] [Close F] (num : Str → F) (numG : Str → G)
  (hnum : ∀ s, IsDecimal s → F64.ofText s = some (num s)) (hnumG : ∀ s, IsDecimal s → F64.ofText s = some (numG s))

/-- What is read from a file. -/
def tables (f : File) : Symbology F G := f.symbols.foldl (addSymbol num) ((f.items.map (·.1)).foldl (addItem numG) ⟨[], []⟩)

theorem filler_lead {f b : Str} (hf : IsFiller [] f) (hb : ∀ c ∈ b, isSpTab c = true) : IsFiller [] (f ++ b) :=
  filler_append hf (filler_blanks hb)

/-- The end of the file. -/
theorem pb_footer {f : File} {t : Str} (h8 : IsInteger f.clip) (h9 : IsBreak f.brk3) (h10 : f.trail = [] ∨ IsBreak f.trail)
    (ht : Spaced [c!"m_ClipArea:", f.clip, f.brk3, c!"END", f.trail] t) :
    (∃ s us, P Peg.Symbology.footer t [] [.node .footer s us]) ∧ ∃ t', t = c!"m_ClipArea:" ++ t' := by
  obtain ⟨b1, t, rfl, g1, ht⟩ := spaced_cons ht
  obtain ⟨b2, t, rfl, g2, ht⟩ := spaced_cons ht
  obtain ⟨b3, t, rfl, g3, ht⟩ := spaced_cons ht
  obtain ⟨b4, t, rfl, g4, ht⟩ := spaced_cons ht
  obtain ⟨b5, t, rfl, g5, ht⟩ := spaced_cons ht
  obtain rfl := spaced_nil ht
  refine ⟨?_, _, rfl⟩
  have stNil : Start [] := ⟨plain_lineEnd apart_none (headNot_nil _), headNot_nil _⟩
  have key : ∃ b u, b4 ++ (f.trail ++ (b5 ++ [])) = b ++ u ∧ (∀ c ∈ b, isSpTab c = true) ∧ P (.opt Peg.Symbology.NL : Expr Rule) u [] [] := by
    rcases h10 with e | hb
    · refine ⟨b4 ++ b5, [], by simp [e], ?_, blk_opt_none (fails_plus (fails_nlOne lineSkip stNil.1 stNil.2)) (k_start stNil), k_start stNil⟩
      intro c hc
      rcases List.mem_append.1 hc with hc | hc
      · exact g4 c hc
      · exact g5 c hc
    · have hp := pb_break (r := []) hb g5 stNil
      exact ⟨b4, f.trail ++ (b5 ++ []), rfl, g4, blk_opt_some hp.1, hp.2⟩
  obtain ⟨b, u, e, hb, hp⟩ := key
  rw [e]
  have c1 := pb_then (b := b) (seg_str (c := 'E') (w := c!"ND") (by decide)) trivial hb hp
  have c2 := pb_seq (pb_NL (sk := skip) (R := Rule) (r := (c!"END" ++ (b ++ u)) ++ []) lineSkip (break_blanks h9 g3)
    (start_cons (by decide) (by decide))) c1.1
  have hn : NumEnd (b2 ++ ((f.brk3 ++ b3 ++ (c!"END" ++ (b ++ u))) ++ [])) := numEnd_blanks g2 (numEnd_newline (by
    simp only [List.append_assoc]; exact break_lineEnd h9))
  -- the clip area, with the blanks behind it
  obtain ⟨o1, k1⟩ := seg_integer h8 _ hn
  have k2 : K b2 ((f.brk3 ++ b3 ++ (c!"END" ++ (b ++ u))) ++ []) := lineSkip.spaces g2 (lineSkip.plain c2.2)
  have c3 := pb_then (x := .str c!"m_ClipArea:") (seg_str (c := 'm') (w := c!"_ClipArea:") (by decide)) trivial g1
    (⟨blk_gap o1 k2, by simpa using k1⟩ : P Peg.Symbology.integer (f.clip ++ b2) _ _)
  obtain ⟨w, c4⟩ := pb_rule (q := Rule.clip_area) c3
  have c5 := pb_seq c4 c2.1
  obtain ⟨w', c6⟩ := pb_rule (q := Rule.footer) c5
  simp only [List.append_assoc] at c6
  exact ⟨w', _, c6⟩

theorem pb_header {f : File} {t r : Str} (h2 : IsBreak f.brk1) (h3 : IsBreak f.brk2) (ht : Spaced [c!"SYMBOLOGY", f.brk1, c!"SYMBOLSIZE", f.brk2] t)
    (hr : Start r) : (∃ s, P Peg.Symbology.header t r [.node .header s []]) ∧ ∃ t', t = c!"SYMBOLOGY" ++ t' := by
  obtain ⟨b1, t, rfl, g1, ht⟩ := spaced_cons ht
  obtain ⟨b2, t, rfl, g2, ht⟩ := spaced_cons ht
  obtain ⟨b3, t, rfl, g3, ht⟩ := spaced_cons ht
  obtain ⟨b4, t, rfl, g4, ht⟩ := spaced_cons ht
  obtain rfl := spaced_nil ht
  refine ⟨?_, _, rfl⟩
  have c1 := pb_then (b := b3) (seg_str (c := 'S') (w := c!"YMBOLSIZE") (by decide)) trivial g3 (pb_break (r := r) h3 g4 hr)
  have c2 := pb_seq (pb_NL (sk := skip) (R := Rule) lineSkip (break_blanks h2 g2) (start_cons (by decide) (by decide))) c1.1
  have c3 := pb_then (b := b1) (seg_str (c := 'S') (w := c!"YMBOLOGY") (by decide)) trivial g1 c2
  obtain ⟨w, c4⟩ := pb_rule (q := Rule.header) c3
  simp only [List.append_assoc] at c4
  exact ⟨w, c4⟩

include hnum hnumG in
theorem parse_file {f : File} {content : Str} (h : f.Valid) (ht : Spaced f.tokens content) :
    parse content = gated f.Fits (tables (F := F) num numG f) := by
  obtain ⟨h1, h2, h3, h4, h5, h6, h7, h8, h9, h10⟩ := h
  unfold File.tokens at ht
  obtain ⟨tHead, t, rfl, sHead, ht⟩ := spaced_split ht
  obtain ⟨tItems, t, rfl, sItems, ht⟩ := spaced_split ht
  obtain ⟨tSyms, tFoot, rfl, sSyms, sFoot⟩ := spaced_split ht
  obtain ⟨b0, tHead, rfl, g0, sHead⟩ := spaced_cons sHead
  obtain ⟨li, eli, rfl, hli⟩ := spaced_flatMap sItems
  obtain ⟨ls, els, rfl, hls⟩ := spaced_flatMap sSyms
  -- the end of the file
  obtain ⟨⟨w2, us2, bFooter⟩, tf, ef⟩ := pb_footer h8 h9 h10 sFoot
  -- the symbols
  have hn : Next (tFoot ++ []) := Or.inr ⟨tf, by simp [ef]⟩
  obtain ⟨hre, hst⟩ := reps_of (C := Next) (l := ls) (txt := fun e : SymbolDef × Str => e.2)
    (P := fun (e : SymbolDef × Str) r => ∃ t, Blk skip K Peg.Symbology.symbol e.2 r [t] ∧
      (fun acc : Symbology F G => step acc t) = fun acc => gated e.1.Fits (addSymbol num acc e.1))
    (fun e he r hr => by
      obtain ⟨⟨t, b, e1, e2⟩, t', et⟩ := pb_symbol num hnum (h7 e.1 (by rw [← els]; exact List.mem_map_of_mem he)) (hls e he) hr
      refine ⟨⟨t, b.1, funext fun acc => step_symbol num e1 e2 acc⟩, Or.inl ⟨t' ++ r, ?_⟩⟩
      show e.2 ++ r = _
      rw [et, List.append_assoc]) hn
  have hfs : Fails skip Peg.Symbology.symbol .nonAtomic (tFoot ++ []) :=
    fails_rule (fails_seq_left (fails_str.2 (by rw [ef]; simp)))
  have hls0 : ls ≠ [] := by rintro rfl; exact h6 els.symm
  obtain ⟨ts, bs, rs⟩ := blk_plus_read lineSkip.exact (uniform_eval lineSkip.uniform _ rfl _) lineSkip.knil hls0 hre hfs
  -- the items
  obtain ⟨hri, hsi⟩ := reps_of (C := Start) (l := li) (txt := fun e : (ItemLine × Str) × Str => e.2)
    (P := fun (e : (ItemLine × Str) × Str) r => ∃ t, Blk skip K Peg.Symbology.item e.2 r [t] ∧
      (fun acc : Symbology F G => step acc t) = fun acc => gated e.1.1.Fits (addItem numG acc e.1.1))
    (fun e he r hr => by
      obtain ⟨hv, hb⟩ := h5 e.1 (by rw [← eli]; exact List.mem_map_of_mem he)
      have hsp := hli e he
      obtain ⟨s, hs⟩ := pb_item hv hb hsp hr
      refine ⟨⟨_, hs.1, funext fun acc => step_item numG hnumG hv s acc⟩, ?_⟩
      obtain ⟨b, u, eu, _⟩ := spaced_cons hsp
      show Start (e.2 ++ r)
      rw [eu, List.append_assoc, List.append_assoc]
      exact start_field hv.1) (letter_start (next_letter hst))
  have hfi : Fails skip Peg.Symbology.item .nonAtomic (ls.flatMap (fun e : SymbolDef × Str => e.2) ++ (tFoot ++ [])) := by
    cases hc : ls with
    | nil => exact absurd hc hls0
    | cons e l =>
      have he : e ∈ ls := by rw [hc]; exact List.mem_cons_self
      have hv := h7 e.1 (by rw [← els]; exact List.mem_map_of_mem he)
      obtain ⟨b1, t, e1, g1, ht⟩ := spaced_cons (hls e he)
      obtain ⟨b2, t, rfl, g2, ht⟩ := spaced_cons ht
      obtain ⟨b3, t, rfl, g3, ht⟩ := spaced_cons ht
      obtain ⟨c, u, ec, hnl, _⟩ := hv.2.1
      rw [List.flatMap_cons, e1, ec]
      have blank : ∀ {b : Str}, (∀ c ∈ b, isSpTab c = true) → ∀ d ∈ b, d ≠ ':' ∧ isNewlineChar d = false := fun hb d hd => by
        rcases blankChar_iff.1 (hb d hd) with rfl | rfl <;> decide
      have := fails_item (a := b1 ++ (e.1.number ++ b2)) (c := c)
        (t := u ++ (b3 ++ (t ++ (l.flatMap (fun e : SymbolDef × Str => e.2) ++ (tFoot ++ []))))) (fun d hd => by
          rcases List.mem_append.1 hd with hd | hd
          · exact blank g1 d hd
          · rcases List.mem_append.1 hd with hd | hd
            · exact number_chars hv.1 d hd
            · exact blank g2 d hd) hnl
      simpa using this
  have hli0 : li ≠ [] := by rintro rfl; exact h4 eli.symm
  obtain ⟨ti, bi, ri⟩ := blk_plus_read lineSkip.exact (uniform_eval lineSkip.uniform _ rfl _) lineSkip.knil hli0 hri hfi
  -- the header
  obtain ⟨⟨w3, bHeader⟩, th, eh⟩ := pb_header h2 h3 sHead hsi
  have oEoi : Out skip K (.eoi Rule.EOI) .nonAtomic [] [] [Tree.node Rule.EOI [] []] := ⟨rfl, rfl, rfl⟩
  have oAll := out_blk_seq (by simpa using bHeader.1) (out_blk_seq (by simpa using bi) (out_blk_seq (by simpa using bs)
    (out_blk_seq (t := tFoot) (by simpa using bFooter.1) oEoi)))
  generalize hhd : Tree.node Rule.header w3 [] = hd at oAll
  generalize hft : Tree.node Rule.footer w2 us2 = ft at oAll
  obtain ⟨m, s, e1, k1, o1⟩ := lead_build lineSkip (filler_lead h1 g0) (by rw [eh]; exact start_cons (by decide) (by decide)) oAll
  have hrun : ∀ content, content = m ++ s → run skip Peg.Symbology.symbology content =
      .ok [.node .symbology content ([hd] ++ (ti ++ (ts ++ ([ft] ++ [Tree.node Rule.EOI [] []]))))] := by
    rintro _ rfl
    refine run_of_out lineSkip.uniform lineSkip.exact (by rfl) (by rfl) ⟨_, ?_, rfl⟩
    exact ⟨[], m, s, [], _, rfl, by simpa using k1, ⟨rfl, rfl⟩, o1, rfl⟩
  unfold parse
  rw [hrun _ (by rw [← e1]; simp)]
  have e2 : ∀ acc : Symbology F G, ti.foldlM step acc = gated (∀ i ∈ f.items, i.1.Fits) (f.items.foldl (fun acc i => addItem numG acc i.1) acc) := by
    intro acc
    have ri' : (ti.map fun t acc => step (F := F) (G := G) acc t) = f.items.map fun i acc => gated i.1.Fits (addItem numG acc i.1) := by
      rw [ri, ← eli, List.map_map]; rfl
    rw [foldlM_read, ri', foldlM_gated]
  have e3 : ∀ acc : Symbology F G, ts.foldlM step acc = gated (∀ s ∈ f.symbols, s.Fits) (f.symbols.foldl (addSymbol num) acc) := by
    intro acc
    have rs' : (ts.map fun t acc => step (F := F) (G := G) acc t) = f.symbols.map fun s acc => gated s.Fits (addSymbol num acc s) := by
      rw [rs, ← els, List.map_map]; rfl
    rw [foldlM_read, rs', foldlM_gated]
  subst hhd hft
  show List.foldlM step (⟨[], []⟩ : Symbology F G) (ti ++ (ts ++ ([_] ++ [_]))) = _
  rw [List.foldlM_append]
  show (ti.foldlM step _).bind _ = _
  rw [e2]
  refine gated_bind ?_
  show List.foldlM step _ (ts ++ ([_] ++ [_])) = _
  rw [List.foldlM_append]
  show (ts.foldlM step _).bind _ = _
  rw [e3]
  refine gated_ok ?_
  simp only [tables, List.foldl_map]
  rfl

end

end Verif.Proofs.Symbology
