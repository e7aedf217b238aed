import Verif.Peg.Seg
import Verif.Spec.Ese
/-!
# The fields of .ese files
-/

namespace Verif.Proofs.Ese
open Verif.Peg Verif.Spec Verif.Spec.Ese
open Verif.Peg.Ese (Rule skip)

set_option linter.unusedSectionVars false

/-- What the skip of this grammar consumes. -/
abbrev K : Str → Str → Prop := Blank [Peg.Ese.WHITESPACE, Peg.Ese.COMMENT]

theorem apart_semi : Apart isSpTab [[';']] := by
  refine ⟨apart_spTab.1, ?_⟩
  intro w hw
  have := List.mem_singleton.1 hw
  subst this
  exact ⟨';', [], rfl, by decide, by decide⟩

theorem like_ws : LikeCls noSkip NoGap Peg.Ese.WHITESPACE .atomic isSpTab := (likeCls_spTab .atomic uniform_noSkip).quiet

theorem lineSkip : LineSkip skip K isSpTab [[';']] where
  ok := skipBoth_ok rfl rfl
  exact := skipBoth_exact rfl rfl rfl rfl (disjoint_of like_ws likeComment_semi apart_semi rfl)
  uniform := uniform_skipBoth rfl rfl
  iff := blank_iff like_ws likeComment_semi apart_semi
  apart := apart_semi
  blank := fun _ h => h

abbrev S := Seg skip K
abbrev P := Pb skip K
abbrev Start := LineStart isSpTab [[';']]

/-- Neither a blank nor the start of a comment. -/
def Head (c : Char) : Prop := isSpTab c = false ∧ c ≠ ';'

instance (c : Char) : Decidable (Head c) := inferInstanceAs (Decidable (_ ∧ _))

theorem plain_cons {c : Char} {t : Str} (h : Head c) : Plain isSpTab [[';']] (c :: t) := by
  refine ⟨headNot_cons.2 h.1, ?_⟩
  rintro ⟨w, hw, hp⟩
  have := List.mem_singleton.1 hw
  subst this
  rw [List.cons_prefix_cons] at hp
  exact h.2 hp.1.symm

theorem k_cons {c : Char} {t : Str} (h : Head c) : K [] (c :: t) := lineSkip.nil (plain_cons h)

theorem k_colon (r : Str) : K [] (':' :: r) := k_cons (by decide)

theorem k_end {r : Str} (h : AtLineEnd r) : K [] r := lineSkip.nil (plain_lineEnd apart_semi h)

theorem k_start {r : Str} (h : Start r) : K [] r := lineSkip.nil h.1

theorem start_nil : Start [] := ⟨⟨headNot_nil _, fun ⟨w, hw, hp⟩ => by
  have := List.mem_singleton.1 hw
  subst this
  simp at hp⟩, headNot_nil _⟩

theorem start_cons {c : Char} {t : Str} (h : Head c) (hn : isNewlineChar c = false) : Start (c :: t) :=
  ⟨plain_cons h, headNot_cons.2 hn⟩

/-! ## Atomic tokens -/

theorem seg_atomic {C : Str → Prop} {q : Rule} {x : Expr Rule} {v : Str} (h : ∀ r, C r → Out skip K x .atomic v r [])
    (hk : ∀ r, C r → K [] (v ++ r)) : S C (.rule q .atomic x) v [.node q v []] := fun r hr =>
  ⟨out_rule_atomic (h r hr), hk r hr⟩

theorem head_of {v : Str} (h : IsField v) {c : Char} (hc : v.head? = some c) : Head c := by
  have := h.2 c hc
  refine ⟨?_, this.2⟩
  cases hb : isSpTab c with
  | false => rfl
  | true => exact absurd (blankChar_iff.1 hb) this.1

theorem k_field {v r : Str} (h : IsField v) (hr : K [] r) : K [] (v ++ r) := by
  cases v with
  | nil => exact hr
  | cons c t => exact k_cons (head_of h rfl)

theorem start_field {v r : Str} (h : IsField v) : Start (v ++ ':' :: r) := by
  cases v with
  | nil => exact start_cons (by decide) (by decide)
  | cons c t => exact start_cons (head_of h rfl) (not_newline_iff.2 (h.1 c List.mem_cons_self).2)

theorem field_chars {v : Str} (h : IsField v) : ∀ c ∈ v, c ≠ ':' ∧ isNewlineChar c = false := fun c hc =>
  ⟨(h.1 c hc).1, not_newline_iff.2 (h.1 c hc).2⟩

abbrev text : Str → Tree Rule := fun v => .node .colon_delimited_text v []

theorem seg_field {v : Str} (h : IsField v) : S Colon Peg.Ese.colon_delimited_text v [text v] :=
  seg_atomic (fun r hr => by
    obtain ⟨t, rfl⟩ := hr
    exact out_colonText lineSkip (field_chars h))
    fun r hr => by
      obtain ⟨t, rfl⟩ := hr
      exact k_field h (k_colon _)

theorem seg_last {v : Str} (h : IsLastField v) : S AtLineEnd Peg.Ese.colon_delimited_text v [text v] :=
  seg_atomic (fun r hr => by
    refine out_colonText_last lineSkip (field_chars h.1) (fun c hc => ?_) hr
    cases hb : isSpTab c with
    | false => rfl
    | true => exact absurd (blankChar_iff.1 hb) (h.2 c hc))
    fun r hr => k_field h.1 (k_end hr)

/-- A colon or the end of the line follows. -/
def Ends (r : Str) : Prop := Colon r ∨ AtLineEnd r

theorem ends_colon (r : Str) (h : Colon r) : Ends r := Or.inl h
theorem ends_line (r : Str) (h : AtLineEnd r) : Ends r := Or.inr h

theorem k_ends {r : Str} (h : Ends r) : K [] r := by
  rcases h with ⟨t, rfl⟩ | h
  · exact k_colon t
  · exact k_end h

theorem ends_not {p : Char → Bool} (h1 : p ':' = false) (h2 : p '\n' = false) (h3 : p '\r' = false) {r : Str} (h : Ends r) :
    HeadNot p r := by
  rcases h with ⟨t, rfl⟩ | h
  · exact headNot_cons.2 h1
  · intro c hc
    have := h c hc
    simp only [Bool.not_eq_false'] at this
    rcases newline_iff.1 this with rfl | rfl <;> assumption

theorem digit_head {c : Char} (h : isAsciiDigit c = true) : Head c := by
  have h1 := isDigit_ne h (d := ' ') (by decide)
  have h2 := isDigit_ne h (d := '\t') (by decide)
  exact ⟨by simp [h1, h2], isDigit_ne h (by decide)⟩

theorem decimal_head {v : Str} (h : IsDecimal v) : ∃ c t, v = c :: t ∧ (isAsciiDigit c = true ∨ c ∈ c!"+-.") := by
  obtain ⟨sg, ds, fs, rfl, h1, h2, h3⟩ := h
  rcases h1 with rfl | rfl | rfl
  · cases ds with
    | cons c t => exact ⟨c, t ++ fs, rfl, Or.inl (h2 c List.mem_cons_self)⟩
    | nil =>
      rcases h3 with ⟨_, h⟩ | ⟨d, rfl, _⟩
      · exact absurd rfl h
      · exact ⟨'.', d, rfl, Or.inr (by simp)⟩
  · exact ⟨'-', ds ++ fs, rfl, Or.inr (by simp)⟩
  · exact ⟨'+', ds ++ fs, rfl, Or.inr (by simp)⟩

theorem k_decimal {v r : Str} (h : IsDecimal v) : K [] (v ++ r) := by
  obtain ⟨c, t, rfl, hc⟩ := decimal_head h
  refine k_cons ?_
  rcases hc with hc | hc
  · exact digit_head hc
  · simp only [List.mem_cons, List.not_mem_nil, or_false] at hc
    rcases hc with rfl | rfl | rfl <;> decide

theorem numEnd_of {r : Str} (h : Ends r) : NumEnd r := ends_not (by decide) (by decide) (by decide) h

theorem seg_integer {v : Str} (h : IsInteger v) : S Ends Peg.Ese.integer v [.node .integer v []] :=
  seg_atomic (fun _ hr => out_integer_build lineSkip.uniform (by decide) h (numEnd_of hr).digit)
    fun _ _ => k_decimal h.isDecimal

theorem seg_decimal {v : Str} (h : IsDecimal v) : S Ends Peg.Ese.decimal v [.node .decimal v []] :=
  seg_atomic (fun _ hr => out_decimal_build lineSkip.ok lineSkip.uniform (by decide) h (numEnd_of hr))
    fun _ _ => k_decimal h

theorem seg_frequency {v : Str} (h : IsDecimal v) : S Ends Peg.Ese.frequency v [.node .frequency v []] :=
  seg_atomic (fun _ hr => ⟨[], out_decimal_build lineSkip.ok lineSkip.uniform (by decide) h (numEnd_of hr), rfl⟩)
    fun _ _ => k_decimal h

/-! ## Names -/

def isDesChar (c : Char) : Bool := isAsciiUpper c || (isAsciiDigit c || c == '-')

theorem like_des (a : Atom) : LikeCls skip K ((.cls isAsciiUpper) ∥ (.cls isAsciiDigit) ∥ (.str c!"-")) a isDesChar :=
  (likeCls_cls _ a).alt ((likeCls_cls _ a).alt (likeCls_char '-' a) (uniform_eval lineSkip.uniform _ rfl _))
    (uniform_eval lineSkip.uniform _ rfl _)

theorem des_head {c : Char} (h : isDesChar c = true) : Head c := by
  refine ⟨?_, ?_⟩
  · cases hb : isSpTab c with
    | false => rfl
    | true => rcases blankChar_iff.1 hb with rfl | rfl <;> exact absurd h (by decide)
  · rintro rfl; exact absurd h (by decide)

theorem des_chars {v : Str} (h : IsDesignator v) : ∀ c ∈ v, isDesChar c = true := fun c hc => by
  have := h.2 c hc
  simp only [isDesChar, Bool.or_eq_true, beq_iff_eq]
  exact this

theorem k_des {v r : Str} (h : IsDesignator v) : K [] (v ++ r) := by
  cases v with
  | nil => exact absurd rfl h.1
  | cons c t => exact k_cons (des_head (des_chars h c List.mem_cons_self))

/-- No designator character follows. -/
abbrev DesEnd : Str → Prop := HeadNot isDesChar

theorem desEnd_of {r : Str} (h : Ends r) : DesEnd r := ends_not (by decide) (by decide) (by decide) h

theorem seg_des {v : Str} (h : IsDesignator v) : S DesEnd Peg.Ese.designator v [.node .designator v []] :=
  seg_atomic (fun _ hr => ((like_des .atomic).plus (by decide)).2 ⟨h.1, des_chars h, hr, rfl⟩) fun _ _ => k_des h

theorem seg_designator {v : Str} (h : IsDesignator v) : S Ends Peg.Ese.designator v [.node .designator v []] :=
  seg_mono (seg_des h) fun _ => desEnd_of

theorem fails_des {r : Str} (h : DesEnd r) : Fails skip Peg.Ese.designator .nonAtomic r :=
  fails_rule (fails_plus (((like_des .atomic).fails _).2 h))

section
variable [UnicodeTables]

def isFixChar (c : Char) : Bool :=
  UnicodeTables.letter c || (isAsciiDigit c || (c == '(' || (c == ')' || (c == '/' || (c == '-' || (c == '_' || c == '.'))))))

theorem letter_not {c : Char} (h1 : c.toNat < 128) (h2 : isAsciiUpper c = false) (h3 : isAsciiLower c = false) :
    UnicodeTables.letter c = false := by
  rw [UnicodeTables.letter_ascii c h1]
  simp [h2, h3]

theorem fixChar_not {c : Char} (h1 : c.toNat < 128) (h2 : isAsciiUpper c = false) (h3 : isAsciiLower c = false)
    (h4 : isAsciiDigit c = false) (h5 : c ∉ c!"()/-_.") : isFixChar c = false := by
  simp only [List.mem_cons, List.not_mem_nil, or_false, not_or] at h5
  simp [isFixChar, letter_not h1 h2 h3, h4, h5]

theorem seg_fix {v : Str} (h : IsFixName v) : S Ends Peg.Ese.fix_designator v [.node .fix_designator v []] := by
  have hu : ∀ (e : Expr Rule), plain e = true → Uniform (eval skip e .atomic) := fun e h => uniform_eval lineSkip.uniform e h _
  have hl : LikeCls skip K ((.cls UnicodeTables.letter) ∥ (.cls isAsciiDigit) ∥ (.str c!"(") ∥ (.str c!")") ∥ (.str c!"/") ∥
      (.str c!"-") ∥ (.str c!"_") ∥ (.str c!".")) .atomic isFixChar :=
    (likeCls_cls _ _).alt ((likeCls_cls _ _).alt ((likeCls_char '(' _).alt ((likeCls_char ')' _).alt ((likeCls_char '/' _).alt
      ((likeCls_char '-' _).alt ((likeCls_char '_' _).alt (likeCls_char '.' _) (hu _ rfl)) (hu _ rfl)) (hu _ rfl)) (hu _ rfl))
      (hu _ rfl)) (hu _ rfl)) (hu _ rfl)
  have hn : ∀ {c : Char}, c ∈ [' ', '\t', ';', ':', '\n', '\r'] → isFixChar c = false := by
    intro c hc
    refine fixChar_not ?_ ?_ ?_ ?_ ?_ <;> revert c <;> decide
  have hc : ∀ c ∈ v, isFixChar c = true := fun c hc => by
    have := h.2 c hc
    simp only [List.mem_cons, List.not_mem_nil, or_false] at this
    simpa [isFixChar] using this
  refine seg_atomic (fun r hr => (hl.plus (by decide)).2 ⟨h.1, hc, ends_not (hn (by simp)) (hn (by simp)) (hn (by simp)) hr, rfl⟩) ?_
  intro r _
  cases v with
  | nil => exact absurd rfl h.1
  | cons c t =>
    have h1 := hc c List.mem_cons_self
    refine k_cons ⟨?_, ?_⟩
    · cases hb : isSpTab c with
      | false => rfl
      | true => rcases blankChar_iff.1 hb with rfl | rfl <;> (rw [hn (by simp)] at h1; cases h1)
    · rintro rfl
      rw [hn (by simp)] at h1; cases h1
end

/-! ## Wildcards -/

abbrev star : Tree Rule := .node .wildcard c!"*" []

theorem seg_star {y : Expr Rule} : S Ends (Peg.Ese.wildcard ∥ y) c!"*" [star] :=
  seg_alt_left fun _ _ => ⟨out_rule_normal out_str0, k_cons (by decide)⟩

theorem fails_star {v : Str} (h : v.head? ≠ some '*') : Fails skip Peg.Ese.wildcard .nonAtomic v := by
  refine fails_rule (fails_str.2 ?_)
  rintro ⟨t, rfl⟩
  exact h rfl

def wildTok (q : Rule) : Option Str → Tree Rule
  | none => star
  | some v => .node q v []

theorem seg_wildField {o : Option Str} (h : IsWildField o) :
    S Colon (Peg.Ese.wildcard ∥ Peg.Ese.colon_delimited_text) (wild o) [wildTok .colon_delimited_text o] := by
  cases o with
  | none => exact seg_mono seg_star ends_colon
  | some v =>
    refine seg_alt_right (fun r hr => fails_star ?_) (seg_field h.1)
    obtain ⟨t, rfl⟩ := hr
    show (v ++ _).head? ≠ _
    cases v with
    | nil => simp
    | cons c v => exact h.2

theorem seg_wildDesignator {o : Option Str} (h : IsWildDesignator o) :
    S Ends (Peg.Ese.wildcard ∥ Peg.Ese.designator) (wild o) [wildTok .designator o] := by
  cases o with
  | none => exact seg_star
  | some v =>
    refine seg_alt_right (fun r _ => fails_star ?_) (seg_designator h)
    cases v with
    | nil => exact absurd rfl h.1
    | cons c v =>
      rintro e
      cases e
      exact absurd (des_chars h '*' List.mem_cons_self) (by decide)

theorem seg_wildInteger {o : Option Str} (h : IsWildInteger o) :
    S Ends (Peg.Ese.wildcard ∥ Peg.Ese.integer) (wild o) [wildTok .integer o] := by
  cases o with
  | none => exact seg_star
  | some v =>
    refine seg_alt_right (fun r _ => fails_star ?_) (seg_integer h)
    obtain ⟨c, t, e, hc⟩ := decimal_head (IsInteger.isDecimal h)
    show (v ++ _).head? ≠ _
    subst e
    rintro e
    cases e
    exact absurd hc (by decide)

/-! ## Runways -/

theorem k_runway {v r : Str} (h : IsRunway v) : K [] (v ++ r) := by
  obtain ⟨x, y, t, rfl, hx, _⟩ := h
  exact k_cons (digit_head hx)

theorem out_suffix {a : Atom} {t r : Str} (ht : t = [] ∧ HeadNot (fun c => c ∈ c!"LCRG") r ∨ ∃ c ∈ c!"LCRG", t = [c]) :
    Out skip K (.opt ((.str c!"L") ∥ (.str c!"C") ∥ (.str c!"R") ∥ (.str c!"G"))) a t r [] := by
  have hu : ∀ (e : Expr Rule), plain e = true → Uniform (eval skip e a) := fun e h => uniform_eval lineSkip.uniform e h _
  have hl : LikeCls skip K ((.str c!"L") ∥ (.str c!"C") ∥ (.str c!"R") ∥ (.str c!"G")) a _ :=
    (likeCls_char 'L' _).alt ((likeCls_char 'C' _).alt ((likeCls_char 'R' _).alt (likeCls_char 'G' _) (hu _ rfl)) (hu _ rfl)) (hu _ rfl)
  rcases ht with ⟨rfl, h⟩ | ⟨c, hc, rfl⟩
  · refine Or.inr ⟨rfl, rfl, (hl.fails _).2 ?_⟩
    intro c hc
    have := h c hc
    simpa using this
  · refine Or.inl ((hl.out _ _ _).2 ⟨c, rfl, ?_, rfl⟩)
    simpa using hc

theorem seg_runway {y : Expr Rule} {v : Str} (h : IsRunway v) :
    S Colon (Peg.Ese.runway_designator ∥ y) v [.node .runway_designator v []] := by
  refine seg_alt_left (seg_atomic (fun r hr => ?_) fun r _ => k_runway h)
  obtain ⟨x, y, t, rfl, hx, hy, ht⟩ := h
  obtain ⟨r, rfl⟩ := hr
  refine (out_seq_atomic (by decide)).2 ⟨[x, y], t, [], [], rfl, rfl, ?_, out_suffix ?_⟩
  · exact (out_seq_atomic (by decide)).2 ⟨[x], [y], [], [], rfl, rfl, ⟨x, rfl, hx, rfl⟩, ⟨y, rfl, hy, rfl⟩⟩
  · rcases ht with rfl | h
    · exact Or.inl ⟨rfl, headNot_cons.2 (by decide)⟩
    · exact Or.inr h

theorem seg_noRunway : S Colon (Peg.Ese.runway_designator ∥ Peg.Ese.none) [] [.node .none [] []] := by
  refine seg_alt_right ?_ fun r hr => ⟨out_rule_normal out_str0, by obtain ⟨t, rfl⟩ := hr; exact k_colon t⟩
  rintro r ⟨t, rfl⟩
  exact fails_rule (fails_seq_left (fails_seq_left (fails_cls.2 (headNot_cons.2 (by decide)))))

/-! ## Coordinates -/

def dmsTree (d : DmsText) : Tree Rule :=
  .node .coord_part d.text [.node .sct_coord_part d.text
    [.node .hemi [d.hemi] [], .node .deg d.deg [], .node .min d.min [], .node .sec d.sec []]]

def coordTree (c : Coord) : Tree Rule := .node .coordinate c.text [dmsTree c.lat, dmsTree c.lng]

theorem seg_dms {d : DmsText} (h : d.Valid) : S Ends Peg.Ese.coord_part d.text [dmsTree d] := by
  obtain ⟨h1, h2, h3, h4⟩ := h
  have dot : ∀ r, HeadNot isAsciiDigit ('.' :: r) := fun r => headNot_cons.2 (by decide)
  refine seg_rule (seg_alt_left fun r hr => ⟨⟨_, ?_, rfl⟩, k_cons ?_⟩)
  · show Out skip K _ .compound _ _ _
    have b5 : Out skip K Peg.Ese.sec .compound d.sec r [.node .sec d.sec []] :=
      ⟨[], ⟨[], out_decimal_build lineSkip.ok lineSkip.uniform (by decide) h4 (numEnd_of hr), rfl⟩, rfl⟩
    have b3 : ∀ r, Out skip K Peg.Ese.min .compound d.min ('.' :: r) [.node .min d.min []] := fun r =>
      ⟨[], out_digits_build (by decide) h3 (dot _), rfl⟩
    have b2 : ∀ r, Out skip K Peg.Ese.deg .compound d.deg ('.' :: r) [.node .deg d.deg []] := fun r =>
      ⟨[], out_digits_build (by decide) h2 (dot _), rfl⟩
    have b1 : ∀ r, Out skip K Peg.Ese.hemi .compound [d.hemi] r [.node .hemi [d.hemi] []] := fun r =>
      ⟨[], out_hemi_build lineSkip.uniform h1, rfl⟩
    have b0 : ∀ r, Out skip K (.str c!".") .compound ['.'] r ([] : List (Tree Rule)) := fun r => out_str0
    have sq : ∀ {x y : Expr Rule} {s1 s2 r : Str} {u1 u2 : List (Tree Rule)}, Out skip K x .compound s1 (s2 ++ r) u1 →
        Out skip K y .compound s2 r u2 → Out skip K (x ⬝ y) .compound (s1 ++ s2) r (u1 ++ u2) := fun a b =>
      (out_seq_atomic (by decide)).2 ⟨_, _, _, _, rfl, rfl, a, b⟩
    have c5 := sq (b0 _) b5
    have c4 := sq (s2 := '.' :: d.sec) (r := r) (b3 _) c5
    have c3 := sq (b0 _) c4
    have c2 := sq (s2 := '.' :: (d.min ++ '.' :: d.sec)) (r := r) (b2 _) c3
    exact sq (b1 _) c2
  · revert h1
    generalize d.hemi = c
    intro h1
    simp only [List.mem_cons, List.not_mem_nil, or_false] at h1
    rcases h1 with rfl | rfl | rfl | rfl | rfl | rfl | rfl | rfl <;> decide

theorem seg_coord {c : Coord} (h : c.Valid) : S Ends Peg.Ese.coordinate c.text [coordTree c] :=
  seg_rule (seg_colon k_colon (seg_mono (seg_dms h.1) ends_colon) (seg_dms h.2))

theorem decimal_ends {r s r' : Str} (h : Ends r) (hd : IsDecimal s) (e : r = s ++ r') : False := by
  obtain ⟨c, t, rfl, hc⟩ := decimal_head hd
  subst e
  have hn : HeadNot (fun c => isAsciiDigit c || decide (c ∈ c!"+-.")) (c :: t ++ r') :=
    ends_not (by decide) (by decide) (by decide) h
  have := headNot_cons.1 hn
  rcases hc with hc | hc <;> simp [hc] at this

/-- A coordinate does not start with a colon or a line end. -/
theorem fails_coord {r : Str} (h : Ends r) : Fails skip Peg.Ese.coordinate .nonAtomic r := by
  refine fails_rule (fails_seq_left (fails_rule ((fails_alt_iff (uniform_eval lineSkip.uniform _ rfl _)).2 ⟨?_, ?_⟩)))
  · refine fails_rule (fails_seq_left (fails_rule ?_))
    have hc := fun (d : Char) => likeCls_char (sk := skip) (K := K) (R := Rule) d .atomic
    have hu : ∀ (e : Expr Rule), plain e = true → Uniform (eval skip e .atomic) := fun e h => uniform_eval lineSkip.uniform e h _
    have : LikeCls skip K (Base.hemi : Expr Rule) .atomic _ :=
      (hc 'N').alt ((hc 'S').alt ((hc 'W').alt ((hc 'E').alt ((hc 'n').alt ((hc 's').alt ((hc 'w').alt (hc 'e')
        (hu _ rfl)) (hu _ rfl)) (hu _ rfl)) (hu _ rfl)) (hu _ rfl)) (hu _ rfl)) (hu _ rfl)
    exact (this.fails _).2 (ends_not (by decide) (by decide) (by decide) h)
  · refine fails_rule (fails_of_not_out lineSkip.ok (by rfl) ?_)
    intro s r' ts e ho
    exact decimal_ends h (out_decimal (by decide) ho).2 e

/-- An integer does not start with a colon or a line end. -/
theorem fails_integer {r : Str} (h : Ends r) : Fails skip Peg.Ese.integer .nonAtomic r := by
  refine fails_rule (fails_of_not_out lineSkip.ok (by rfl) ?_)
  intro s r' ts e ho
  exact decimal_ends h (out_integer (by decide) ho).2.isDecimal e

end Verif.Proofs.Ese
