import Verif.Parse.Airway
import Verif.Peg.Solid
import Verif.Spec.Airway
import Verif.Proofs.Isec
import Verif.Proofs.AirwayGraph
/-!
# Lemmas about `parse_airway_txt`
-/

namespace Verif.Parse.Airway
open Verif.Peg Verif.Peg.Airway Verif.Spec.Airway
open Verif.Spec.Isec (IsComment IsLineEnd IsCoord IsDesignator)
open Verif.AirwayGraph
open Verif.Parse.Isec (isComment_iff isCoord_isDecimal isCoord_head digit_props designator_props atLineEnd_nil atLineEnd_of)

/-- What the skip of this grammar consumes. -/
abbrev K : Str → Str → Prop := Blank [COMMENT]

theorem like_comment : LikeComment COMMENT commentMarks := likeComment_std

theorem skip_ok : SkipOK K skip := skipOne_ok rfl

theorem skip_uniform : Uniform skip := uniform_skipOne rfl

theorem skip_exact' : SkipExact K skip := skipOne_exact rfl rfl

theorem marks_solid : ∀ w ∈ commentMarks, ∃ c t, w = c :: t ∧ isNewlineChar c = false := by
  intro w hw
  simp only [commentMarks, List.mem_cons, List.not_mem_nil, or_false] at hw
  rcases hw with rfl | rfl
  · exact ⟨';', [], rfl, by decide⟩
  · exact ⟨'/', ['/'], rfl, by decide⟩

theorem K_iff (m r : Str) : K m r ↔ (m = [] ∧ ¬ ∃ w ∈ commentMarks, w <+: r) ∨ (IsComment m ∧ AtLineEnd r) := by
  rw [isComment_iff]
  exact comment1_iff like_comment marks_solid m r

theorem solid_noMark {r : Str} (h : Solid r) : ¬ ∃ w ∈ commentMarks, w <+: r := by
  obtain ⟨c, t, rfl, _, h2, h3⟩ := h
  rintro ⟨w, hw, hp⟩
  simp only [commentMarks, List.mem_cons, List.not_mem_nil, or_false] at hw
  rcases hw with rfl | rfl
  · rw [List.cons_prefix_cons] at hp; exact h2 hp.1.symm
  · rw [List.cons_prefix_cons] at hp; exact h3 hp.1.symm

theorem lineEnd_noMark {r : Str} (h : AtLineEnd r) : ¬ ∃ w ∈ commentMarks, w <+: r := by
  rintro ⟨w, hw, hp⟩
  obtain ⟨c, u, rfl, hcn⟩ := marks_solid w hw
  cases r with
  | nil => simp at hp
  | cons d t =>
    rw [List.cons_prefix_cons] at hp
    have := headNot_cons.1 h
    rw [← hp.1, hcn] at this
    cases this

theorem tight : Tight K := by
  intro m r h
  rw [K_iff]
  constructor
  · rintro (⟨h, _⟩ | ⟨_, h2⟩)
    · exact h
    · obtain ⟨c, t, rfl, h1, _⟩ := h
      have := headNot_cons.1 h2
      rw [h1] at this
      cases this
  · rintro rfl
    exact Or.inl ⟨rfl, solid_noMark h⟩

theorem K_lineEnd {m r : Str} (hm : m = [] ∨ IsComment m) (hr : AtLineEnd r) : K m r := by
  rw [K_iff]
  rcases hm with rfl | hm
  · exact Or.inl ⟨rfl, lineEnd_noMark hr⟩
  · exact Or.inr ⟨hm, hr⟩

theorem blank_of {m r : Str} (h : K m r) : m = [] ∨ IsComment m := by
  rcases (K_iff _ _).1 h with ⟨h, _⟩ | ⟨h, _⟩
  · exact Or.inl h
  · exact Or.inr h

/-! ## Tokens -/

theorem like_designator (a : Atom) :
    LikeCls skip K ((.cls isAsciiUpper) ∥ (.cls isAsciiDigit)) a (fun c => isAsciiUpper c || isAsciiDigit c) :=
  (likeCls_cls _ a).alt (likeCls_cls _ a) (uniform_eval skip_uniform _ rfl a)

theorem props_of {c : Char} (h : (isAsciiUpper c || isAsciiDigit c) = true) :
    isNewlineChar c = false ∧ c ≠ ';' ∧ c ≠ '/' := by
  have := designator_props (c := c) (by simpa using h)
  exact ⟨this.1, this.2.2⟩

theorem isDesignator_solid {s : Str} (h : IsDesignator s) : Solid s := by
  cases s with
  | nil => exact absurd rfl h.1
  | cons c s =>
    have := designator_props (h.2 c (by simp))
    exact solid_cons this.1 this.2.2.1 this.2.2.2

theorem isCoord_solid {s : Str} (h : IsCoord s) : Solid s := by
  obtain ⟨c, t, rfl, hc⟩ := isCoord_head h
  have := digit_props hc
  exact solid_cons this.1 this.2.2.1 this.2.2.2

theorem out_designator_iff {s r : Str} (hr : Solid r) {ts : List (Tree Rule)} :
    Out skip K designator .nonAtomic s r ts ↔ IsDesignator s ∧
      HeadNot (fun c => isAsciiUpper c || isAsciiDigit c) r ∧ ts = [.node .designator s []] := by
  show (∃ kids, Out skip K _ .nonAtomic s r kids ∧ _) ↔ _
  simp only [plus_solid tight skip_exact' (like_designator .nonAtomic) (fun c h => props_of h) hr]
  constructor
  · rintro ⟨kids, ⟨h1, h2, h3, rfl⟩, rfl⟩
    exact ⟨⟨h1, fun c hc => by simpa using h2 c hc⟩, h3, by simp [emits]⟩
  · rintro ⟨⟨h1, h2⟩, h3, rfl⟩
    exact ⟨[], ⟨h1, fun c hc => by simpa using h2 c hc, h3, rfl⟩, by simp [emits]⟩

theorem out_level_iff {s r : Str} (hr : Solid r) {ts : List (Tree Rule)} :
    Out skip K level .nonAtomic s r ts ↔ IsDigits s ∧ HeadNot isAsciiDigit r ∧ ts = [.node .level s []] := by
  show (∃ kids, Out skip K _ .nonAtomic s r kids ∧ _) ↔ _
  simp only [plus_solid tight skip_exact' (likeCls_cls isAsciiDigit .nonAtomic)
    (fun c h => props_of (by simp [h])) hr]
  constructor
  · rintro ⟨kids, ⟨h1, h2, h3, rfl⟩, rfl⟩
    exact ⟨⟨h1, h2⟩, h3, by simp [emits]⟩
  · rintro ⟨⟨h1, h2⟩, h3, rfl⟩
    exact ⟨[], ⟨h1, h2, h3, rfl⟩, by simp [emits]⟩

theorem out_DECIMAL_iff {s r : Str} {ts : List (Tree Rule)} :
    Out skip K DECIMAL .compound s r ts ↔ IsCoord s ∧ HeadNot isAsciiDigit r ∧
      ts = [.node .DECIMAL s []] := by
  show (∃ kids, Out skip K _ .atomic s r kids ∧ _) ↔ _
  simp only [out_seq_atomic (show Atom.atomic ≠ .nonAtomic by simp),
    (likeCls_cls (sk := skip) (K := K) isAsciiDigit .atomic).plus (by simp)]
  constructor
  · rintro ⟨kids, ⟨sg, u1, t1, t2, rfl, rfl, h1, ds, u2, t3, t4, rfl, rfl, ⟨h3, h4, h5, rfl⟩,
      pt, fs, t5, t6, rfl, rfl, ⟨rfl, rfl⟩, h7, h8, h9, rfl⟩, rfl⟩
    have : (sg = [] ∨ sg = ['-']) ∧ t1 = [] := by
      rcases h1 with ⟨rfl, rfl⟩ | ⟨rfl, rfl, _⟩ <;> simp
    obtain ⟨hsg, rfl⟩ := this
    exact ⟨⟨sg, ds, fs, by simp, hsg, ⟨h3, h4⟩, ⟨h7, h8⟩⟩, h9, by simp [emits]⟩
  · rintro ⟨⟨sg, ds, fs, rfl, hsg, ⟨h3, h4⟩, h7, h8⟩, h9, rfl⟩
    refine ⟨[], ⟨sg, ds ++ ('.' :: fs), [], [], by simp, rfl, ?_, ds, '.' :: fs, [], [], rfl, rfl,
      ⟨h3, h4, headNot_cons.2 (by decide), rfl⟩, ['.'], fs, [], [], rfl, rfl, ⟨rfl, rfl⟩,
      h7, h8, h9, rfl⟩, by simp [emits]⟩
    rcases hsg with rfl | rfl
    · refine Or.inr ⟨rfl, rfl, fails_str.2 ?_⟩
      cases ds with
      | nil => exact absurd rfl h3
      | cons c ds =>
        have := isDigit_ne (h4 c List.mem_cons_self) (d := '-') (by decide)
        simpa using fun e => this e.symm
    · exact Or.inl ⟨rfl, rfl⟩

theorem out_coord_part_iff {s r : Str} {ts : List (Tree Rule)} :
    Out skip K coord_part .nonAtomic s r ts ↔ IsCoord s ∧ HeadNot isAsciiDigit r ∧
      ts = [.node .coord_part s [.node .DECIMAL s []]] := by
  show (∃ kids, Out skip K DECIMAL .compound s r kids ∧ _) ↔ _
  simp only [out_DECIMAL_iff]
  constructor
  · rintro ⟨kids, ⟨h1, h2, rfl⟩, rfl⟩; exact ⟨h1, h2, by simp [emits]⟩
  · rintro ⟨h1, h2, rfl⟩; exact ⟨_, ⟨h1, h2, rfl⟩, by simp [emits]⟩

theorem solidE_tab {t : Str} : SolidE skip K (.str ('\t' :: t)) := solidE_str (by decide) (by decide) (by decide)

theorem solidE_coord_part : SolidE skip K coord_part := by
  intro s r ts h
  exact solid_append (isCoord_solid (out_coord_part_iff.1 h).1)

theorem solidE_coord : SolidE skip K coord := solidE_rule (solidE_seq solidE_coord_part)

/-- A designator always starts solid. -/
theorem solidE_designator : SolidE skip K designator := by
  refine solidE_rule (solidE_seq (solidE_alt ?_ ?_))
  · rintro s r ts ⟨c, rfl, hc, rfl⟩
    have := props_of (c := c) (by simp [hc])
    exact solid_cons this.1 this.2.1 this.2.2
  · rintro s r ts ⟨c, rfl, hc, rfl⟩
    have := props_of (c := c) (by simp [hc])
    exact solid_cons this.1 this.2.1 this.2.2

theorem solid_tab (t : Str) : Solid ('\t' :: t) := solid_cons (by decide) (by decide) (by decide)

/-- The tree of a coordinate. -/
def coordTree (lat lng : Str) : Tree Rule := .node .coord (lat ++ '\t' :: lng)
  [.node .coord_part lat [.node .DECIMAL lat []], .node .coord_part lng [.node .DECIMAL lng []]]

theorem out_coord_iff {s r : Str} {ts : List (Tree Rule)} :
    Out skip K coord .nonAtomic s r ts ↔ ∃ lat lng, s = lat ++ '\t' :: lng ∧ IsCoord lat ∧ IsCoord lng ∧
      HeadNot isAsciiDigit r ∧ ts = [coordTree lat lng] := by
  show (∃ kids, Out skip K _ .nonAtomic s r kids ∧ _) ↔ _
  simp only [seq_solid tight (solidE_seq solidE_tab), seq_solid tight solidE_coord_part, out_coord_part_iff]
  constructor
  · rintro ⟨kids, ⟨lat, s2, t1, t2, rfl, rfl, ⟨h1, h2, rfl⟩, _, lng, t3, t4, rfl, rfl, ⟨rfl, rfl⟩, h3, h4, rfl⟩, rfl⟩
    exact ⟨lat, lng, rfl, h1, h3, h4, by simp [emits, coordTree]⟩
  · rintro ⟨lat, lng, rfl, h1, h2, h3, rfl⟩
    exact ⟨_, ⟨lat, '\t' :: lng, _, _, rfl, rfl, ⟨h1, headNot_cons.2 (by decide), rfl⟩,
      ['\t'], lng, _, _, rfl, rfl, ⟨rfl, rfl⟩, h2, h3, rfl⟩, rfl⟩

/-- The tree of a level. -/
def levelTree (l : Str) : Tree Rule :=
  if IsDigits l then .node .level l [] else .node .not_established l []

theorem out_levels_iff {s r : Str} {ts : List (Tree Rule)} (hr : ∃ t, r = '\t' :: t) :
    Out skip K (level ∥ not_established) .nonAtomic s r ts ↔
      (IsDigits s ∨ s = c!"NESTB" ∨ s = []) ∧ ts = [levelTree s] := by
  obtain ⟨t, rfl⟩ := hr
  show (_ ∨ ((∃ kids, (_ ∨ _) ∧ _) ∧ _)) ↔ _
  rw [out_level_iff (solid_tab t)]
  constructor
  · rintro (⟨h1, _, rfl⟩ | ⟨⟨kids, ⟨rfl, rfl⟩ | ⟨⟨rfl, rfl⟩, _⟩, rfl⟩, _⟩)
    · exact ⟨Or.inl h1, by simp [levelTree, h1]⟩
    · refine ⟨Or.inr (Or.inl rfl), ?_⟩
      have : ¬ IsDigits c!"NESTB" := fun h => absurd (h.2 'N' (by simp)) (by decide)
      simp [levelTree, this, emits]
    · refine ⟨Or.inr (Or.inr rfl), ?_⟩
      have : ¬ IsDigits ([] : Str) := fun h => h.1 rfl
      simp [levelTree, this, emits]
  · rintro ⟨h | h | h, rfl⟩
    · exact Or.inl ⟨h, headNot_cons.2 (by decide), by simp [levelTree, h]⟩
    · subst h
      refine Or.inr ⟨⟨[], Or.inl ⟨rfl, rfl⟩, ?_⟩, ?_⟩
      · have : ¬ IsDigits c!"NESTB" := fun h => absurd (h.2 'N' (by simp)) (by decide)
        simp [levelTree, this, emits]
      · exact fails_rule (fails_plus (fails_cls.2 (headNot_cons.2 (by decide))))
    · subst h
      refine Or.inr ⟨⟨[], Or.inr ⟨⟨rfl, rfl⟩, fails_str.2 ?_⟩, ?_⟩, ?_⟩
      · rintro ⟨u, hu⟩
        simp at hu
      · have : ¬ IsDigits ([] : Str) := fun h => h.1 rfl
        simp [levelTree, this, emits]
      · exact fails_rule (fails_plus (fails_cls.2 (headNot_cons.2 (by decide))))

/-- The tree of the validity flag. -/
def validTree (v : Str) : Tree Rule := .node (if v = ['Y'] then .TRUE else .FALSE) v []

theorem out_bool_iff {s r : Str} {ts : List (Tree Rule)} :
    Out skip K bool .nonAtomic s r ts ↔ (s = ['Y'] ∨ s = ['N']) ∧ ts = [validTree s] := by
  show ((∃ kids, (_ ∧ _) ∧ _) ∨ ((∃ kids, (_ ∧ _) ∧ _) ∧ _)) ↔ _
  constructor
  · rintro (⟨kids, ⟨rfl, rfl⟩, rfl⟩ | ⟨⟨kids, ⟨rfl, rfl⟩, rfl⟩, _⟩)
    · exact ⟨Or.inl rfl, by simp [emits, validTree]⟩
    · exact ⟨Or.inr rfl, by simp [emits, validTree]⟩
  · rintro ⟨rfl | rfl, rfl⟩
    · exact Or.inl ⟨[], ⟨rfl, rfl⟩, by simp [emits, validTree]⟩
    · exact Or.inr ⟨⟨[], ⟨rfl, rfl⟩, by simp [emits, validTree]⟩, fails_rule (fails_str.2 (by simp))⟩

/-- The tree of a neighbour with the text `s`. -/
def nbTree : Option Nb → Str → Tree Rule
  | none, s => .node .no_neighbour s []
  | some n, s => .node .neighbour s [.node .designator n.designator [], coordTree n.lat n.lng,
      levelTree n.level, validTree n.valid]

theorem solidE_levels : SolidE skip K ((level ∥ not_established) ⬝ (.str ['\t']) ⬝ bool) := by
  refine solidE_skip tight ?_ (solidE_seq solidE_tab)
  rintro s r ts (⟨kids, ⟨s1, m, s2, t1, t2, rfl, _, ⟨c, rfl, hc, _⟩, _⟩, _⟩ | ⟨⟨kids, ⟨rfl, _⟩ | ⟨⟨rfl, _⟩, _⟩, _⟩, _⟩)
  · right
    have := props_of (c := c) (by simp [hc])
    exact solid_cons this.1 this.2.1 this.2.2
  · exact Or.inr (solid_cons (by decide) (by decide) (by decide))
  · exact Or.inl rfl

theorem out_neighbour_iff {s r : Str} {ts : List (Tree Rule)} :
    Out skip K neighbour .nonAtomic s r ts ↔ ∃ n, IsNb (some n) s ∧ ts = [nbTree (some n) s] := by
  show (∃ kids, Out skip K _ .nonAtomic s r kids ∧ _) ↔ _
  simp only [seq_solid tight (solidE_seq solidE_designator), seq_solid tight (solidE_seq solidE_tab),
    seq_solid tight (solidE_seq solidE_coord), seq_solid tight solidE_levels, seq_solid tight (y := bool)
      (fun s r ts h => by
        rcases (out_bool_iff.1 h).1 with rfl | rfl <;>
          exact solid_cons (by decide) (by decide) (by decide))]
  constructor
  · rintro ⟨kids, ⟨_, u1, t1, t2, rfl, rfl, ⟨rfl, rfl⟩, d, u2, t3, t4, rfl, rfl, h1, _, u3, t5, t6, rfl, rfl,
      ⟨rfl, rfl⟩, c, u4, t7, t8, rfl, rfl, h2, _, u5, t9, t10, rfl, rfl, ⟨rfl, rfl⟩, l, u6, t11, t12, rfl, rfl, h3,
      _, v, t13, t14, rfl, rfl, ⟨rfl, rfl⟩, h4⟩, rfl⟩
    obtain ⟨d1, _, rfl⟩ := (out_designator_iff (solid_tab _)).1 h1
    obtain ⟨lat, lng, rfl, c1, c2, _, rfl⟩ := out_coord_iff.1 h2
    obtain ⟨l1, rfl⟩ := (out_levels_iff ⟨_, rfl⟩).1 h3
    obtain ⟨v1, rfl⟩ := out_bool_iff.1 h4
    exact ⟨⟨d, lat, lng, l, v⟩, ⟨d1, c1, c2, l1, v1, by simp⟩, by simp [emits, nbTree]⟩
  · rintro ⟨⟨d, lat, lng, l, v⟩, ⟨d1, c1, c2, l1, v1, rfl⟩, rfl⟩
    refine ⟨_, ⟨['\t'], _, [], _, rfl, rfl, ⟨rfl, rfl⟩, d, _, [.node .designator d []], _, rfl, rfl, ?_,
      ['\t'], (lat ++ '\t' :: lng) ++ ('\t' :: (l ++ '\t' :: v)), [], _, by simp, rfl, ⟨rfl, rfl⟩,
      lat ++ '\t' :: lng, _, [coordTree lat lng], _, rfl, rfl, ?_,
      ['\t'], l ++ '\t' :: v, [], _, rfl, rfl, ⟨rfl, rfl⟩, l, '\t' :: v, [levelTree l], [validTree v], rfl, rfl, ?_,
      ['\t'], v, [], [validTree v], rfl, rfl, ⟨rfl, rfl⟩, out_bool_iff.2 ⟨v1, rfl⟩⟩, rfl⟩
    · exact (out_designator_iff (solid_tab _)).2 ⟨d1, headNot_cons.2 (by decide), rfl⟩
    · exact out_coord_iff.2 ⟨lat, lng, rfl, c1, c2, headNot_cons.2 (by decide), rfl⟩
    · exact (out_levels_iff ⟨_, rfl⟩).2 ⟨l1, rfl⟩

/-- A tab and possibly a zero, in front of solid text that does not start with a zero. -/
theorem out_zero_iff {s r : Str} {ts : List (Tree Rule)} (hr : Solid r) (h0 : r.head? ≠ some '0') :
    Out skip K ((.str ['\t']) ⬝ (.opt (.str c!"0"))) .nonAtomic s r ts ↔
      (s = ['\t'] ∨ s = ['\t', '0']) ∧ ts = [] := by
  have hf : Fails skip (.str c!"0") .nonAtomic r := fails_str.2 (by
    rintro ⟨u, rfl⟩
    exact h0 rfl)
  constructor
  · rintro ⟨_, m, s2, _, t2, rfl, hg, ⟨rfl, rfl⟩, ⟨rfl, rfl⟩ | ⟨rfl, rfl, _⟩, rfl⟩
    · have : m = [] := (tight _ _ (solid_cons (by decide) (by decide) (by decide))).1 hg
      subst this
      exact ⟨Or.inr rfl, rfl⟩
    · have : m = [] := (tight _ _ hr).1 hg
      subst this
      exact ⟨Or.inl rfl, rfl⟩
  · rintro ⟨rfl | rfl, rfl⟩
    · exact ⟨['\t'], [], [], [], [], rfl, (tight _ _ hr).2 rfl, ⟨rfl, rfl⟩, Or.inr ⟨rfl, rfl, hf⟩, rfl⟩
    · exact ⟨['\t'], [], ['0'], [], [], rfl, (tight _ _ (solid_cons (by decide) (by decide) (by decide))).2 rfl,
        ⟨rfl, rfl⟩, Or.inl ⟨rfl, rfl⟩, rfl⟩

theorem out_zero_head {s r : Str} {ts : List (Tree Rule)}
    (h : Out skip K ((.str ['\t']) ⬝ (.opt (.str c!"0"))) .nonAtomic s r ts) : ∃ t, s ++ r = '\t' :: t := by
  obtain ⟨_, m, s2, _, t2, rfl, hg, ⟨rfl, rfl⟩, _⟩ := h
  exact ⟨_, rfl⟩

theorem out_no_neighbour_iff {s r : Str} {ts : List (Tree Rule)} :
    Out skip K no_neighbour .nonAtomic s r ts ↔ IsNb none s ∧ ts = [nbTree none s] := by
  have z : SolidE skip K ((.str ['\t']) ⬝ (.opt (.str c!"0"))) := solidE_seq solidE_tab
  have zn : SolidE skip K (.str c!"N") := solidE_str (by decide) (by decide) (by decide)
  show (∃ kids, Out skip K _ .nonAtomic s r kids ∧ _) ↔ _
  simp only [seq_solid tight zn]
  rw [show (∃ kids, (∃ s1 s2 t1 t2, _ ∧ _ ∧ Out skip K _ .nonAtomic s1 (s2 ++ r) t1 ∧ _) ∧ _) ↔ _ from
    by simp only [seq_solid tight (solidE_seq z), seq_solid tight z]; exact Iff.rfl]
  have out : ∀ {z : Str}, z = [] ∨ z = ['0'] → ('\t' :: z = ['\t'] ∨ '\t' :: z = ['\t', '0']) := by
    rintro z (rfl | rfl) <;> simp
  have inn : ∀ {z : Str}, (z = ['\t'] ∨ z = ['\t', '0']) → ∃ y, z = '\t' :: y ∧ (y = [] ∨ y = ['0']) := by
    rintro z (rfl | rfl)
    · exact ⟨[], rfl, Or.inl rfl⟩
    · exact ⟨['0'], rfl, Or.inr rfl⟩
  have hN : ∀ t, Solid ('N' :: t) := fun t => solid_cons (by decide) (by decide) (by decide)
  constructor
  · rintro ⟨kids, ⟨s1, _, t1, t2, rfl, rfl, ⟨a1, u1, p1, q1, rfl, rfl, h1, a2, u2, p2, q2, rfl, rfl, h2,
      a3, u3, p3, q3, rfl, rfl, h3, a4, a5, p4, q4, rfl, rfl, h4, h5⟩, ⟨rfl, rfl⟩⟩, rfl⟩
    obtain ⟨g5, rfl⟩ := (out_zero_iff (hN r) (by simp)).1 h5
    obtain ⟨z5, rfl, k5⟩ := inn g5
    obtain ⟨g4, rfl⟩ := (out_zero_iff (solid_tab _) (by simp)).1 h4
    obtain ⟨z4, rfl, k4⟩ := inn g4
    obtain ⟨g3, rfl⟩ := (out_zero_iff (solid_tab _) (by simp)).1 h3
    obtain ⟨z3, rfl, k3⟩ := inn g3
    obtain ⟨g2, rfl⟩ := (out_zero_iff (solid_tab _) (by simp)).1 h2
    obtain ⟨z2, rfl, k2⟩ := inn g2
    obtain ⟨g1, rfl⟩ := (out_zero_iff (solid_tab _) (by simp)).1 h1
    obtain ⟨z1, rfl, k1⟩ := inn g1
    refine ⟨⟨z1, z2, z3, z4, z5, ?_, by simp⟩, by simp [emits, nbTree]⟩
    simp only [List.mem_cons, List.not_mem_nil, or_false]
    rintro z (rfl | rfl | rfl | rfl | rfl) <;> assumption
  · rintro ⟨⟨z1, z2, z3, z4, z5, hz, rfl⟩, rfl⟩
    simp only [List.mem_cons, List.not_mem_nil, or_false] at hz
    refine ⟨[], ⟨'\t' :: (z1 ++ '\t' :: (z2 ++ '\t' :: (z3 ++ '\t' :: (z4 ++ '\t' :: z5)))), ['N'], [], [], by simp,
      rfl, ⟨'\t' :: z1, _, [], [], by simp; rfl, rfl, ?_, '\t' :: z2, _, [], [], by simp; rfl, rfl, ?_,
      '\t' :: z3, _, [], [], by simp; rfl, rfl, ?_, '\t' :: z4, '\t' :: z5, [], [], by simp, rfl, ?_, ?_⟩, rfl, rfl⟩,
      by simp [emits, nbTree]⟩
    · exact (out_zero_iff (solid_tab _) (by simp)).2 ⟨out (hz _ (by simp)), rfl⟩
    · exact (out_zero_iff (solid_tab _) (by simp)).2 ⟨out (hz _ (by simp)), rfl⟩
    · exact (out_zero_iff (solid_tab _) (by simp)).2 ⟨out (hz _ (by simp)), rfl⟩
    · exact (out_zero_iff (solid_tab _) (by simp)).2 ⟨out (hz _ (by simp)), rfl⟩
    · exact (out_zero_iff (hN r) (by simp)).2 ⟨out (hz _ (by simp)), rfl⟩

/-- A neighbour does not read as the absence of one. -/
theorem fails_no_neighbour {n : Nb} {s r : Str} (h : IsNb (some n) s) :
    Fails skip no_neighbour .nonAtomic (s ++ r) := by
  refine fails_of_not_out skip_ok rfl ?_
  intro s' r' ts e ho
  obtain ⟨⟨z1, z2, z3, z4, z5, hz, rfl⟩, _⟩ := out_no_neighbour_iff.1 ho
  obtain ⟨⟨d0, d1⟩, c1, c2, _, _, rfl⟩ := h
  simp only [List.cons_append, List.append_assoc, List.cons.injEq, true_and] at e
  have e2 : z2 ++ '\t' :: (z3 ++ ('\t' :: (z4 ++ '\t' :: (z5 ++ ['N'])) ++ r')) =
      n.lat ++ '\t' :: (n.lng ++ ('\t' :: (n.level ++ '\t' :: (n.valid ++ r)))) := by
    rcases hz z1 (by simp) with rfl | rfl
    · cases hd : n.designator with
      | nil => exact absurd hd d0
      | cons c d =>
        rw [hd] at e
        simp only [List.cons_append, List.nil_append, List.cons.injEq] at e
        have := d1 c (by simp [hd])
        rw [e.1] at this
        exact absurd this (by decide)
    · cases hd : n.designator with
      | nil => exact absurd hd d0
      | cons c d =>
        rw [hd] at e
        simp only [List.cons_append, List.nil_append, List.cons.injEq] at e
        cases d with
        | nil =>
          simp only [List.nil_append, List.cons.injEq, true_and] at e
          simpa using e.2.symm
        | cons b d =>
          simp only [List.cons_append, List.cons.injEq] at e
          have := d1 b (by simp [hd])
          rw [e.2.1] at this
          exact absurd this (by decide)
  obtain ⟨sg, ds, fs, hl, hs, ⟨g0, g1⟩, _⟩ := c1
  rw [hl] at e2
  cases ds with
  | nil => exact g0 rfl
  | cons c ds =>
    have gc := g1 c (by simp)
    rcases hz z2 (by simp) with rfl | rfl <;> rcases hs with rfl | rfl <;>
      simp only [List.nil_append, List.cons_append, List.cons.injEq, List.append_assoc] at e2
    · rw [← e2.1] at gc; revert gc; decide
    · exact absurd e2.1 (by decide)
    · cases ds with
      | nil =>
        simp only [List.nil_append, List.cons.injEq] at e2
        exact absurd e2.2.1 (by decide)
      | cons b ds =>
        simp only [List.cons_append, List.cons.injEq] at e2
        have := g1 b (by simp)
        rw [← e2.2.1] at this
        revert this; decide
    · exact absurd e2.1 (by decide)

theorem out_nb_iff {s r : Str} {ts : List (Tree Rule)} :
    Out skip K (no_neighbour ∥ neighbour) .nonAtomic s r ts ↔ ∃ n, IsNb n s ∧ ts = [nbTree n s] := by
  show (_ ∨ _) ↔ _
  rw [out_no_neighbour_iff, out_neighbour_iff]
  constructor
  · rintro (⟨h, rfl⟩ | ⟨⟨n, h, rfl⟩, _⟩)
    · exact ⟨none, h, rfl⟩
    · exact ⟨some n, h, rfl⟩
  · rintro ⟨n | n, h, rfl⟩
    · exact Or.inl ⟨h, rfl⟩
    · exact Or.inr ⟨⟨n, h, rfl⟩, fails_no_neighbour h⟩

theorem isNb_head {n : Option Nb} {s : Str} (h : IsNb n s) : ∃ t, s = '\t' :: t := by
  cases n with
  | none => obtain ⟨z1, z2, z3, z4, z5, _, rfl⟩ := h; exact ⟨_, rfl⟩
  | some n => obtain ⟨_, _, _, _, _, rfl⟩ := h; exact ⟨_, rfl⟩

theorem solidE_nb : SolidE skip K (no_neighbour ∥ neighbour) := by
  intro s r ts h
  obtain ⟨n, hn, _⟩ := out_nb_iff.1 h
  obtain ⟨t, rfl⟩ := isNb_head hn
  exact solid_tab _

theorem out_type_iff {s r : Str} {ts : List (Tree Rule)} (hr : ∃ t, r = '\t' :: t) :
    Out skip K airway_type .nonAtomic s r ts ↔
      (s = ['B'] ∨ s = ['H'] ∨ s = ['L'] ∨ s = []) ∧ ts = [.node .airway_type s []] := by
  obtain ⟨t, rfl⟩ := hr
  show (∃ kids, ((_ ∧ _) ∨ (((_ ∧ _) ∨ (((_ ∧ _) ∨ ((_ ∧ _) ∧ _)) ∧ _)) ∧ _)) ∧ _) ↔ _
  constructor
  · rintro ⟨kids, ⟨rfl, rfl⟩ | ⟨⟨rfl, rfl⟩ | ⟨⟨rfl, rfl⟩ | ⟨⟨rfl, rfl⟩, _⟩, _⟩, _⟩, rfl⟩ <;> simp [emits]
  · rintro ⟨h, rfl⟩
    refine ⟨[], ?_, by simp [emits]⟩
    rcases h with rfl | rfl | rfl | rfl
    · exact Or.inl ⟨rfl, rfl⟩
    · exact Or.inr ⟨Or.inl ⟨rfl, rfl⟩, fails_str.2 (by simp)⟩
    · exact Or.inr ⟨Or.inr ⟨Or.inl ⟨rfl, rfl⟩, fails_str.2 (by simp)⟩, fails_str.2 (by simp)⟩
    · exact Or.inr ⟨Or.inr ⟨Or.inr ⟨⟨rfl, rfl⟩, fails_str.2 (by simp)⟩, fails_str.2 (by simp)⟩, fails_str.2 (by simp)⟩

/-- The tree of an airway line: `s` is its text. -/
def lineTree (w : Line) (s n1 n2 : Str) : Tree Rule :=
  .node .airway s [.node .designator w.fix [], coordTree w.lat w.lng, .node .designator w.airway [],
    .node .airway_type w.type [], nbTree w.nb1 n1, nbTree w.nb2 n2]

/-- The text of an airway line without a comment. -/
def lineText (w : Line) (n1 n2 : Str) : Str :=
  w.fix ++ '\t' :: (w.lat ++ '\t' :: (w.lng ++ '\t' :: '1' :: '4' :: '\t' :: (w.airway ++ '\t' ::
      (w.type ++ (n1 ++ n2)))))

/-- The fields of a line are as required. -/
def LineOK (w : Line) (n1 n2 : Str) : Prop :=
  IsDesignator w.fix ∧ IsCoord w.lat ∧ IsCoord w.lng ∧ IsDesignator w.airway ∧
    (w.type = ['B'] ∨ w.type = ['H'] ∨ w.type = ['L'] ∨ w.type = []) ∧ IsNb w.nb1 n1 ∧ IsNb w.nb2 n2

theorem out_airway_iff {s r : Str} {ts : List (Tree Rule)} :
    Out skip K airway .nonAtomic s r ts ↔ ∃ w n1 n2 m s2 t2, s = lineText w n1 n2 ++ m ++ s2 ∧ LineOK w n1 n2 ∧
      K m (s2 ++ r) ∧ Out skip K NL .nonAtomic s2 r t2 ∧
      ts = [.node .airway s ([.node .designator w.fix [], coordTree w.lat w.lng, .node .designator w.airway [],
        .node .airway_type w.type [], nbTree w.nb1 n1, nbTree w.nb2 n2] ++ t2)] := by
  have hty : SolidE skip K (airway_type ⬝ (no_neighbour ∥ neighbour) ⬝ (no_neighbour ∥ neighbour) ⬝ NL) := by
    refine solidE_skip tight ?_ (solidE_seq solidE_nb)
    rintro s r ts ⟨kids, ⟨rfl, rfl⟩ | ⟨⟨rfl, rfl⟩ | ⟨⟨rfl, rfl⟩ | ⟨⟨rfl, rfl⟩, _⟩, _⟩, _⟩, rfl⟩
    · exact Or.inr (solid_cons (by decide) (by decide) (by decide))
    · exact Or.inr (solid_cons (by decide) (by decide) (by decide))
    · exact Or.inr (solid_cons (by decide) (by decide) (by decide))
    · exact Or.inl rfl
  have h14 : ∀ {y : Expr Rule}, SolidE skip K ((.str c!"14") ⬝ y) :=
    solidE_seq (solidE_str (by decide) (by decide) (by decide))
  show (∃ kids, Out skip K _ .nonAtomic s r kids ∧ _) ↔ _
  simp only [seq_solid tight (solidE_seq solidE_designator), seq_solid tight (solidE_seq solidE_tab),
    seq_solid tight (solidE_seq solidE_coord), seq_solid tight h14, seq_solid tight hty,
    seq_solid tight (solidE_seq solidE_nb)]
  constructor
  · rintro ⟨kids, ⟨fx, u1, t1, t2, rfl, rfl, h1, _, u2, t3, t4, rfl, rfl, ⟨rfl, rfl⟩, c, u3, t5, t6, rfl, rfl, h2,
      _, u4, t7, t8, rfl, rfl, ⟨rfl, rfl⟩, _, u5, t9, t10, rfl, rfl, ⟨rfl, rfl⟩, _, u6, t11, t12, rfl, rfl,
      ⟨rfl, rfl⟩, aw, u7, t13, t14, rfl, rfl, h3, _, u8, t15, t16, rfl, rfl, ⟨rfl, rfl⟩, ty, u9, t17, t18, rfl, rfl,
      h4, n1, u10, t19, t20, rfl, rfl, h5, n2, m, s2, t21, t22, rfl, hg, h6, h7, rfl⟩, rfl⟩
    obtain ⟨d1, _, rfl⟩ := (out_designator_iff (solid_tab _)).1 h1
    obtain ⟨lat, lng, rfl, c1, c2, _, rfl⟩ := out_coord_iff.1 h2
    obtain ⟨d2, _, rfl⟩ := (out_designator_iff (solid_tab _)).1 h3
    obtain ⟨b1, k1, rfl⟩ := out_nb_iff.1 h5
    obtain ⟨b2, k2, rfl⟩ := out_nb_iff.1 h6
    obtain ⟨ty1, rfl⟩ := (out_type_iff (by
      obtain ⟨t, rfl⟩ := isNb_head k1; exact ⟨_, rfl⟩)).1 h4
    refine ⟨⟨fx, lat, lng, aw, ty, b1, b2⟩, n1, n2, m, s2, t22, by simp [lineText], ⟨d1, c1, c2, d2, ty1, k1, k2⟩,
      hg, h7, by simp [emits]⟩
  · rintro ⟨⟨fx, lat, lng, aw, ty, b1, b2⟩, n1, n2, m, s2, t2, rfl, ⟨d1, c1, c2, d2, ty1, k1, k2⟩, hg, hnl, rfl⟩
    obtain ⟨y, hy⟩ := isNb_head k1
    refine ⟨_, ⟨fx, '\t' :: ((lat ++ '\t' :: lng) ++ ('\t' :: '1' :: '4' :: '\t' :: (aw ++ ('\t' ::
      (ty ++ (n1 ++ (n2 ++ m ++ s2))))))), [.node .designator fx []], _, by simp [lineText], rfl,
      (out_designator_iff (solid_tab _)).2 ⟨d1, headNot_cons.2 (by decide), rfl⟩,
      ['\t'], _, [], _, rfl, rfl, ⟨rfl, rfl⟩, _, _, [coordTree lat lng], _, rfl, rfl,
      out_coord_iff.2 ⟨lat, lng, rfl, c1, c2, headNot_cons.2 (by decide), rfl⟩,
      ['\t'], _, [], _, rfl, rfl, ⟨rfl, rfl⟩, c!"14", _, [], _, rfl, rfl, ⟨rfl, rfl⟩,
      ['\t'], _, [], _, rfl, rfl, ⟨rfl, rfl⟩, aw, _, [.node .designator aw []], _, rfl, rfl,
      (out_designator_iff (solid_tab _)).2 ⟨d2, headNot_cons.2 (by decide), rfl⟩,
      ['\t'], _, [], _, rfl, rfl, ⟨rfl, rfl⟩, ty, _, [.node .airway_type ty []], _, rfl, rfl,
      (out_type_iff ⟨y ++ (n2 ++ m ++ s2) ++ r, by simp [hy]⟩).2 ⟨ty1, rfl⟩, n1, _, [nbTree b1 n1], _, rfl, rfl,
      out_nb_iff.2 ⟨b1, k1, rfl⟩, n2, m, s2, [nbTree b2 n2], t2, rfl, hg,
      out_nb_iff.2 ⟨b2, k2, rfl⟩, hnl, rfl⟩, ?_⟩
    simp [emits]

end Verif.Parse.Airway
