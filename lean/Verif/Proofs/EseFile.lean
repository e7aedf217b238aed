import Verif.Proofs.EseStatements
import Verif.Proofs.Asr
import Verif.Props.EseAirspace
/-!
# Sections of .ese files and whole files
-/

namespace Verif.Proofs.Ese
open Verif.Peg Verif.Spec Verif.Spec.Ese Verif.Dms Verif.Parse
open Verif.Peg.Ese (Rule skip)
open Verif.EseAirspace (Sector Statement airspace)
open Verif.Constraints (Constraint)
open Verif.Locations (SidStar)
open Verif.Parse.Ese (parsePosition parseAirspace parseSidStar parseSection assemble Section SectionName CircleSectorLine Position)

set_option linter.unusedSectionVars false

/-! ## SIDs and STARs -/

theorem fails_des_end {r : Str} (h : AtLineEnd r) : Fails skip Peg.Ese.designator .nonAtomic r := fails_des (desEnd_of (Or.inr h))

theorem k_blank {v r : Str} (h : IsDesignator v) : K [' '] (v ++ r) := by
  refine lineSkip.spaces (by decide) ?_
  cases v with
  | nil => exact absurd rfl h.1
  | cons c t => exact plain_cons (des_head (des_chars h c List.mem_cons_self))

theorem desEnd_blank (r : Str) : DesEnd (' ' :: r) := headNot_cons.2 (by decide)

theorem waypoints_end {l : List Str} {r : Str} (hr : AtLineEnd r) : DesEnd ((l.flatMap fun v => ' ' :: v) ++ r) := by
  cases l with
  | nil => exact desEnd_of (Or.inr hr)
  | cons v l => exact desEnd_blank _

theorem route_parts {l : List Str} {r : Str} (h : ∀ w ∈ l, IsDesignator w) (hr : AtLineEnd r) :
    Parts skip K Peg.Ese.designator (l.map fun v => (([' '], v), [.node .designator v []])) r := by
  induction l with
  | nil => trivial
  | cons v l ih =>
    have hv := h v List.mem_cons_self
    have e : (List.map (fun v => (([' '], v), [Tree.node Rule.designator v []])) l).flatMap (fun p => p.1.1 ++ p.1.2) =
        l.flatMap fun v => ' ' :: v := by
      rw [List.flatMap_map]; rfl
    refine ⟨⟨k_blank hv, ?_⟩, ih fun w hw => h w (List.mem_cons_of_mem _ hw)⟩
    show Out skip K Peg.Ese.designator .nonAtomic v _ _
    rw [e]
    exact (seg_des hv _ (waypoints_end hr)).1

theorem seg_route {l : List Str} (h : ∀ w ∈ l, IsDesignator w) :
    S AtLineEnd Peg.Ese.route (spaced l) [.node .route (spaced l) (l.map fun v => .node .designator v [])] := by
  refine seg_rule fun r hr => ?_
  cases l with
  | nil => exact ⟨Or.inl ⟨rfl, rfl, fails_des_end hr⟩, k_end hr⟩
  | cons v l =>
    have hv := h v List.mem_cons_self
    have e : (List.map (fun v => (([' '], v), [Tree.node Rule.designator v []])) l).flatMap (fun p => p.1.1 ++ p.1.2) =
        l.flatMap fun v => ' ' :: v := by
      rw [List.flatMap_map]; rfl
    refine ⟨Or.inr ⟨v, [.node .designator v []], l.map fun v => (([' '], v), [.node .designator v []]), ?_, ?_, ?_,
      route_parts (fun w hw => h w (List.mem_cons_of_mem _ hw)) hr, 0, [], ?_⟩, ?_⟩
    · simp only [spaced, e]
    · rw [List.flatMap_map]
      have : ∀ l : List Str, (l.map fun v => Tree.node Rule.designator v []) = l.flatMap fun v => [Tree.node Rule.designator v []] := by
        intro l; induction l <;> simp_all
      simp [this]
    · show Out skip K Peg.Ese.designator .nonAtomic v _ _
      rw [e]
      exact (seg_des hv _ (waypoints_end hr)).1
    · rw [skipIf_exact (a := .nonAtomic) (m := []) (r := r) lineSkip.exact (k_end hr) rfl, Res.ok_bind]
      exact (uniform_eval lineSkip.uniform _ rfl _).fail_of (fails_des_end hr) _ rfl
    · simp only [spaced, List.append_assoc]
      exact k_des hv

def runwayTree : Option Str → Tree Rule
  | none => .node .none [] []
  | some v => .node .runway_designator v []

def procedureTrees (p : ProcedureLine) : List (Tree Rule) :=
  [.node .designator p.airport [], runwayTree p.runway, text p.name,
    .node .route (spaced p.waypoints) (p.waypoints.map fun v => .node .designator v [])]

theorem seg_runwayOpt {o : Option Str} (h : ∀ r, o = some r → IsRunway r) :
    S Colon (Peg.Ese.runway_designator ∥ Peg.Ese.none) (o.getD []) [runwayTree o] := by
  cases o with
  | none => exact seg_noRunway
  | some v => exact seg_runway (h v rfl)

abbrev procedureBody : Expr Rule :=
  Peg.Ese.designator ⬝ (.str c!":") ⬝ (Peg.Ese.runway_designator ∥ Peg.Ese.none) ⬝ (.str c!":") ⬝
    Peg.Ese.colon_delimited_text ⬝ (.str c!":") ⬝ Peg.Ese.route

theorem pb_procedureBody {p : ProcedureLine} {f r : Str} (h : p.Valid) (hf : IsBreak f) :
    P procedureBody (p.airport ++ ':' :: (p.runway.getD [] ++ ':' :: (p.name ++ ':' :: spaced p.waypoints))) (f ++ r)
      (procedureTrees p) :=
  pb_colon k_colon (seg_mono (seg_designator h.1) ends_colon) (pb_colon k_colon (seg_runwayOpt h.2.1)
    (pb_colon k_colon (seg_field h.2.2.1) (pb_last lineSkip (seg_route h.2.2.2) hf)))

theorem read_procedure (p : ProcedureLine) (s : Str) :
    parseSidStar (.node (if p.star then .star else .sid) s (procedureTrees p)) = .ok p.value := by
  obtain ⟨st, airport, runway, name, waypoints⟩ := p
  have e : (waypoints.map fun v => Tree.node Rule.designator v []).map Tree.asStr = waypoints := by
    rw [List.map_map]; exact List.map_id _
  cases st <;> cases runway <;> simp [parseSidStar, procedureTrees, runwayTree, ProcedureLine.value, e, Parse.Ese.nextStr] <;> rfl

theorem pb_procedure {p : ProcedureLine} {f r : Str} (h : p.Valid) (hf : IsBreak f) :
    ∃ t, P (Peg.Ese.sid ∥ Peg.Ese.star) p.text (f ++ r) [t] ∧ parseSidStar t = .ok p.value := by
  have hb := pb_procedureBody (r := r) h hf
  cases hs : p.star with
  | false =>
    obtain ⟨s, hs'⟩ := pb_rule (q := .sid) (pb_key (w := c!"SID:") (k_key (by decide)) hb)
    have e : p.text = c!"SID:" ++ (p.airport ++ ':' :: (p.runway.getD [] ++ ':' :: (p.name ++ ':' :: spaced p.waypoints))) := by
      simp [ProcedureLine.text, hs]
    exact ⟨_, pb_alt_left (by rw [e]; exact hs'), by simpa [hs] using read_procedure p s⟩
  | true =>
    obtain ⟨s, hs'⟩ := pb_rule (q := .star) (pb_key (w := c!"STAR:") (k_key (by decide)) hb)
    have e : p.text = c!"STAR:" ++ (p.airport ++ ':' :: (p.runway.getD [] ++ ':' :: (p.name ++ ':' :: spaced p.waypoints))) := by
      simp [ProcedureLine.text, hs]
    refine ⟨_, pb_alt_right (fails_key ?_) (by rw [e]; exact hs'), by simpa [hs] using read_procedure p s⟩
    rw [e, List.append_assoc]
    exact not_prefix (by decide)

theorem start_procedure {p : ProcedureLine} {r : Str} : Start (p.text ++ r) := by
  unfold ProcedureLine.text
  cases p.star
  · rw [if_neg (by simp), List.append_assoc]; exact start_key (by decide) _
  · rw [if_pos (by simp), List.append_assoc]; exact start_key (by decide) _

/-! ## Starts of sections -/

/-- The end of the file or the header of a section. -/
def SecStart (r : Str) : Prop :=
  r = [] ∨ ∃ a b, r = ('[' :: a) ++ b ∧ (∀ c ∈ a, c ≠ ':' ∧ isNewlineChar c = false) ∧ AtLineEnd b

theorem secStart_starts {r : Str} (h : SecStart r) : Starts [c!"["] r := by
  rcases h with rfl | ⟨a, b, rfl, _⟩
  · exact Or.inl rfl
  · exact Or.inr ⟨c!"[", by simp, a ++ b, rfl⟩

theorem secStart_items {r : Str} (h : SecStart r) : ItemStart r := by
  rcases secStart_starts h with rfl | ⟨w, hw, t, rfl⟩
  · exact Or.inl rfl
  · exact Or.inr ⟨w, by simp only [List.mem_singleton] at hw; subst hw; simp, t, rfl⟩

theorem secStart_start {r : Str} (h : SecStart r) : Start r := itemStart (secStart_items h)

theorem no_newline_K {m r : Str} (h : K m r) : ∀ c ∈ m, isNewlineChar c = false := by
  obtain ⟨sp, cm, rfl, h1, h2⟩ := (lineSkip.iff _ _).1 h
  intro c hc
  rcases List.mem_append.1 hc with hc | hc
  · rcases blankChar_iff.1 (h1 c hc) with rfl | rfl <;> decide
  · rcases h2 with ⟨rfl, _⟩ | ⟨⟨w, hw, body, rfl, hb⟩, _⟩
    · cases hc
    · rcases List.mem_append.1 hc with hc | hc
      · simp only [List.mem_singleton] at hw
        subst hw
        simp only [List.mem_singleton] at hc
        subst hc
        decide
      · exact hb c hc

/-- No position starts at the header of a section. -/
theorem fails_position {r : Str} (h : SecStart r) : Fails skip (Peg.Ese.position ⬝ Base.NL) .nonAtomic r := by
  refine fails_seq_left (fails_rule (fails_of_not_out lineSkip.ok (by rfl) ?_))
  rintro s r' ts e ⟨s1, m, s2, t1, t2, rfl, hg, h1, ⟨s3, m2, s4, t3, t4, rfl, _, ⟨h3, _⟩, _, _⟩, _⟩
  have hg : K m _ := hg
  obtain ⟨_, h1, _⟩ := h1
  have h1' := out_until_not (p := fun c => isNewlineChar c) (by decide) (fun c r pos stk hc he => by
    obtain ⟨p', k', st, ts, e2⟩ := nl_ok lineSkip (t := r) hc
    have hf : Fails skip (Base.NL : Expr Rule) .atomic (c :: r) :=
      ((fails_alt_iff (y := .str c!":") (uniform_eval lineSkip.uniform (Base.NL : Expr Rule) rfl .atomic)).1 ⟨pos, stk, he⟩).1
    have := (uniform_eval lineSkip.uniform (Base.NL : Expr Rule) rfl .atomic).fail_of hf ⟨p', c :: r, k'⟩ rfl
    rw [e2] at this
    cases this) h1
  have hp : ∀ c ∈ s1 ++ m, isNewlineChar c = false := by
    intro c hc
    rcases List.mem_append.1 hc with hc | hc
    · exact h1' c hc
    · exact no_newline_K hg c hc
  subst h3
  rcases h with rfl | ⟨a, b, rfl, ha, hb⟩
  · simp at e
  · have e : ('[' :: a) ++ b = (s1 ++ m) ++ (':' :: (m2 ++ s4 ++ r')) := by simpa using e
    rcases List.append_eq_append_iff.1 e with ⟨c, e1, e2⟩ | ⟨c, e1, e2⟩
    · cases b with
      | nil => simp at e2
      | cons d b =>
        have hd : isNewlineChar d = true := by simpa using headNot_cons.1 hb
        cases c with
        | nil =>
          have := congrArg List.head? e2
          simp only [List.nil_append, List.head?_cons, Option.some.injEq] at this
          subst this
          exact absurd hd (by decide)
        | cons d' c =>
          have := congrArg List.head? e2
          simp only [List.cons_append, List.head?_cons, Option.some.injEq] at this
          subst this
          rw [hp d (by rw [e1]; simp)] at hd
          cases hd
    · cases c with
      | nil =>
        cases b with
        | nil => simp at e2
        | cons d b =>
          have := congrArg List.head? e2
          simp only [List.nil_append, List.head?_cons, Option.some.injEq] at this
          subst this
          exact absurd (headNot_cons.1 hb) (by decide)
      | cons d c =>
        have := congrArg List.head? e2
        simp only [List.cons_append, List.head?_cons, Option.some.injEq] at this
        subst this
        have hm : ':' ∈ '[' :: a := by rw [e1]; simp
        rcases List.mem_cons.1 hm with h | h
        · exact absurd h (by decide)
        · exact (ha _ h).1 rfl

theorem fails_procedure {r : Str} (h : SecStart r) : Fails skip ((Peg.Ese.sid ∥ Peg.Ese.star) ⬝ Base.NL) .nonAtomic r :=
  fails_seq_left (fails_alt rfl (fails_key (starts_not (secStart_starts h) (by decide) (by decide)))
    (fails_key (starts_not (secStart_starts h) (by decide) (by decide))))

/-! ## Sections that are not read -/

theorem otherLine_head {v r : Str} (h : IsOtherLine v) : Start (v ++ r) ∧ ¬ c!"[" <+: v ++ r := by
  obtain ⟨h1, ⟨c, t, rfl, hb, hs, hx⟩, _⟩ := h
  refine ⟨start_cons ⟨?_, hs⟩ (not_newline_iff.2 (h1 c List.mem_cons_self)), ?_⟩
  · cases hh : isSpTab c with
    | false => rfl
    | true => exact absurd (blankChar_iff.1 hh) hb
  · rintro ⟨u, hu⟩
    have := congrArg List.head? hu
    simp at this
    exact hx this.symm

theorem seg_broken {v : Str} (h : IsOtherLine v) : S AtLineEnd Peg.Ese.broken v [.node .broken v []] := by
  refine seg_atomic (fun r hr => ?_) fun r _ => k_start (otherLine_head h).1
  refine (out_seq_atomic (by decide)).2 ⟨[], v, [], [], rfl, rfl, ⟨rfl, rfl, ?_⟩, ?_⟩
  · exact fails_str.2 (otherLine_head h).2
  · obtain ⟨h1, ⟨c, t, rfl, hb, hs, hx⟩, hl⟩ := h
    refine out_until_text (by decide) (fun p d q e => ?_) ?_
    · refine fails_NL lineSkip ?_
      have := no_lineEnd (v := d :: q) (r := r) (fun x hx => not_newline_iff.2 (h1 x (by rw [e]; simp [List.mem_cons.1 hx])))
        (Or.inl ⟨(d :: q).getLast (by simp), List.getLast_mem _, ?_⟩)
      · simpa using this
      · have := hl ((d :: q).getLast (by simp)) (by
          rw [e, List.getLast?_append, List.getLast?_eq_some_getLast (by simp : d :: q ≠ [])]; rfl)
        cases hh : isSpTab ((d :: q).getLast (by simp)) with
        | false => rfl
        | true => exact absurd (blankChar_iff.1 hh) this
    · cases r with
      | nil => exact fails_until_nil lineSkip.ok (by rfl) (by decide)
      | cons c t =>
        obtain ⟨pos, stk, st, ts, h1⟩ := nl_ok lineSkip (t := t) (c := c) (by simpa using headNot_cons.1 hr)
        exact fails_until_ok ⟨pos, stk, st, ts, h1⟩

theorem fails_line {r : Str} (h : SecStart r) : Fails skip Peg.Ese.line .nonAtomic r := by
  rcases h with rfl | ⟨a, b, rfl, _⟩
  · refine fails_of_not_out lineSkip.ok (by rfl) ?_
    rintro s r' ts e ⟨s1, m, s2, t1, t2, rfl, _, _, h2, _⟩
    simp only [List.nil_eq, List.append_eq_nil_iff] at e
    obtain ⟨⟨⟨rfl, rfl⟩, rfl⟩, rfl⟩ := e
    have hn := fails_plus (fails_nlOne lineSkip (plain_lineEnd lineSkip.apart (headNot_nil _)) (headNot_nil _))
    obtain ⟨pos, stk, hf⟩ := hn
    have he := out_eval lineSkip.uniform lineSkip.exact Base.NL rfl (by rfl) .nonAtomic [] [] t2 ⟨pos, [], stk⟩ h2 rfl
    have hf : eval skip (Base.NL : Expr Rule) .nonAtomic ⟨pos, [], stk⟩ = .fail := hf
    rw [he] at hf
    cases hf
  · exact fails_seq_left (fails_rule (fails_seq_left (by
      refine ⟨0, [], ?_⟩
      simp [eval])))

theorem otherName_chars {v : Str} (h : IsOtherName v) : ∀ c ∈ v, isAsciiUpper c = true ∨ IsBlankChar c := by
  obtain ⟨⟨c, t, rfl, hc, ht⟩, _⟩ := h
  intro d hd
  rcases List.mem_cons.1 hd with rfl | hd
  · exact Or.inl hc
  · exact ht d hd

theorem upper_not {c d : Char} (h : isAsciiUpper c = true) (hd : isAsciiUpper d = false) : c ≠ d := by
  rintro rfl; rw [h] at hd; cases hd

theorem otherName_ne {v : Str} (h : IsOtherName v) {c d : Char} (hc : c ∈ v) (h1 : isAsciiUpper d = false) (h2 : ¬ IsBlankChar d) :
    c ≠ d := by
  rcases otherName_chars h c hc with h | h
  · exact upper_not h h1
  · rintro rfl; exact h2 h

theorem seg_header {v : Str} (h : IsOtherName v) :
    S (fun r => ∃ t, r = ']' :: t) Peg.Ese.header_name v [.node .header_name v []] := by
  have hl : LikeCls skip K ((.cls isAsciiUpper) ∥ Peg.Ese.WHITESPACE) .atomic _ :=
    (likeCls_cls _ _).alt (likeCls_spTab .atomic lineSkip.uniform).quiet (uniform_eval lineSkip.uniform _ rfl _)
  refine seg_atomic (fun r hr => (hl.plus (by decide)).2 ⟨?_, ?_, ?_, rfl⟩) ?_
  · obtain ⟨⟨c, t, rfl, _⟩, _⟩ := h
    simp
  · intro c hc
    rcases otherName_chars h c hc with h | h
    · simp [h]
    · rcases h with rfl | rfl <;> decide
  · obtain ⟨t, rfl⟩ := hr
    exact headNot_cons.2 (by decide)
  · obtain ⟨⟨c, t, rfl, hc, _⟩, _⟩ := h
    exact fun r _ => k_cons (des_head (by simp [isDesChar, hc]))

theorem bracket_eq {p q a b : Str} (hp : ']' ∉ p) (hq : ']' ∉ q) (e : p ++ ']' :: a = q ++ ']' :: b) : p = q := by
  rcases List.append_eq_append_iff.1 e with ⟨c, e1, e2⟩ | ⟨c, e1, e2⟩
  · cases c with
    | nil => simpa using e1.symm
    | cons d c =>
      have := congrArg List.head? e2
      simp only [List.cons_append, List.head?_cons, Option.some.injEq] at this
      subst this
      exact absurd (by rw [e1]; simp) hq
  · cases c with
    | nil => simpa using e1
    | cons d c =>
      have := congrArg List.head? e2
      simp only [List.cons_append, List.head?_cons, Option.some.injEq] at this
      subst this
      exact absurd (by rw [e1]; simp) hp

theorem other_not {v w r : Str} (h : IsOtherName v) (hw : v ≠ w) (hb : ']' ∉ w) :
    ¬ ('[' :: (w ++ c!"]")) <+: '[' :: (v ++ ']' :: r) := by
  rintro ⟨t, ht⟩
  simp only [List.cons_append, List.append_assoc, List.cons.injEq, true_and, List.nil_append] at ht
  exact hw (bracket_eq (fun h' => otherName_ne h h' (by decide) (by decide) rfl) hb ht.symm)

/-! ## Any section -/

section
variable {F G : Type} [F64 F] [DmsArith F] [F64 G] (num : Str → F) (numG : Str → G)

/-- What is read from a section. -/
def sectionOf : Sect → SectionName × Section F
  | .positions _ l => (.position, .positions (Map.ofList (l.map fun p => (p.1.identifier, p.1.value num))))
  | .airspace _ l => (.airspace, .sectors (airspace (l.map (statementOf num numG))))
  | .sidsStars _ l => (.sidsStars, .sidsStars (l.map fun p => p.1.value))
  | .other .. => (.unsupported, .unsupported)

variable (hnum : ∀ s, IsDecimal s → F64.ofText s = some (num s)) (hnumG : ∀ s, IsDecimal s → F64.ofText s = some (numG s))

include hnum in
theorem blk_positions {brk : Str} {l : List (PositionLine × Str)} {r : Str} (h1 : IsBreak brk) (h2 : ∀ p ∈ l, p.1.Valid ∧ IsBreak p.2)
    (hr : SecStart r) : ∃ t, P Peg.Ese.position_section (Sect.positions brk l).text r [t] ∧
      parseSection G t = gated (Sect.positions brk l).Fits (sectionOf num numG (.positions brk l)) := by
  obtain ⟨hre, hst⟩ := reps_of (C := Start) (l := l) (r := r) (txt := fun p => p.1.text ++ p.2)
    (P := fun (p : PositionLine × Str) r => ∃ t, Blk skip K (Peg.Ese.position ⬝ Base.NL) (p.1.text ++ p.2) r [t] ∧
      parsePosition t = gated p.1.Fits (p.1.identifier, p.1.value num))
    (fun p hp r hr => by
      obtain ⟨hv, hf⟩ := h2 p hp
      obtain ⟨s, hs⟩ := pb_position (r := p.2 ++ r) hv (break_lineEnd hf)
      refine ⟨⟨_, (pb_line lineSkip hs hf hr).1, read_position num hnum hv s⟩, ?_⟩
      show Start (p.1.text ++ p.2 ++ r)
      unfold PositionLine.text
      rw [List.append_assoc, List.append_assoc]
      exact start_field hv.1) (secStart_start hr)
  obtain ⟨ts, b, e⟩ := blk_star_read lineSkip.exact (uniform_eval lineSkip.uniform _ rfl _) hre (fails_position hr) (k_start (secStart_start hr))
  have hnl := pb_NL (sk := skip) lineSkip h1 hst
  obtain ⟨s, hs⟩ := pb_rule (q := .position_section) (pb_key (w := c!"[POSITIONS]") (k_key (by decide)) (pb_seq hnl b))
  refine ⟨_, hs, ?_⟩
  show (ts.mapM parsePosition >>= _) = _
  rw [mapM_of_map e, mapM_gated]
  exact gated_ok rfl

include hnum hnumG in
theorem blk_airspace [UnicodeTables] {brk : Str} {l : List Item} {r : Str} (h1 : IsBreak brk) (h2 : ∀ i ∈ l, i.Valid)
    (hr : SecStart r) : ∃ t, P Peg.Ese.airspace_section (Sect.airspace brk l).text r [t] ∧
      parseSection G t = gated (Sect.airspace brk l).Fits (sectionOf num numG (.airspace brk l)) := by
  obtain ⟨hre, hst⟩ := reps_of (C := ItemStart) (l := l) (r := r) (txt := Item.text)
    (fun i hi r hr => blk_item num numG hnum hnumG (h2 i hi) hr) (secStart_items hr)
  obtain ⟨ts, b, e⟩ := blk_star_read lineSkip.exact (uniform_eval lineSkip.uniform _ rfl _) hre (fails_item (secStart_starts hr))
    (k_start (secStart_start hr))
  have hnl := pb_NL (sk := skip) lineSkip h1 (itemStart hst)
  obtain ⟨s, hs⟩ := pb_rule (q := .airspace_section) (pb_key (w := c!"[AIRSPACE]") (k_key (by decide)) (pb_seq hnl b))
  refine ⟨_, hs, ?_⟩
  show (ts.mapM (parseAirspace (F := F) (G := G)) >>= _) = _
  rw [mapM_of_map e, mapM_gated]
  exact gated_ok rfl

theorem blk_sidsStars {brk : Str} {l : List (ProcedureLine × Str)} {r : Str} (h1 : IsBreak brk) (h2 : ∀ p ∈ l, p.1.Valid ∧ IsBreak p.2)
    (hr : SecStart r) : ∃ t, P Peg.Ese.sidsstars_section (Sect.sidsStars brk l).text r [t] ∧
      parseSection (F := F) G t = .ok (sectionOf num numG (.sidsStars brk l)) := by
  obtain ⟨hre, hst⟩ := reps_of (C := Start) (l := l) (r := r) (txt := fun p => p.1.text ++ p.2)
    (P := fun p r => ∃ t, Blk skip K ((Peg.Ese.sid ∥ Peg.Ese.star) ⬝ Base.NL) (p.1.text ++ p.2) r [t] ∧ parseSidStar t = gated True p.1.value)
    (fun p hp r hr => by
      obtain ⟨hv, hf⟩ := h2 p hp
      obtain ⟨t, ht, e⟩ := pb_procedure (r := r) hv hf
      exact ⟨⟨t, (pb_line lineSkip ht hf hr).1, e⟩, by rw [List.append_assoc]; exact start_procedure⟩) (secStart_start hr)
  obtain ⟨ts, b, e⟩ := blk_star_read lineSkip.exact (uniform_eval lineSkip.uniform _ rfl _) hre (fails_procedure hr)
    (k_start (secStart_start hr))
  have hnl := pb_NL (sk := skip) lineSkip h1 hst
  obtain ⟨s, hs⟩ := pb_rule (q := .sidsstars_section) (pb_key (w := c!"[SIDSSTARS]") (k_key (by decide)) (pb_seq hnl b))
  refine ⟨_, hs, ?_⟩
  show (ts.mapM parseSidStar >>= _) = _
  rw [mapM_of_map e, mapM_gated]
  refine Eq.trans (gated_ok (w := sectionOf num numG (.sidsStars brk l)) rfl) ?_
  exact gated_true fun _ _ => trivial

theorem blk_other {name brk : Str} {l : List (Str × Str)} {r : Str} (h0 : IsOtherName name) (h1 : IsBreak brk)
    (h2 : ∀ p ∈ l, IsOtherLine p.1 ∧ IsBreak p.2) (hr : SecStart r) :
    ∃ t, P Peg.Ese.unparsed_section (Sect.other name brk l).text r [t] ∧
      parseSection (F := F) G t = .ok (sectionOf num numG (.other name brk l)) := by
  obtain ⟨hre, hst⟩ := reps_of (C := Start) (l := l) (r := r) (txt := fun p => p.1 ++ p.2)
    (P := fun p r => ∃ t, Blk skip K Peg.Ese.line (p.1 ++ p.2) r [t] ∧ () = ())
    (fun p hp r hr => by
      obtain ⟨hv, hf⟩ := h2 p hp
      exact ⟨⟨_, (pb_line lineSkip (pb_last lineSkip (seg_broken hv) hf) hf hr).1, rfl⟩,
        by rw [List.append_assoc]; exact (otherLine_head hv).1⟩) (secStart_start hr)
  obtain ⟨ts, b, _⟩ := blk_star_read (read := fun _ => ()) (val := fun _ => ()) lineSkip.exact
    (uniform_eval lineSkip.uniform _ rfl _) hre (fails_line hr) (k_start (secStart_start hr))
  have hb : ∀ r, P (.str c!"]" : Expr Rule) c!"]" (brk ++ r) [] := fun r =>
    ⟨blk_of_out out_str0 (k_end (break_lineEnd h1)), k_cons (by decide)⟩
  have hh : P Peg.Ese.section_header ('[' :: (name ++ c!"]")) (brk ++ (l.flatMap (fun p => p.1 ++ p.2) ++ r)) [.node .header_name name []] :=
    pb_key (w := c!"[") (k_key (by decide)) (pb_seq (pb_of_seg (seg_header h0) ⟨_, rfl⟩ (k_cons (by decide))) (hb _).1)
  obtain ⟨s, hs⟩ := pb_rule (q := .unparsed_section) (pb_line_then lineSkip hh h1 hst b)
  refine ⟨.node .unparsed_section s ([.node .header_name name []] ++ ts), ?_, rfl⟩
  have e : (Sect.other name brk l).text = '[' :: (name ++ c!"]") ++ (brk ++ l.flatMap fun p => p.1 ++ p.2) := by simp [Sect.text]
  rw [e]
  exact hs

include hnum hnumG in
theorem blk_section [UnicodeTables] {s : Sect} {r : Str} (h : s.Valid) (hr : SecStart r) :
    (∃ t, Blk skip K Peg.Ese.section_ s.text r [t] ∧ parseSection G t = gated s.Fits (sectionOf num numG s)) ∧
      SecStart (s.text ++ r) := by
  have fk : ∀ {q : Rule} {k w t : Str} {y : Expr Rule}, s.text = w ++ t → Apart2 k w →
      Fails skip (.rule q .normal ((.str k) ⬝ y)) .nonAtomic (s.text ++ r) := fun e h =>
    fails_key (by rw [e, List.append_assoc]; exact not_prefix h)
  have st : ∀ {a b : Str}, s.text = '[' :: (a ++ b) → (∀ c ∈ a, c ≠ ':' ∧ isNewlineChar c = false) → (∀ r, AtLineEnd (b ++ r)) →
      SecStart (s.text ++ r) := fun {a b} e ha hb => Or.inr ⟨a, b ++ r, by rw [e]; simp, ha, hb r⟩
  have bk : ∀ {f : Str} (t : Str), IsBreak f → ∀ r, AtLineEnd (f ++ t ++ r) := fun t hf r => by
    rw [List.append_assoc]; exact break_lineEnd hf
  cases s with
  | positions brk l =>
    obtain ⟨t, ht, e⟩ := blk_positions (G := G) num numG hnum h.1 h.2 hr
    exact ⟨⟨t, (pb_alt_left ht).1, e⟩, st (a := c!"POSITIONS]") rfl (by decide) (bk _ h.1)⟩
  | airspace brk l =>
    have fk := @fun {q k y} => @fk q k c!"[AIRSPACE]" _ y rfl
    obtain ⟨t, ht, e⟩ := blk_airspace num numG hnum hnumG h.1 h.2 hr
    exact ⟨⟨t, (pb_alt_right (fk (by decide)) (pb_alt_left ht)).1, e⟩, st (a := c!"AIRSPACE]") rfl (by decide) (bk _ h.1)⟩
  | sidsStars brk l =>
    have fk := @fun {q k y} => @fk q k c!"[SIDSSTARS]" _ y rfl
    obtain ⟨t, ht, e⟩ := blk_sidsStars (F := F) num numG h.1 h.2 hr
    exact ⟨⟨t, (pb_alt_right (fk (by decide)) (pb_alt_right (fk (by decide)) (pb_alt_left ht))).1, e.trans (gated_true trivial).symm⟩,
      st (a := c!"SIDSSTARS]") rfl (by decide) (bk _ h.1)⟩
  | other name brk l =>
    obtain ⟨h0, h1, h2⟩ := h
    obtain ⟨t, ht, e⟩ := blk_other (F := F) num numG h0 h1 h2 hr
    have no : ∀ {w : Str}, name ≠ w → ']' ∉ w → ¬ ('[' :: (w ++ c!"]")) <+: (Sect.other name brk l).text ++ r := fun hw hb => by
      have := other_not (r := brk ++ (l.flatMap fun p => p.1 ++ p.2) ++ r) h0 hw hb
      simpa [Sect.text] using this
    refine ⟨⟨t, (pb_alt_right (fails_key (no (w := c!"POSITIONS") h0.2.1 (by decide)))
      (pb_alt_right (fails_key (no (w := c!"AIRSPACE") h0.2.2.1 (by decide)))
      (pb_alt_right (fails_key (no (w := c!"SIDSSTARS") h0.2.2.2 (by decide))) ht))).1, e.trans (gated_true trivial).symm⟩,
      st (a := name ++ c!"]") (b := brk ++ l.flatMap fun p => p.1 ++ p.2) (by simp [Sect.text]) ?_ (bk _ h1)⟩
    intro c hc
    rcases List.mem_append.1 hc with hc | hc
    · refine ⟨otherName_ne h0 hc (by decide) (by decide), ?_⟩
      have h1 := otherName_ne h0 hc (d := '\n') (by decide) (by decide)
      have h2 := otherName_ne h0 hc (d := '\r') (by decide) (by decide)
      simp [isNewlineChar, h1, h2]
    · simp only [List.mem_singleton] at hc
      subst hc
      exact ⟨by decide, by decide⟩

/-! ## Files -/

include hnum hnumG in
theorem parse_sections [UnicodeTables] {f : File} (h : f.Valid) :
    ∃ s kids, run skip Peg.Ese.ese f.text = .ok [.node .ese s kids] ∧
      kids.mapM (parseSection (F := F) G) = gated f.Fits (f.sections.map (sectionOf num numG) ++ [(.unsupported, .unsupported)]) := by
  obtain ⟨h1, h2, h3⟩ := h
  obtain ⟨hre, hst⟩ := reps_of (C := SecStart) (l := f.sections) (r := []) (txt := Sect.text)
    (fun s hs r hr => blk_section num numG hnum hnumG (h3 s hs) hr) (Or.inl rfl)
  have hf : Fails skip Peg.Ese.section_ .nonAtomic [] :=
    fails_alt rfl (fails_key (by simp)) (fails_alt rfl (fails_key (by simp)) (fails_alt rfl (fails_key (by simp))
      (fails_rule (fails_seq_left (fails_seq_left (fails_str.2 (by simp)))))))
  obtain ⟨ts, b, e⟩ := blk_plus_read lineSkip.exact (uniform_eval lineSkip.uniform _ rfl _) lineSkip.knil h2 hre hf
  have st := secStart_start hst
  rw [List.append_nil] at st
  -- the sections and the end of the file
  have o : Out skip K ((.plus Peg.Ese.section_) ⬝ (.eoi .EOI)) .nonAtomic (f.sections.flatMap Sect.text) [] (ts ++ [Tree.node Rule.EOI [] []]) := by
    obtain ⟨s, m, e1, o1, k1⟩ := b
    exact ⟨s, m, [], ts, _, by simp [e1], k1, o1, ⟨rfl, rfl, rfl⟩, rfl⟩
  -- the leading lines
  have key : ∃ m s, f.text = m ++ s ∧ K m s ∧
      Out skip K ((.opt Base.NL) ⬝ (.plus Peg.Ese.section_) ⬝ (.eoi .EOI)) .nonAtomic s [] (ts ++ [Tree.node Rule.EOI [] []]) := by
    obtain ⟨parts, fin, e1, p1, p2, p3⟩ := filler_parts (cm := []) (r := f.sections.flatMap Sect.text) lineSkip
      (fun _ _ hl => out_nlOne lineSkip hl) (fun sp hs => by simpa using lineSkip.spaces hs st.1) st.2 _ f.lead (Nat.le_refl _) h1
    rw [List.append_nil] at e1
    have hnl := fails_nlOne (sk := skip) lineSkip st.1 st.2
    cases parts with
    | nil =>
      refine ⟨fin, f.sections.flatMap Sect.text, ?_, p2, ?_⟩
      · simp [File.text, e1, partsText]
      · refine ⟨[], [], f.sections.flatMap Sect.text, [], _, rfl, ?_, Or.inr ⟨rfl, rfl, ?_⟩, o, rfl⟩
        · show K [] _
          rw [List.append_nil]; exact k_start st
        · rw [List.append_nil]; exact fails_plus hnl
    | cons p ps =>
      obtain ⟨⟨q1, q2⟩, q3⟩ := p1
      obtain ⟨s, m, e3, o3, k3⟩ := out_plus_build lineSkip.exact (uniform_eval lineSkip.uniform _ rfl _) lineSkip.knil
        (s1 := p.1.2) (t1 := p.2) (parts := ps) q2 q3 p2 hnl
      have e4 : p.2 ++ ps.flatMap (·.2) = [] := p3
      rw [e4] at o3
      refine ⟨p.1.1, (s ++ m) ++ f.sections.flatMap Sect.text, ?_, ?_, ?_⟩
      · rw [← e3]
        simp [File.text, e1, partsText]
      · rw [← e3]
        have q1 : K p.1.1 _ := q1
        simpa [partsText] using q1
      · refine ⟨s, m, f.sections.flatMap Sect.text, [], _, rfl, ?_, Or.inl ?_, o, rfl⟩
        · show K m _
          rw [List.append_nil]; exact k3
        · rw [List.append_nil]; exact o3
  obtain ⟨m, s, e1, k1, o1⟩ := key
  refine ⟨f.text, ts ++ [Tree.node Rule.EOI [] []], ?_, ?_⟩
  · refine run_of_out lineSkip.uniform lineSkip.exact (by rfl) (by rfl) ⟨_, ?_, rfl⟩
    exact ⟨[], m, s, [], _, by simp [e1], by simpa using k1, ⟨rfl, rfl⟩, o1, rfl⟩
  · rw [List.mapM_append, mapM_of_map e, mapM_gated]
    exact gated_ok rfl

end

end Verif.Proofs.Ese
