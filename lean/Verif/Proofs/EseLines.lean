import Verif.Proofs.EseTokens
import Verif.Proofs.Gated
/-!
# The lines of .ese files
-/

namespace Verif.Proofs.Ese
open Verif.Proofs Verif.Peg Verif.Spec Verif.Spec.Ese Verif.Dms Verif.Parse
open Verif.Peg.Ese (Rule skip)
open Verif.Parse.Ese (nextStr nextUnsigned parseCoordinatePart parseCoordinate parsePosition parseSquawkRange Position)

set_option linter.unusedSectionVars false

theorem read_unsigned {q : Rule} {s : Str} {ts : List (Tree Rule)} {bound : Nat} (h : IsInteger s) :
    nextUnsigned bound (.node q s [] :: ts) = gated (Spec.Ese.Fits bound s) (number s, ts) := by
  show (unwrap (parseUnsigned 10 bound s)).bind _ = _
  rw [parseUnsigned_integer h, unwrap_gated]
  exact gated_ok rfl

theorem read_digits {q : Rule} {s : Str} {ts : List (Tree Rule)} {bound : Nat} (h : IsDigits s) :
    nextUnsigned bound (.node q s [] :: ts) = gated (digitsValue s < bound) (digitsValue s, ts) := by
  show (unwrap (parseUnsigned 10 bound s)).bind _ = _
  rw [parseUnsigned_digits h, unwrap_gated]
  exact gated_ok rfl

section
variable {F : Type} [F64 F] (num : Str → F) (hnum : ∀ s, IsDecimal s → F64.ofText s = some (num s))
include hnum

theorem read_dms {d : DmsText} (h : d.Valid) :
    parseCoordinatePart (dmsTree d) = gated d.Fits ⟨d.sign, digitsValue d.deg, digitsValue d.min, num d.sec⟩ := by
  obtain ⟨h1, h2, h3, h4⟩ := h
  show (Sign.ofHemi [d.hemi]).bind _ = _
  have hs : Sign.ofHemi [d.hemi] = .ok d.sign := by
    unfold DmsText.sign
    revert h1
    generalize d.hemi = c
    intro h1
    simp only [List.mem_cons, List.not_mem_nil, or_false] at h1
    rcases h1 with rfl | rfl | rfl | rfl | rfl | rfl | rfl | rfl <;> rfl
  rw [hs]
  show (nextUnsigned (2 ^ 16) (.node .deg d.deg [] :: _)).bind _ = _
  rw [read_digits h2]
  refine gated_bind ?_
  show (nextUnsigned (2 ^ 8) (.node .min d.min [] :: _)).bind _ = _
  rw [read_digits h3]
  refine gated_ok ?_
  show (unwrap (F64.ofText d.sec)).bind _ = _
  rw [hnum _ h4]
  rfl

variable [DmsArith F]

theorem read_coord {c : Coord} (h : c.Valid) :
    parseCoordinate (coordTree c) = gated c.Fits (c.point num) := by
  show (parseCoordinatePart (dmsTree c.lat)).bind _ = _
  rw [read_dms num hnum h.1]
  refine gated_bind ?_
  show (parseCoordinatePart (dmsTree c.lng)).bind _ = _
  rw [read_dms num hnum h.2]
  exact gated_ok rfl

theorem read_coords {l : List Coord} (h : ∀ c ∈ l, c.Valid) :
    (l.map coordTree).mapM parseCoordinate = gated (∀ c ∈ l, c.Fits) (l.map (Coord.point num)) := by
  rw [← mapM_gated]
  refine mapM_of_map ?_
  rw [List.map_map]
  exact List.map_congr_left fun c hc => read_coord num hnum (h c hc)
end

/-! ## Positions -/

abbrev optCoord : Expr Rule := .opt ((.str c!":") ⬝ Peg.Ese.coordinate)

theorem pb_optSome {c : Coord} {r : Str} (hc : c.Valid) (hr : Ends r) :
    P optCoord (':' :: c.text) r [coordTree c] := by
  have := pb_key (w := c!":") k_colon (pb_of_seg (seg_coord hc) hr (k_ends hr))
  exact ⟨blk_opt_some this.1, this.2⟩

theorem pb_optNone {r : Str} (hr : AtLineEnd r) : P optCoord [] r [] := by
  refine ⟨blk_opt_none (fails_seq_left (fails_str.2 ?_)) (k_end hr), k_end hr⟩
  rintro ⟨t, rfl⟩
  exact absurd (headNot_cons.1 hr) (by decide)

abbrev coords (l : List Coord) : Str := l.flatMap fun c => ':' :: c.text

theorem coords_ends {l : List Coord} {r : Str} (hr : AtLineEnd r) : Ends (coords l ++ r) := by
  cases l with
  | nil => exact Or.inr hr
  | cons c l => exact Or.inl ⟨_, rfl⟩

/-- One optional point more. -/
theorem pb_optCons {x : Expr Rule} {n : Nat} {r : Str} (hr : AtLineEnd r)
    (h : ∀ l : List Coord, l.length ≤ n → (∀ c ∈ l, c.Valid) → P x (coords l) r (l.map coordTree)) :
    ∀ l : List Coord, l.length ≤ n + 1 → (∀ c ∈ l, c.Valid) → P (optCoord ⬝ x) (coords l) r (l.map coordTree) := by
  intro l hl hv
  cases l with
  | nil => exact pb_seq (t1 := []) (t2 := []) (pb_optNone hr) (h [] (by simp) (by simp)).1
  | cons c l =>
    have h1 := h l (by simpa using hl) (fun d hd => hv d (List.mem_cons_of_mem _ hd))
    have h2 := pb_optSome (hv c List.mem_cons_self) (coords_ends (l := l) hr)
    have := pb_seq h2 h1.1
    simpa using this

theorem pb_opt1 {r : Str} (hr : AtLineEnd r) (l : List Coord) (hl : l.length ≤ 1) (hv : ∀ c ∈ l, c.Valid) :
    P optCoord (coords l) r (l.map coordTree) := by
  cases l with
  | nil => exact pb_optNone hr
  | cons c l =>
    have : l = [] := by simpa using hl
    subst this
    have := pb_optSome (hv c List.mem_cons_self) (Or.inr hr)
    simpa using this

theorem pb_opt3 {r : Str} (hr : AtLineEnd r) : ∀ (l : List Coord), l.length ≤ 3 → (∀ c ∈ l, c.Valid) →
    P (optCoord ⬝ optCoord ⬝ optCoord) (coords l) r (l.map coordTree) :=
  pb_optCons hr (pb_optCons hr (pb_opt1 hr))

abbrev posTail : Expr Rule :=
  (.opt Peg.Ese.squawk_range) ⬝ (.opt (.str c!":")) ⬝ (.opt Peg.Ese.coordinate) ⬝ optCoord ⬝ optCoord ⬝ optCoord

def squawkTree (a b : Str) : Tree Rule := .node .squawk_range (a ++ ':' :: b) [.node .integer a [], .node .integer b []]

theorem pb_posTail_some {a b : Str} {l : List Coord} {r : Str} (ha : IsInteger a) (hb : IsInteger b) (hl : l.length ≤ 4)
    (hv : ∀ c ∈ l, c.Valid) (hr : AtLineEnd r) :
    P posTail ((a ++ ':' :: b) ++ coords l) r (squawkTree a b :: l.map coordTree) := by
  have h1 : S Ends Peg.Ese.squawk_range (a ++ ':' :: b) [squawkTree a b] :=
    seg_rule (seg_colon k_colon (seg_mono (seg_integer ha) ends_colon) (seg_integer hb))
  have he := coords_ends (l := l) hr
  have h1 := pb_of_seg h1 he (k_ends he)
  have h1 : P (.opt Peg.Ese.squawk_range) (a ++ ':' :: b) (coords l ++ r) [squawkTree a b] := ⟨blk_opt_some h1.1, h1.2⟩
  refine pb_seq h1 ?_
  cases l with
  | nil =>
    have hf : Fails skip (.str c!":") .nonAtomic r := by
      refine fails_str.2 ?_
      rintro ⟨t, rfl⟩
      exact absurd (headNot_cons.1 hr) (by decide)
    exact blk_seq (t1 := []) (u1 := []) (blk_opt_none hf (k_end hr))
      (blk_seq (t1 := []) (u1 := []) (blk_opt_none (fails_coord (Or.inr hr)) (k_end hr)) (pb_opt3 hr [] (by simp) (by simp)).1)
  | cons c l =>
    have hl' : l.length ≤ 3 := by simpa using hl
    have h3 := pb_opt3 hr l hl' (fun d hd => hv d (List.mem_cons_of_mem _ hd))
    have he' := coords_ends (l := l) hr
    have h2 := pb_of_seg (seg_coord (hv c List.mem_cons_self)) he' (k_ends he')
    have h4 := blk_seq (blk_opt_some h2.1) h3.1
    have hk : K [] (c.text ++ coords l ++ r) := by simpa using h2.2
    have h5 := blk_seq (u1 := []) (blk_opt_some (blk_of_out (x := .str c!":") (out_str0 (w := c!":")) hk)) h4
    simpa using h5

theorem pb_posTail_none {l : List Coord} {r : Str} (hl : l.length ≤ 3)
    (hv : ∀ c ∈ l, c.Valid) (hr : AtLineEnd r) :
    P posTail (c!":" ++ coords l) r (l.map coordTree) := by
  have he := coords_ends (l := l) hr
  have hf : Fails skip Peg.Ese.squawk_range .nonAtomic (c!":" ++ (coords l ++ r)) :=
    fails_rule (fails_seq_left (fails_integer (Or.inl ⟨_, rfl⟩)))
  have h0 : P (.opt Peg.Ese.squawk_range) [] (c!":" ++ coords l ++ r) [] :=
    ⟨blk_opt_none (by simpa using hf) (k_colon _), k_colon _⟩
  have h1 := blk_seq (t1 := []) (u1 := []) (blk_opt_none (fails_coord he) (k_ends he)) (pb_opt3 hr l hl hv).1
  have h2 := blk_seq (u1 := []) (blk_opt_some (blk_of_out (x := .str c!":") (out_str0 (w := c!":")) (k_ends he))) h1
  exact pb_seq h0 h2

def squawkTrees (p : PositionLine) : List (Tree Rule) := (p.squawk.map fun s => squawkTree s.1 s.2).toList

def positionTrees (p : PositionLine) : List (Tree Rule) :=
  text p.name :: text p.callsign :: .node .frequency p.frequency [] :: text p.identifier :: text p.middle ::
    text p.prefix_ :: text p.suffix :: text p.unused1 :: text p.unused2 :: (squawkTrees p ++ p.points.map coordTree)

theorem pb_position {p : PositionLine} {r : Str} (h : p.Valid) (hr : AtLineEnd r) :
    ∃ s, P Peg.Ese.position p.text r [.node .position s (positionTrees p)] := by
  obtain ⟨h1, h2, h3, h4, h5, h6, h7, h8, h9, hv, ht⟩ := h
  have tail : P posTail ((match p.squawk with | some (a, b) => a ++ ':' :: b | none => c!":") ++ coords p.points) r
      (squawkTrees p ++ p.points.map coordTree) := by
    unfold squawkTrees
    cases hs : p.squawk with
    | none =>
      rw [hs] at ht
      exact pb_posTail_none ht hv hr
    | some q =>
      rw [hs] at ht
      exact pb_posTail_some ht.1 ht.2.1 ht.2.2 hv hr
  have b9 := pb_colon k_colon (seg_field h9) tail
  have b8 := pb_colon k_colon (seg_field h8) b9
  have b7 := pb_colon k_colon (seg_field h7) b8
  have b6 := pb_colon k_colon (seg_field h6) b7
  have b5 := pb_colon k_colon (seg_field h5) b6
  have b4 := pb_colon k_colon (seg_field h4) b5
  have b3 := pb_colon k_colon (seg_mono (seg_frequency h3) ends_colon) b4
  have b2 := pb_colon k_colon (seg_field h2) b3
  have b1 := pb_colon k_colon (seg_field h1) b2
  exact pb_rule b1

section
variable {F : Type} [F64 F] [DmsArith F] (num : Str → F) (hnum : ∀ s, IsDecimal s → F64.ofText s = some (num s))
include hnum

theorem read_position {p : PositionLine} (h : p.Valid) (s : Str) :
    parsePosition (.node .position s (positionTrees p)) = gated p.Fits (p.identifier, p.value num) := by
  obtain ⟨h1, h2, h3, h4, h5, h6, h7, h8, h9, hv, ht⟩ := h
  obtain ⟨name, callsign, frequency, identifier, middle, prefix_, suffix, unused1, unused2, squawk, points⟩ := p
  cases squawk with
  | none =>
    have e1 : parseSquawkRange (points.map coordTree).head? = .ok none := by
      cases points <;> rfl
    have e2 : (points.map coordTree).tail = (points.drop 1).map coordTree := by
      cases points <;> rfl
    show (parseSquawkRange (points.map coordTree).head?).bind _ = _
    rw [e1]
    show ((points.map coordTree).tail.mapM parseCoordinate).bind _ = _
    rw [e2, read_coords num hnum fun c hc => hv c (List.mem_of_mem_drop hc)]
    refine Eq.trans ?_ (gated_congr (p := ∀ c ∈ points.drop 1, c.Fits) (q := PositionLine.Fits _)
      ⟨fun h => ⟨h, trivial⟩, fun h => h.1⟩ rfl)
    exact gated_ok rfl
  | some q =>
    obtain ⟨a, b⟩ := q
    have e1 : parseSquawkRange (some (squawkTree a b)) =
        gated (Spec.Ese.Fits (2 ^ 16) a ∧ Spec.Ese.Fits (2 ^ 16) b) (some (number a, number b)) := by
      show (nextUnsigned (2 ^ 16) (.node .integer a [] :: _)).bind _ = _
      rw [read_unsigned ht.1]
      refine gated_bind ?_
      show (nextUnsigned (2 ^ 16) (.node .integer b [] :: _)).bind _ = _
      rw [read_unsigned ht.2.1]
      exact gated_ok rfl
    show (parseSquawkRange (some (squawkTree a b))).bind _ = _
    rw [e1]
    refine (gated_bind (q := ∀ c ∈ points, c.Fits) (w := (identifier, _)) ?_).trans (gated_congr ?_ rfl)
    · show ((points.map coordTree).mapM parseCoordinate).bind _ = _
      rw [read_coords num hnum hv]
      exact gated_ok rfl
    · exact And.comm
end

end Verif.Proofs.Ese
