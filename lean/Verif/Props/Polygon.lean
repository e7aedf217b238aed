import Verif.Proofs.PolygonInit
/-!
# C21, C22, C23: the polygon of a sector's borders
-/

namespace Verif.Polygon
open Spec
variable {V P : Type} [DecidableEq V]

/-- **C21.** Whatever polygon is produced for a sector is (the de-quantised image of) a closed walk
that runs along every border line exactly once and along nothing else, for every border and every
iteration order of the point set. -/
theorem C21_polygon_sound (quantize : P → V) (dequantize : V → P) (choose : List V → Option V)
    (hch : Chooses choose) (border : List (List P)) (poly : List P)
    (h : polygonFromEse quantize dequantize choose border = .ok (some poly)) :
    ∃ ring, IsCircuit (borderLines quantize border) ring ∧ poly = ring.map dequantize := by
  simp only [polygonFromEse] at h
  generalize borderLines quantize border = lines at h ⊢
  cases hl : choose (points lines) with
  | none =>
    rw [hl] at h
    unfold polygonFromLines at h
    split at h <;> simp_all
  | some start =>
    have hne : points lines ≠ [] := by
      intro he; rw [(hch _).1 he] at hl; cases hl
    obtain ⟨x, hx, hx2⟩ := (hch _).2 hne
    rw [hl] at hx2
    cases hx2
    rcases polygonFromLines_spec lines start (mem_points_iff.1 hx) with ⟨_, _, ring, h1, h2⟩ | ⟨_, h1⟩
    · rw [hl, h1] at h
      refine ⟨ring, h2, ?_⟩
      simp only [run_ok_bind, Option.map_some] at h
      have := Option.some.inj (Except.ok.inj h)
      exact this.symm
    · rw [hl, h1] at h
      simp at h

/-- **C22.** A polygon is produced exactly when there is at least one border line, every point
touches an even number of line ends, and the lines hang together. -/
theorem C22_polygon_iff (quantize : P → V) (dequantize : V → P) (choose : List V → Option V)
    (hch : Chooses choose) (border : List (List P)) :
    (∃ poly, polygonFromEse quantize dequantize choose border = .ok (some poly)) ↔
      (borderLines quantize border ≠ [] ∧ EvenDegrees (borderLines quantize border) ∧
        Connected (borderLines quantize border)) := by
  simp only [polygonFromEse]
  generalize borderLines quantize border = lines
  by_cases hne : lines = []
  · subst hne
    have : choose (points ([] : List (V × V))) = none := (hch _).1 rfl
    rw [this]
    simp [polygonFromLines, edgeCount]
  · have hpts : points lines ≠ [] := fun h => hne (points_eq_nil_iff.1 h)
    obtain ⟨x, hx, hx2⟩ := (hch _).2 hpts
    rw [hx2]
    rcases polygonFromLines_spec lines x (mem_points_iff.1 hx) with ⟨h3, h4, ring, h1, h2⟩ | ⟨h3, h1⟩
    · simp [h1, h3, h4, hne]
    · simp only [h1, run_ok_bind, Option.map_none]
      constructor
      · rintro ⟨_, h⟩; simp at h
      · rintro ⟨_, h⟩; exact absurd h h3

/-- **C23.** Building the polygon always ends, for every border, even those whose lines do not form
a circuit: the loop never runs out of its allowance of `2 n + 2` iterations for `n` lines and there
is no other failure. -/
theorem C23_polygon_terminates (quantize : P → V) (dequantize : V → P)
    (choose : List V → Option V) (hch : Chooses choose) (border : List (List P)) :
    ∃ r, polygonFromEse quantize dequantize choose border = .ok r := by
  simp only [polygonFromEse]
  generalize borderLines quantize border = lines
  by_cases hne : points lines = []
  · rw [(hch _).1 hne]
    unfold polygonFromLines
    split <;> simp
  · obtain ⟨x, hx, hx2⟩ := (hch _).2 hne
    rw [hx2]
    rcases polygonFromLines_spec lines x (mem_points_iff.1 hx) with ⟨_, _, ring, h1, _⟩ | ⟨_, h1⟩
    · simp [h1]
    · simp [h1]

/-- Consequence of C22: whether there is a polygon does not depend on the hash set's order. -/
theorem C22_choice_independent (quantize : P → V) (dequantize : V → P)
    (choose choose' : List V → Option V) (hch : Chooses choose) (hch' : Chooses choose')
    (border : List (List P)) :
    (∃ poly, polygonFromEse quantize dequantize choose border = .ok (some poly)) ↔
    (∃ poly, polygonFromEse quantize dequantize choose' border = .ok (some poly)) := by
  rw [C22_polygon_iff _ _ _ hch, C22_polygon_iff _ _ _ hch']

/-- Consequence of C22: nor does it depend on the order or direction of the border lines, only on
how many lines there are between any two points. -/
theorem C22_order_direction_independent (quantize : P → V) (dequantize : V → P)
    (choose choose' : List V → Option V) (hch : Chooses choose) (hch' : Chooses choose')
    (border border' : List (List P))
    (h : ∀ a b, lineCount (borderLines quantize border) a b
      = lineCount (borderLines quantize border') a b) :
    (∃ poly, polygonFromEse quantize dequantize choose border = .ok (some poly)) ↔
    (∃ poly, polygonFromEse quantize dequantize choose' border' = .ok (some poly)) := by
  rw [C22_polygon_iff _ _ _ hch, C22_polygon_iff _ _ _ hch']
  have hlen := length_eq_of_lineCount h
  have hne : borderLines quantize border ≠ [] ↔ borderLines quantize border' ≠ [] := by
    rw [← List.length_pos_iff, ← List.length_pos_iff, hlen]
  have hd : EvenDegrees (borderLines quantize border) ↔ EvenDegrees (borderLines quantize border') := by
    unfold EvenDegrees
    simp only [degree_eq_of_lineCount h]
  have hc : Connected (borderLines quantize border) ↔ Connected (borderLines quantize border') :=
    ⟨connected_of_lineCount h, connected_of_lineCount (fun a b => (h a b).symm)⟩
  rw [hne, hd, hc]

/-! ### The hypotheses can be met -/

omit [DecidableEq V] in
/-- Taking the first element is a choice. -/
theorem chooses_head? : Chooses (List.head? : List V → Option V) := by
  intro l
  cases l with
  | nil => simp
  | cons a l => simp

/-- A figure of eight given by three border lines, one of them backwards: a polygon of seven
points. -/
example : polygonFromEse (P := Nat) (V := Nat) id id List.head? [[0, 1, 2], [0, 2], [3, 4, 0, 3]]
    = .ok (some [0, 1, 2, 0, 4, 3, 0]) := by decide

/-- Two separate triangles: no polygon. -/
example : polygonFromEse (P := Nat) (V := Nat) id id List.head? [[0, 1, 2, 0], [3, 4, 5, 3]]
    = .ok none := by decide

/-- An open border: no polygon. -/
example : polygonFromEse (P := Nat) (V := Nat) id id List.head? [[0, 1, 2]] = .ok none := by decide

end Verif.Polygon
