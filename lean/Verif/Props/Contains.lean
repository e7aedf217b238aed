import Verif.Proofs.ContainsMore
import Verif.Props.SectorIndex
/-!
# C106: which points a polygon contains

The words of the statements are in `Verif.Spec.Contains`.
-/

namespace Verif.Contains
open Spec
open Verif.Polygon (pairs)
open Verif.SectorIndex (Data Pt Env)
open Verif.SectorIndex.Spec

/-- **C106.** A polygon contains a point exactly if the point is not on its border and the border goes round it, one way or the
other: the triangles that the lines of the border span with any point `o`, counted positive or negative by their direction if they
are around the point, do not cancel. -/
theorem C106_contains (b : List Coord) (p o : Coord) (h : Clear o (close b) p) :
    contains b p = true ↔ ¬ OnBorder (close b) p ∧ turns o (close b) p ≠ 0 := by
  rw [contains_iff]
  refine and_congr_right fun hb => ?_
  rw [turns_eq (by rw [close_head, close_last]) h hb]

/-- **C106.** For each point that is not one of the polygon there is such an `o`; and the points of the polygon are not contained. -/
theorem C106_apex (b : List Coord) (p : Coord) : (∃ o, Clear o (close b) p) ∨ (p ∈ b ∧ contains b p = false) := by
  by_cases h : p ∈ close b
  · right
    refine ⟨mem_close.1 h, ?_⟩
    rw [← Bool.not_eq_true, contains_iff]
    rintro ⟨hb, hw⟩
    have hc : (close b).head? = (close b).getLast? := by rw [close_head, close_last]
    revert h hb hw hc
    generalize close b = ring
    intro h hb hw hc
    cases ring with
    | nil => cases h
    | cons v ring =>
      cases ring with
      | nil => exact hw rfl
      | cons w ring =>
        rcases List.mem_cons.1 h with rfl | h
        · exact hb ⟨(p, w), by simp [pairs], 0, by norm_num, by norm_num, by ring, by ring⟩
        · have key : ∀ (l : List Coord) (v : Coord), p ∈ l → ∃ a, (a, p) ∈ pairs (v :: l) := by
            intro l
            induction l with
            | nil => intro v h; cases h
            | cons x l ih =>
              intro v h
              rcases List.mem_cons.1 h with rfl | h
              · exact ⟨v, by simp [pairs]⟩
              · obtain ⟨a, ha⟩ := ih x h
                exact ⟨a, by rw [pairs]; exact List.mem_cons_of_mem _ ha⟩
          obtain ⟨a, ha⟩ := key _ v h
          exact hb ⟨(a, p), ha, 1, by norm_num, by norm_num, by ring, by ring⟩
  · exact .inl (clear_exists h)

/-- **C106.** A triangle contains what is strictly inside of it. -/
theorem C106_triangle (a b c p : Coord) (h : area2 a b c ≠ 0) : contains [a, b, c] p = true ↔ InTriangle a b c p := by
  have hac : a ≠ c := by
    rintro rfl
    apply h; unfold area2; ring
  have hcl : close [a, b, c] = [a, b, c, a] := by
    unfold close
    simp [Ne.symm hac]
  rw [contains_iff, hcl]
  have hw : winding p (pairs [a, b, c, a]) = kappa p a b + kappa p b c + kappa p c a := by
    simp [winding, pairs]; omega
  have hb : OnBorder [a, b, c, a] p ↔ OnLine a b p ∨ OnLine b c p ∨ OnLine c a p := by
    simp [OnBorder, pairs]
  rw [hw, hb, inTriangle_iff a b c p h]
  have hon : ∀ {x y : Coord}, det x y p ≠ 0 → ¬ OnLine x y p := fun h1 h2 => h1 (onLine_iff.1 h2).1
  constructor
  · rintro ⟨h1, h2⟩
    simp only [not_or] at h1
    rw [kappa_triangle h1.1 h1.2.1 h1.2.2, around_eq] at h2
    split at h2
    · left; assumption
    · split at h2
      · right; assumption
      · exact absurd rfl h2
  · intro hs
    have n : ¬ OnLine a b p ∧ ¬ OnLine b c p ∧ ¬ OnLine c a p := by
      rcases hs with hs | hs
      · exact ⟨hon hs.1.ne', hon hs.2.1.ne', hon hs.2.2.ne'⟩
      · exact ⟨hon hs.1.ne, hon hs.2.1.ne, hon hs.2.2.ne⟩
    refine ⟨by simp [n], ?_⟩
    rw [kappa_triangle n.1 n.2.1 n.2.2, around_eq]
    rcases hs with hs | hs
    · rw [if_pos hs]; decide
    · rw [if_neg (by rintro ⟨h, _⟩; linarith [hs.1]), if_pos hs]; decide

/-- **C106.** A rectangle contains what is strictly between its sides. -/
theorem C106_rectangle (x₀ x₁ y₀ y₁ : Rat) (hx : x₀ < x₁) (hy : y₀ < y₁) (p : Coord) :
    contains [(x₀, y₀), (x₁, y₀), (x₁, y₁), (x₀, y₁)] p = true ↔ (x₀ < p.1 ∧ p.1 < x₁) ∧ (y₀ < p.2 ∧ p.2 < y₁) := by
  have hcl : close [(x₀, y₀), (x₁, y₀), (x₁, y₁), (x₀, y₁)] = [(x₀, y₀), (x₁, y₀), (x₁, y₁), (x₀, y₁), (x₀, y₀)] := by
    unfold close
    simp [hy.ne']
  have hon : OnBorder [(x₀, y₀), (x₁, y₀), (x₁, y₁), (x₀, y₁), (x₀, y₀)] p ↔
      OnLine (x₀, y₀) (x₁, y₀) p ∨ OnLine (x₁, y₀) (x₁, y₁) p ∨ OnLine (x₁, y₁) (x₀, y₁) p ∨ OnLine (x₀, y₁) (x₀, y₀) p := by
    simp [OnBorder, pairs]
  constructor
  · intro h
    have he := extent h
    simp only [List.mem_cons, List.not_mem_nil, or_false, exists_eq_or_imp, exists_eq_left] at he
    obtain ⟨e1, e2, e3, e4⟩ := he
    have f1 : x₀ ≤ p.1 := by rcases e1 with h | h | h | h <;> linarith
    have f2 : p.1 ≤ x₁ := by rcases e2 with h | h | h | h <;> linarith
    have f3 : y₀ ≤ p.2 := by rcases e3 with h | h | h | h <;> linarith
    have f4 : p.2 ≤ y₁ := by rcases e4 with h | h | h | h <;> linarith
    have hb := (contains_iff.1 h).1
    rw [hcl, hon] at hb
    simp only [not_or, onLine_iff, det] at hb
    obtain ⟨b1, b2, b3, b4⟩ := hb
    refine ⟨⟨lt_of_le_of_ne f1 ?_, lt_of_le_of_ne f2 ?_⟩, lt_of_le_of_ne f3 ?_, lt_of_le_of_ne f4 ?_⟩
    · intro h; exact b4 ⟨by rw [h]; ring, .inl ⟨f1, h.ge⟩, .inr ⟨f3, f4⟩⟩
    · intro h; exact b2 ⟨by rw [h]; ring, .inl ⟨h.ge, f2⟩, .inl ⟨f3, f4⟩⟩
    · intro h; exact b1 ⟨by rw [h]; ring, .inl ⟨f1, f2⟩, .inl ⟨f3, h.ge⟩⟩
    · intro h; exact b3 ⟨by rw [h]; ring, .inr ⟨f1, f2⟩, .inl ⟨h.ge, f4⟩⟩
  · rintro ⟨⟨h1, h2⟩, h3, h4⟩
    rw [contains_iff, hcl, hon]
    constructor
    · simp only [not_or, onLine_iff]
      refine ⟨?_, ?_, ?_, ?_⟩
      · rintro ⟨_, _, h | h⟩ <;> linarith [h.1, h.2]
      · rintro ⟨_, h | h, _⟩ <;> linarith [h.1, h.2]
      · rintro ⟨_, _, h | h⟩ <;> linarith [h.1, h.2]
      · rintro ⟨_, h | h, _⟩ <;> linarith [h.1, h.2]
    · have k1 : kappa p (x₀, y₀) (x₁, y₀) = 0 := kappa_over h3 h3
      have k2 : kappa p (x₁, y₀) (x₁, y₁) = 1 := by
        unfold kappa
        have : 0 < det (x₁, y₀) (x₁, y₁) p := by
          have e : det (x₁, y₀) (x₁, y₁) p = (x₁ - p.1) * (y₁ - y₀) := by unfold det; ring
          rw [e]; exact mul_pos (by linarith) (by linarith)
        rw [if_pos ⟨h3.le, h4, this⟩]
      have k3 : kappa p (x₁, y₁) (x₀, y₁) = 0 := kappa_under h4 h4
      have k4 : kappa p (x₀, y₁) (x₀, y₀) = 0 := by
        unfold kappa
        have : 0 < det (x₀, y₁) (x₀, y₀) p := by
          have e : det (x₀, y₁) (x₀, y₀) p = (p.1 - x₀) * (y₁ - y₀) := by unfold det; ring
          rw [e]; exact mul_pos (by linarith) (by linarith)
        rw [if_neg (by rintro ⟨h, _⟩; exact absurd h (not_le.2 h4)), if_neg (by rintro ⟨_, _, h⟩; linarith)]
      simp [winding, pairs, k1, k2, k3, k4]

/-- **C106.** A polygon does not reach beyond the extent of its points, so what C25 to C27, C78 and C87 assume of the
point-in-polygon test holds for that of `geo`. -/
theorem C106_within_extent {F L : Type} [LE F] (val : F → Rat) (hv : ∀ a b, val a ≤ val b → a ≤ b) (env : Env F L) :
    ContainsWithinExtent (withGeo val env) := by
  intro b p h
  have key : contains (b.map fun q : F × F => (val q.1, val q.2)) (val p.1, val p.2) = true := h
  obtain ⟨⟨q1, m1, g1⟩, ⟨q2, m2, g2⟩, ⟨q3, m3, g3⟩, ⟨q4, m4, g4⟩⟩ := extent key
  obtain ⟨a1, h1, rfl⟩ := List.mem_map.1 m1
  obtain ⟨a2, h2, rfl⟩ := List.mem_map.1 m2
  obtain ⟨a3, h3, rfl⟩ := List.mem_map.1 m3
  obtain ⟨a4, h4, rfl⟩ := List.mem_map.1 m4
  exact ⟨⟨a1, h1, hv _ _ g1⟩, ⟨a2, h2, hv _ _ g2⟩, ⟨a3, h3, hv _ _ g3⟩, ⟨a4, h4, hv _ _ g4⟩⟩

/-- **C106 with C25.** `find_sector` with the point-in-polygon test of `geo` is the exhaustive search. -/
theorem C106_find_sector {F L : Type} [LE F] [DecidableLE F] [Std.IsLinearPreorder F] (val : F → Rat)
    (hv : ∀ a b, val a ≤ val b → a ≤ b) (env : Env F L) (hs : ShufflePerm env) (d : Data F) (p : Pt F) (level : L) (id : Str) :
    SectorIndex.findSector (withGeo val env) (SectorIndex.buildTree d) p level = some id ↔
      (SectorAt (withGeo val env) d p level id ∧ ∀ id', SectorAt (withGeo val env) d p level id' → StrLe id id') :=
  SectorIndex.C25_find_sector_iff _ (C106_within_extent val hv env) hs d p level id

/-! ### Concrete cases -/

/-- An L-shaped border, the notch of it, a point on it, and beyond. -/
example : let b : List Coord := [(0, 0), (4, 0), (4, 2), (2, 2), (2, 4), (0, 4)]
    contains b (1, 1) = true ∧ contains b (3, 1) = true ∧ contains b (3, 3) = false ∧ contains b (2, 3) = false ∧
      contains b (5, 1) = false ∧ contains b (1, 0) = false := by decide +kernel

/-- With the point `(-1, -2)` no point of that border is in line with `(1, 1)`. -/
example : Clear (-1, -2) [(0, 0), (4, 0), (4, 2), (2, 2), (2, 4), (0, 4), (0, 0)] (1, 1) := by
  simp only [Clear, List.mem_cons, List.not_mem_nil, or_false, onLine_iff, det]
  rintro v (rfl | rfl | rfl | rfl | rfl | rfl | rfl) ⟨h, _⟩ <;> norm_num at h

/-- The values of rational coordinates are themselves. -/
example : ∀ a b : Rat, id a ≤ id b → a ≤ b := fun _ _ h => h

end Verif.Contains
