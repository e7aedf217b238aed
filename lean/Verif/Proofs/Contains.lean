import Mathlib.Algebra.Order.Field.Basic
import Mathlib.Tactic.Linarith
import Mathlib.Tactic.LinearCombination
import Mathlib.Tactic.FieldSimp
import Mathlib.Tactic.Ring
import Verif.Spec.Contains
/-! # Point in polygon (helper lemmas) -/

namespace Verif.Contains
open Spec
open Verif.Polygon (pairs)

/-- What a line adds to the winding number if the point is not on it. -/
def kappa (c a b : Coord) : Int :=
  if a.2 ≤ c.2 ∧ c.2 < b.2 ∧ 0 < det a b c then 1
  else if b.2 ≤ c.2 ∧ c.2 < a.2 ∧ det a b c < 0 then -1 else 0

theorem det_swap (a b c : Coord) : det b a c = - det a b c := by
  unfold det; ring

theorem kappa_swap (c a b : Coord) : kappa c b a = - kappa c a b := by
  have h : det b a c = - det a b c := det_swap a b c
  unfold kappa
  rw [h]
  by_cases h1 : a.2 ≤ c.2 ∧ c.2 < b.2 ∧ 0 < det a b c
  · rw [if_pos h1, if_neg (by rintro ⟨h2, _⟩; linarith [h1.2.1]), if_pos ⟨h1.1, h1.2.1, by linarith [h1.2.2]⟩]
  · by_cases h2 : b.2 ≤ c.2 ∧ c.2 < a.2 ∧ det a b c < 0
    · rw [if_neg h1, if_pos h2, if_pos ⟨h2.1, h2.2.1, by linarith [h2.2.2]⟩]; rfl
    · rw [if_neg h1, if_neg h2, if_neg (by rintro ⟨h3, h4, h5⟩; exact h2 ⟨h3, h4, by linarith⟩),
        if_neg (by rintro ⟨h3, h4, h5⟩; exact h1 ⟨h3, h4, by linarith⟩)]; rfl

theorem orient_ccw {a b c : Coord} : orient2d a b c = .counterClockwise ↔ 0 < det a b c := by
  unfold orient2d
  split
  · simp_all
  · split <;> simp_all

theorem orient_cw {a b c : Coord} : orient2d a b c = .clockwise ↔ det a b c < 0 := by
  unfold orient2d
  split
  · next h => simp; linarith
  · split <;> simp_all

theorem orient_col {a b c : Coord} : orient2d a b c = .collinear ↔ det a b c = 0 := by
  unfold orient2d
  split
  · next h => simp; linarith
  · split
    · next h => simp; linarith
    · next h1 h2 => simp; linarith

theorem between_iff {v a b : Rat} : valueInBetween v a b = true ↔ (a ≤ v ∧ v ≤ b) ∨ (b ≤ v ∧ v ≤ a) := by
  unfold valueInBetween
  split
  · next h =>
    simp only [Bool.and_eq_true, decide_eq_true_eq]
    exact ⟨.inl, fun h' => h'.elim id (fun h2 => absurd h (by linarith [h2.1, h2.2]))⟩
  · next h =>
    simp only [Bool.and_eq_true, decide_eq_true_eq]
    refine ⟨.inr, fun h' => h'.elim (fun h2 => ?_) id⟩
    have : a = b := le_antisymm (le_trans h2.1 h2.2) (not_lt.1 h)
    subst this
    exact h2

theorem mean_between {a b t v : Rat} (h0 : 0 ≤ t) (h1 : t ≤ 1) (h : v = (1 - t) * a + t * b) :
    (a ≤ v ∧ v ≤ b) ∨ (b ≤ v ∧ v ≤ a) := by
  rcases le_total a b with hab | hab
  · left; constructor <;> nlinarith
  · right; constructor <;> nlinarith

theorem onLine_iff {a b p : Coord} : OnLine a b p ↔
    det a b p = 0 ∧ ((a.1 ≤ p.1 ∧ p.1 ≤ b.1) ∨ (b.1 ≤ p.1 ∧ p.1 ≤ a.1)) ∧
      ((a.2 ≤ p.2 ∧ p.2 ≤ b.2) ∨ (b.2 ≤ p.2 ∧ p.2 ≤ a.2)) := by
  constructor
  · rintro ⟨t, h0, h1, hx, hy⟩
    refine ⟨?_, mean_between h0 h1 hx, mean_between h0 h1 hy⟩
    unfold det; rw [hx, hy]; ring
  · rintro ⟨hd, hx, hy⟩
    unfold det at hd
    by_cases hab : a.1 = b.1
    · by_cases hab2 : a.2 = b.2
      · refine ⟨0, le_refl _, by norm_num, ?_, ?_⟩
        · rcases hx with h | h <;> linarith [h.1, h.2]
        · rcases hy with h | h <;> linarith [h.1, h.2]
      · have hne : b.2 - a.2 ≠ 0 := fun h => hab2 (by linarith)
        have hpx : p.1 = a.1 := by rcases hx with h | h <;> linarith [h.1, h.2]
        refine ⟨(p.2 - a.2) / (b.2 - a.2), ?_, ?_, ?_, ?_⟩
        · rcases hy with h | h
          · exact div_nonneg (by linarith) (by linarith)
          · exact div_nonneg_of_nonpos (by linarith) (by linarith)
        · rcases hy with h | h
          · rw [div_le_one (lt_of_le_of_ne (by linarith [h.1, h.2]) (Ne.symm hne))]; linarith
          · rw [div_le_one_of_neg (lt_of_le_of_ne (by linarith [h.1, h.2]) hne)]; linarith
        · rw [hpx, ← hab]; ring
        · field_simp; ring
    · have hne : b.1 - a.1 ≠ 0 := fun h => hab (by linarith)
      refine ⟨(p.1 - a.1) / (b.1 - a.1), ?_, ?_, ?_, ?_⟩
      · rcases hx with h | h
        · exact div_nonneg (by linarith) (by linarith)
        · exact div_nonneg_of_nonpos (by linarith) (by linarith)
      · rcases hx with h | h
        · rw [div_le_one (lt_of_le_of_ne (by linarith [h.1, h.2]) (Ne.symm hne))]; linarith
        · rw [div_le_one_of_neg (lt_of_le_of_ne (by linarith [h.1, h.2]) hne)]; linarith
      · field_simp; ring
      · field_simp; linear_combination hd

theorem onLine_of_crossing {c : Coord} {l : Coord × Coord} (h : crossing c l = none) : OnLine l.1 l.2 c := by
  rw [onLine_iff]
  unfold crossing at h
  simp only [orient_ccw, orient_cw, orient_col, between_iff] at h
  split at h
  · next h1 =>
    split at h
    · next h2 =>
      split at h
      · cases h
      · split at h
        · next h3 h4 => exact ⟨h4.1, h4.2, .inl ⟨h1, h2⟩⟩
        · cases h
    · cases h
  · next h1 =>
    split at h
    · next h2 =>
      split at h
      · cases h
      · split at h
        · next h3 h4 => exact ⟨h4.1, h4.2, .inr ⟨h2, by linarith⟩⟩
        · cases h
    · cases h

/-- A point on a line is noticed, unless it is the start of a line that goes down from it. -/
theorem crossing_of_onLine {c : Coord} {l : Coord × Coord} (h : OnLine l.1 l.2 c) : crossing c l = none ∨ c = l.1 := by
  rw [onLine_iff] at h
  obtain ⟨hd, hx, hy⟩ := h
  unfold crossing
  simp only [orient_ccw, orient_cw, orient_col, between_iff]
  by_cases h1 : l.1.2 ≤ c.2
  · rw [if_pos h1]
    by_cases h2 : c.2 ≤ l.2.2
    · rw [if_pos h2, if_neg (by rw [hd]; simp), if_pos ⟨hd, hx⟩]
      exact .inl rfl
    · right
      rcases hy with h | h
      · exact absurd h.2 h2
      · have e2 : c.2 = l.1.2 := le_antisymm h.2 h1
        have e1 : c.1 = l.1.1 := by
          unfold det at hd
          rw [← e2] at hd
          have : (l.1.1 - c.1) * (l.2.2 - c.2) = 0 := by linarith
          rcases mul_eq_zero.1 this with h' | h'
          · linarith
          · exact absurd (by linarith) h2
        exact Prod.ext e1 e2
  · rw [if_neg h1, if_pos (by rcases hy with h | h; exacts [absurd h.1 h1, h.1]), if_neg (by rw [hd]; simp), if_pos ⟨hd, hx⟩]
    exact .inl rfl

theorem crossing_end {a c : Coord} : crossing c (a, c) = none := by
  have hd : det a c c = 0 := by unfold det; ring
  unfold crossing
  simp only [orient_ccw, orient_cw, orient_col, between_iff, hd, le_refl, if_true]
  simp only [lt_irrefl, false_and, if_false, true_and, and_true, le_total, if_true, ite_self]

theorem crossing_some {c : Coord} {l : Coord × Coord} (hn : crossing c l ≠ none) : crossing c l = some (kappa c l.1 l.2) := by
  unfold crossing at hn ⊢
  unfold kappa
  simp only [orient_ccw, orient_cw, orient_col, between_iff] at hn ⊢
  by_cases h1 : l.1.2 ≤ c.2
  · rw [if_pos h1] at hn ⊢
    rw [if_neg (c := l.2.2 ≤ c.2 ∧ c.2 < l.1.2 ∧ det l.1 l.2 c < 0) (by rintro ⟨_, h2, _⟩; linarith)]
    by_cases h2 : c.2 ≤ l.2.2
    · rw [if_pos h2] at hn ⊢
      by_cases h3 : 0 < det l.1 l.2 c ∧ l.2.2 ≠ c.2
      · rw [if_pos h3, if_pos ⟨h1, lt_of_le_of_ne h2 (Ne.symm h3.2), h3.1⟩]
      · rw [if_neg h3] at hn ⊢
        split at hn
        · exact absurd rfl hn
        · next h4 => rw [if_neg h4, if_neg (by rintro ⟨_, h5, h6⟩; exact h3 ⟨h6, ne_of_gt h5⟩)]
    · rw [if_neg h2, if_neg (by rintro ⟨_, h3, _⟩; exact h2 (le_of_lt h3))]
  · rw [if_neg h1] at hn ⊢
    rw [if_neg (c := l.1.2 ≤ c.2 ∧ c.2 < l.2.2 ∧ 0 < det l.1 l.2 c) (by rintro ⟨h2, _⟩; exact h1 h2)]
    by_cases h2 : l.2.2 ≤ c.2
    · rw [if_pos h2] at hn ⊢
      by_cases h3 : det l.1 l.2 c < 0
      · rw [if_pos h3, if_pos ⟨h2, not_le.1 h1, h3⟩]
      · rw [if_neg h3] at hn ⊢
        split at hn
        · exact absurd rfl hn
        · next h4 => rw [if_neg h4, if_neg (by rintro ⟨_, _, h6⟩; exact h3 h6)]
    · rw [if_neg h2, if_neg (by rintro ⟨h3, _⟩; exact h2 h3)]

/-- The winding number of the lines. -/
def winding (c : Coord) (ls : List (Coord × Coord)) : Int := (ls.map fun l => kappa c l.1 l.2).sum

theorem windingLoop_eq (c : Coord) (ls : List (Coord × Coord)) (w : Int) :
    windingLoop c ls w = .inside ↔ (∀ l ∈ ls, crossing c l ≠ none) ∧ w + winding c ls ≠ 0 := by
  induction ls generalizing w with
  | nil => simp [windingLoop, winding]
  | cons l ls ih =>
    by_cases h : crossing c l = none
    · rw [windingLoop, h]
      simp [h]
    · rw [windingLoop, crossing_some h]
      simp only [ih, List.mem_cons, forall_eq_or_imp, h, not_false_eq_true, true_and, winding, List.map_cons, List.sum_cons, ne_eq]
      rw [Int.add_assoc]

theorem pairs_end {α : Type} {l : List α} {x : α} (h : l.getLast? = some x) (h2 : 2 ≤ l.length) : ∃ a, (a, x) ∈ pairs l := by
  induction l with
  | nil => simp at h
  | cons a l ih =>
    cases l with
    | nil => simp at h2
    | cons b l =>
      cases l with
      | nil => simp at h; subst h; exact ⟨a, by simp [pairs]⟩
      | cons d l =>
        obtain ⟨e, he⟩ := ih (by simpa using h) (by simp)
        exact ⟨e, by rw [pairs]; exact List.mem_cons_of_mem _ he⟩

/-- In a closed walk every point where a line starts is one where a line ends. -/
theorem start_end {α : Type} {l : List α} (hc : l.head? = l.getLast?) {x y : α} (h : (x, y) ∈ pairs l) : ∃ a, (a, x) ∈ pairs l := by
  cases l with
  | nil => simp [pairs] at h
  | cons v l =>
    cases l with
    | nil => simp [pairs] at h
    | cons w l =>
      by_cases hx : x = v
      · subst hx
        exact pairs_end (by rw [← hc]; rfl) (by simp)
      · have key : ∀ (l : List α) (v : α), (x, y) ∈ pairs (v :: l) → x ≠ v → ∃ a, (a, x) ∈ pairs (v :: l) := by
          intro l
          induction l with
          | nil => intro v h; simp [pairs] at h
          | cons w l ih =>
            intro v h hv
            rw [pairs, List.mem_cons] at h
            rcases h with h | h
            · cases h; exact absurd rfl hv
            · by_cases hw : x = w
              · subst hw; exact ⟨v, by simp [pairs]⟩
              · obtain ⟨a, ha⟩ := ih w h hw
                exact ⟨a, by rw [pairs]; exact List.mem_cons_of_mem _ ha⟩
        exact key _ _ h hx

theorem crossing_border {ring : List Coord} (hc : ring.head? = ring.getLast?) (c : Coord) :
    (∀ l ∈ pairs ring, crossing c l ≠ none) ↔ ¬ OnBorder ring c := by
  constructor
  · rintro h ⟨l, hl, ho⟩
    rcases crossing_of_onLine ho with h1 | h1
    · exact h l hl h1
    · obtain ⟨a, ha⟩ := start_end hc (x := l.1) (y := l.2) hl
      rw [← h1] at ha
      exact h _ ha crossing_end
  · intro h l hl hn
    exact h ⟨l, hl, onLine_of_crossing hn⟩

theorem close_head {α : Type} [DecidableEq α] (l : List α) : (close l).head? = l.head? := by
  unfold close
  cases l with
  | nil => rfl
  | cons a l => simp only [List.head?_cons]; split <;> rfl

theorem close_last {α : Type} [DecidableEq α] (l : List α) : (close l).getLast? = l.head? := by
  unfold close
  cases l with
  | nil => rfl
  | cons a l =>
    simp only [List.head?_cons]
    split
    · assumption
    · exact List.getLast?_concat

theorem close_closed {α : Type} [DecidableEq α] {l : List α} (h : l.head? = l.getLast?) : close l = l := by
  unfold close
  cases l with
  | nil => rfl
  | cons a l => simp only [List.head?_cons] at h ⊢; rw [if_pos h.symm]

theorem mem_close {α : Type} [DecidableEq α] {l : List α} {x : α} : x ∈ close l ↔ x ∈ l := by
  unfold close
  cases l with
  | nil => simp
  | cons a l =>
    simp only [List.head?_cons]
    split
    · rfl
    · simp only [List.mem_append, List.mem_singleton]
      exact ⟨fun h => h.elim id (fun h => h ▸ List.mem_cons_self), .inl⟩

theorem contains_iff {b : List Coord} {c : Coord} :
    contains b c = true ↔ ¬ OnBorder (close b) c ∧ winding c (pairs (close b)) ≠ 0 := by
  rw [← crossing_border (by rw [close_head, close_last])]
  unfold contains
  simp only [decide_eq_true_eq]
  generalize close b = ring
  unfold coordPosRelativeToRing
  split
  · simp [pairs, winding]
  · simp only [pairs, winding, List.map_nil, List.sum_nil, ne_eq, not_true_eq_false, and_false, iff_false]
    split <;> simp
  · rw [windingLoop_eq]; simp

/-! ## Triangles -/

theorem det_sum (a b c p : Coord) : det a b p + det b c p + det c a p = area2 a b c := by
  unfold det area2; ring

theorem det_mean_y (a b c p : Coord) : det b c p * (a.2 - p.2) + det c a p * (b.2 - p.2) + det a b p * (c.2 - p.2) = 0 := by
  unfold det; ring

theorem det_mean_x (a b c p : Coord) : det b c p * (a.1 - p.1) + det c a p * (b.1 - p.1) + det a b p * (c.1 - p.1) = 0 := by
  unfold det; ring

theorem inTriangle_iff (a b c p : Coord) (h : area2 a b c ≠ 0) : InTriangle a b c p ↔
    (0 < det a b p ∧ 0 < det b c p ∧ 0 < det c a p) ∨ (det a b p < 0 ∧ det b c p < 0 ∧ det c a p < 0) := by
  constructor
  · rintro ⟨x, y, z, hx, hy, hz, h1, h2, h3⟩
    have e1 : det a b p = z * area2 a b c := by
      have : x = 1 - y - z := by linarith
      unfold det area2; rw [h2, h3, this]; ring
    have e2 : det b c p = x * area2 a b c := by
      have : y = 1 - x - z := by linarith
      unfold det area2; rw [h2, h3, this]; ring
    have e3 : det c a p = y * area2 a b c := by
      have : z = 1 - x - y := by linarith
      unfold det area2; rw [h2, h3, this]; ring
    rw [e1, e2, e3]
    rcases lt_or_gt_of_ne h with h | h
    · exact .inr ⟨mul_neg_of_pos_of_neg hz h, mul_neg_of_pos_of_neg hx h, mul_neg_of_pos_of_neg hy h⟩
    · exact .inl ⟨mul_pos hz h, mul_pos hx h, mul_pos hy h⟩
  · intro hs
    have h1 := det_sum a b c p
    have hx := det_mean_x a b c p
    have hy := det_mean_y a b c p
    refine ⟨det b c p / area2 a b c, det c a p / area2 a b c, det a b p / area2 a b c, ?_, ?_, ?_, ?_, ?_, ?_⟩
    · rcases hs with ⟨h2, h3, h4⟩ | ⟨h2, h3, h4⟩
      · exact div_pos h3 (by linarith)
      · exact div_pos_of_neg_of_neg h3 (by linarith)
    · rcases hs with ⟨h2, h3, h4⟩ | ⟨h2, h3, h4⟩
      · exact div_pos h4 (by linarith)
      · exact div_pos_of_neg_of_neg h4 (by linarith)
    · rcases hs with ⟨h2, h3, h4⟩ | ⟨h2, h3, h4⟩
      · exact div_pos h2 (by linarith)
      · exact div_pos_of_neg_of_neg h2 (by linarith)
    · rw [← add_div, ← add_div, div_eq_one_iff_eq h]; linarith
    · field_simp; rw [← h1]; linarith
    · field_simp; rw [← h1]; linarith

/-- The signs of the three determinants tell how the triangle goes round the point. -/
theorem around_eq (a b c p : Coord) : around a b c p =
    if 0 < det a b p ∧ 0 < det b c p ∧ 0 < det c a p then 1
    else if det a b p < 0 ∧ det b c p < 0 ∧ det c a p < 0 then -1 else 0 := by
  have h1 := det_sum a b c p
  unfold around
  by_cases h : area2 a b c = 0
  · rw [if_neg (c := 0 < det a b p ∧ _) (by rintro ⟨h2, h3, h4⟩; linarith),
      if_neg (c := det a b p < 0 ∧ _) (by rintro ⟨h2, h3, h4⟩; linarith), h]
    simp
  · rw [inTriangle_iff _ _ _ _ h]
    by_cases hp : 0 < det a b p ∧ 0 < det b c p ∧ 0 < det c a p
    · rw [if_pos (.inl hp), if_pos hp, if_pos (by linarith [hp.1, hp.2.1, hp.2.2])]
    · by_cases hn : det a b p < 0 ∧ det b c p < 0 ∧ det c a p < 0
      · rw [if_pos (.inr hn), if_neg hp, if_pos hn, if_neg (by linarith [hn.1, hn.2.1, hn.2.2]), if_pos (by linarith [hn.1, hn.2.1, hn.2.2])]
      · rw [if_neg (by rintro (h | h); exacts [hp h, hn h]), if_neg hp, if_neg hn]

/-! The same with the point at the origin. -/

/-- `det` with the point at the origin -/
abbrev dd (a b : Coord) : Rat := a.1 * b.2 - a.2 * b.1

/-- `kappa` with the point at the origin -/
def kk (a b : Coord) : Int :=
  if a.2 ≤ 0 ∧ 0 < b.2 ∧ 0 < dd a b then 1 else if b.2 ≤ 0 ∧ 0 < a.2 ∧ dd a b < 0 then -1 else 0

/-- Not on the line -/
def Off (a b : Coord) : Prop :=
  dd a b = 0 → ¬ (((a.1 ≤ 0 ∧ 0 ≤ b.1) ∨ (b.1 ≤ 0 ∧ 0 ≤ a.1)) ∧ ((a.2 ≤ 0 ∧ 0 ≤ b.2) ∨ (b.2 ≤ 0 ∧ 0 ≤ a.2)))

/-- `around` with the point at the origin -/
def ar (a b c : Coord) : Int :=
  if 0 < dd a b ∧ 0 < dd b c ∧ 0 < dd c a then 1 else if dd a b < 0 ∧ dd b c < 0 ∧ dd c a < 0 then -1 else 0

theorem ar_rotate (a b c : Coord) : ar b c a = ar a b c := by
  unfold ar
  by_cases h : 0 < dd a b ∧ 0 < dd b c ∧ 0 < dd c a
  · rw [if_pos h, if_pos ⟨h.2.1, h.2.2, h.1⟩]
  · rw [if_neg h, if_neg (fun h' => h ⟨h'.2.2, h'.1, h'.2.1⟩)]
    by_cases h : dd a b < 0 ∧ dd b c < 0 ∧ dd c a < 0
    · rw [if_pos h, if_pos ⟨h.2.1, h.2.2, h.1⟩]
    · rw [if_neg h, if_neg (fun h' => h ⟨h'.2.2, h'.1, h'.2.1⟩)]

theorem dd_mean (a b c : Coord) : dd b c * a.2 + dd c a * b.2 + dd a b * c.2 = 0 := by
  unfold dd; ring

/-- A line from above to below (or level with) the origin does not go through it. -/
theorem off_ne {a b : Coord} (h : Off a b) (ha : 0 < a.2) (hb : b.2 ≤ 0) : dd a b ≠ 0 := by
  intro hd
  refine h hd ⟨?_, .inr ⟨hb, ha.le⟩⟩
  unfold dd at hd
  rcases le_total a.1 0 with h1 | h1
  · left
    refine ⟨h1, ?_⟩
    by_contra h2
    have : 0 ≤ a.1 * b.2 := mul_nonneg_of_nonpos_of_nonpos h1 hb
    have : a.2 * b.1 < 0 := mul_neg_of_pos_of_neg ha (not_le.1 h2)
    linarith
  · right
    refine ⟨?_, h1⟩
    by_contra h2
    have : a.1 * b.2 ≤ 0 := mul_nonpos_of_nonneg_of_nonpos h1 hb
    have : 0 < a.2 * b.1 := mul_pos ha (not_le.1 h2)
    linarith

theorem off_swap {a b : Coord} (h : Off a b) : Off b a := by
  intro hd
  have : dd a b = 0 := by unfold dd at hd ⊢; linarith
  rintro ⟨h1, h2⟩
  exact h this ⟨h1.symm, h2.symm⟩

theorem dd_swap (a b : Coord) : dd b a = - dd a b := by unfold dd; ring

theorem kk_one {a b c : Coord} (h1 : Off a b) (h2 : Off b c) (h3 : Off c a) (ha : 0 < a.2) (hb : b.2 ≤ 0) (hc : c.2 ≤ 0) :
    kk a b + kk b c + kk c a = ar a b c := by
  have hy := dd_mean a b c
  have n1 := off_ne h1 ha hb
  have n3 : dd c a ≠ 0 := by
    rw [dd_swap a c, neg_ne_zero]; exact off_ne (off_swap h3) ha hc
  have k2 : kk b c = 0 := by
    unfold kk; rw [if_neg (by rintro ⟨_, h, _⟩; linarith), if_neg (by rintro ⟨_, h, _⟩; linarith)]
  have k1 : kk a b = if dd a b < 0 then -1 else 0 := by
    unfold kk; rw [if_neg (by rintro ⟨h, _⟩; linarith)]; simp [hb, ha]
  have k3 : kk c a = if 0 < dd c a then 1 else 0 := by
    unfold kk
    rw [if_neg (c := a.2 ≤ 0 ∧ _) (by rintro ⟨h, _⟩; linarith)]; simp [hc, ha]
  rw [k1, k2, k3]
  unfold ar
  rcases lt_or_gt_of_ne n1 with e1 | e1 <;> rcases lt_or_gt_of_ne n3 with e3 | e3
  · have e2 : dd b c < 0 := by
      have p1 : 0 ≤ dd c a * b.2 := mul_nonneg_of_nonpos_of_nonpos e3.le hb
      have p2 : 0 ≤ dd a b * c.2 := mul_nonneg_of_nonpos_of_nonpos e1.le hc
      by_contra hn
      have p3 : 0 ≤ dd b c * a.2 := mul_nonneg (not_lt.1 hn) ha.le
      have z1 : dd b c * a.2 = 0 := by linarith
      have z2 : dd c a * b.2 = 0 := by linarith
      have z3 : dd a b * c.2 = 0 := by linarith
      have y1 : dd b c = 0 := (mul_eq_zero.1 z1).resolve_right ha.ne'
      have y2 : b.2 = 0 := (mul_eq_zero.1 z2).resolve_left e3.ne
      have y3 : c.2 = 0 := (mul_eq_zero.1 z3).resolve_left e1.ne
      unfold dd at e1 e3
      rw [y2] at e1
      rw [y3] at e3
      refine h2 y1 ⟨.inr ⟨?_, ?_⟩, .inl ⟨y2.le, y3.ge⟩⟩
      · by_contra hh; nlinarith
      · by_contra hh; nlinarith
    rw [if_pos e1, if_neg (by linarith), if_neg (by rintro ⟨h, _⟩; linarith), if_pos ⟨e1, e2, e3⟩]; rfl
  · rw [if_pos e1, if_pos e3, if_neg (by rintro ⟨h, _⟩; linarith), if_neg (by rintro ⟨_, _, h⟩; linarith)]; rfl
  · rw [if_neg (by linarith), if_neg (by linarith), if_neg (by rintro ⟨_, _, h⟩; linarith), if_neg (by rintro ⟨h, _⟩; linarith)]; rfl
  · have e2 : 0 < dd b c := by
      have p1 : dd c a * b.2 ≤ 0 := mul_nonpos_of_nonneg_of_nonpos e3.le hb
      have p2 : dd a b * c.2 ≤ 0 := mul_nonpos_of_nonneg_of_nonpos e1.le hc
      by_contra hn
      have p3 : dd b c * a.2 ≤ 0 := mul_nonpos_of_nonpos_of_nonneg (not_lt.1 hn) ha.le
      have z1 : dd b c * a.2 = 0 := by linarith
      have z2 : dd c a * b.2 = 0 := by linarith
      have z3 : dd a b * c.2 = 0 := by linarith
      have y1 : dd b c = 0 := (mul_eq_zero.1 z1).resolve_right ha.ne'
      have y2 : b.2 = 0 := (mul_eq_zero.1 z2).resolve_left e3.ne'
      have y3 : c.2 = 0 := (mul_eq_zero.1 z3).resolve_left e1.ne'
      unfold dd at e1 e3
      rw [y2] at e1
      rw [y3] at e3
      refine h2 y1 ⟨.inl ⟨?_, ?_⟩, .inl ⟨y2.le, y3.ge⟩⟩
      · by_contra hh; nlinarith
      · by_contra hh; nlinarith
    rw [if_neg (by linarith), if_pos e3, if_pos ⟨e1, e2, e3⟩]; rfl

theorem kk_two {a b c : Coord} (h1 : Off a b) (h3 : Off c a) (ha : a.2 ≤ 0) (hb : 0 < b.2) (hc : 0 < c.2) :
    kk a b + kk b c + kk c a = ar a b c := by
  have hy := dd_mean a b c
  have n1 : dd a b ≠ 0 := by
    rw [dd_swap b a, neg_ne_zero]; exact off_ne (off_swap h1) hb ha
  have n3 := off_ne h3 hc ha
  have k2 : kk b c = 0 := by
    unfold kk; rw [if_neg (by rintro ⟨h, _⟩; linarith), if_neg (by rintro ⟨h, _⟩; linarith)]
  have k1 : kk a b = if 0 < dd a b then 1 else 0 := by
    unfold kk
    rw [if_neg (c := b.2 ≤ 0 ∧ _) (by rintro ⟨h, _⟩; linarith)]; simp [hb, ha]
  have k3 : kk c a = if dd c a < 0 then -1 else 0 := by
    unfold kk; rw [if_neg (by rintro ⟨h, _⟩; linarith)]; simp [hc, ha]
  rw [k1, k2, k3]
  unfold ar
  rcases lt_or_gt_of_ne n1 with e1 | e1 <;> rcases lt_or_gt_of_ne n3 with e3 | e3
  · have e2 : dd b c < 0 := by
      have p1 : dd c a * b.2 < 0 := mul_neg_of_neg_of_pos e3 hb
      have p2 : dd a b * c.2 < 0 := mul_neg_of_neg_of_pos e1 hc
      by_contra hn
      have p3 : dd b c * a.2 ≤ 0 := mul_nonpos_of_nonneg_of_nonpos (not_lt.1 hn) ha
      linarith
    rw [if_neg (by linarith), if_pos e3, if_neg (by rintro ⟨h, _⟩; linarith), if_pos ⟨e1, e2, e3⟩]; rfl
  · rw [if_neg (by linarith), if_neg (by linarith), if_neg (by rintro ⟨h, _⟩; linarith), if_neg (by rintro ⟨_, _, h⟩; linarith)]; rfl
  · rw [if_pos e1, if_pos e3, if_neg (by rintro ⟨_, _, h⟩; linarith), if_neg (by rintro ⟨h, _⟩; linarith)]; rfl
  · have e2 : 0 < dd b c := by
      have p1 : 0 < dd c a * b.2 := mul_pos e3 hb
      have p2 : 0 < dd a b * c.2 := mul_pos e1 hc
      by_contra hn
      have p3 : 0 ≤ dd b c * a.2 := mul_nonneg_of_nonpos_of_nonpos (not_lt.1 hn) ha
      linarith
    rw [if_pos e1, if_neg (by linarith), if_pos ⟨e1, e2, e3⟩]; rfl

theorem kk_below {a b : Coord} (ha : a.2 ≤ 0) (hb : b.2 ≤ 0) : kk a b = 0 := by
  unfold kk; rw [if_neg (by rintro ⟨_, h, _⟩; linarith), if_neg (by rintro ⟨_, h, _⟩; linarith)]

theorem kk_above {a b : Coord} (ha : 0 < a.2) (hb : 0 < b.2) : kk a b = 0 := by
  unfold kk; rw [if_neg (by rintro ⟨h, _⟩; linarith), if_neg (by rintro ⟨h, _⟩; linarith)]

theorem kk_triangle {a b c : Coord} (h1 : Off a b) (h2 : Off b c) (h3 : Off c a) : kk a b + kk b c + kk c a = ar a b c := by
  have hy := dd_mean a b c
  rcases le_or_gt a.2 0 with ha | ha <;> rcases le_or_gt b.2 0 with hb | hb <;> rcases le_or_gt c.2 0 with hc | hc
  · rw [kk_below ha hb, kk_below hb hc, kk_below hc ha]
    unfold ar
    have key : ¬ (a.2 = 0 ∧ b.2 = 0) ∨ dd a b = 0 := by
      by_cases h : a.2 = 0 ∧ b.2 = 0
      · right; unfold dd; rw [h.1, h.2]; ring
      · exact .inl h
    rw [if_neg, if_neg]; rfl
    · rintro ⟨e1, e2, e3⟩
      have p1 : 0 ≤ dd b c * a.2 := mul_nonneg_of_nonpos_of_nonpos e2.le ha
      have p2 : 0 ≤ dd c a * b.2 := mul_nonneg_of_nonpos_of_nonpos e3.le hb
      have p3 : 0 ≤ dd a b * c.2 := mul_nonneg_of_nonpos_of_nonpos e1.le hc
      have z1 : a.2 = 0 := (mul_eq_zero.1 (show dd b c * a.2 = 0 by linarith)).resolve_left e2.ne
      have z2 : b.2 = 0 := (mul_eq_zero.1 (show dd c a * b.2 = 0 by linarith)).resolve_left e3.ne
      rcases key with h | h
      · exact h ⟨z1, z2⟩
      · linarith
    · rintro ⟨e1, e2, e3⟩
      have p1 : dd b c * a.2 ≤ 0 := mul_nonpos_of_nonneg_of_nonpos e2.le ha
      have p2 : dd c a * b.2 ≤ 0 := mul_nonpos_of_nonneg_of_nonpos e3.le hb
      have p3 : dd a b * c.2 ≤ 0 := mul_nonpos_of_nonneg_of_nonpos e1.le hc
      have z1 : a.2 = 0 := (mul_eq_zero.1 (show dd b c * a.2 = 0 by linarith)).resolve_left e2.ne'
      have z2 : b.2 = 0 := (mul_eq_zero.1 (show dd c a * b.2 = 0 by linarith)).resolve_left e3.ne'
      rcases key with h | h
      · exact h ⟨z1, z2⟩
      · linarith
  · rw [← ar_rotate, ← ar_rotate, ← kk_one h3 h1 h2 hc ha hb]; omega
  · rw [← ar_rotate, ← kk_one h2 h3 h1 hb hc ha]; omega
  · exact kk_two h1 h3 ha hb hc
  · exact kk_one h1 h2 h3 ha hb hc
  · rw [← ar_rotate, ← kk_two h2 h1 hb hc ha]; omega
  · rw [← ar_rotate, ← ar_rotate, ← kk_two h3 h2 hc ha hb]; omega
  · rw [kk_above ha hb, kk_above hb hc, kk_above hc ha]
    unfold ar
    rw [if_neg, if_neg]; rfl
    · rintro ⟨e1, e2, e3⟩
      have p1 : dd b c * a.2 < 0 := mul_neg_of_neg_of_pos e2 ha
      have p2 : dd c a * b.2 < 0 := mul_neg_of_neg_of_pos e3 hb
      have p3 : dd a b * c.2 < 0 := mul_neg_of_neg_of_pos e1 hc
      linarith
    · rintro ⟨e1, e2, e3⟩
      have p1 : 0 < dd b c * a.2 := mul_pos e2 ha
      have p2 : 0 < dd c a * b.2 := mul_pos e3 hb
      have p3 : 0 < dd a b * c.2 := mul_pos e1 hc
      linarith

/-- Relative to the point -/
def rel (p a : Coord) : Coord := (a.1 - p.1, a.2 - p.2)

theorem kappa_rel (p a b : Coord) : kappa p a b = kk (rel p a) (rel p b) := by
  unfold kappa kk
  exact if_congr (and_congr sub_nonpos.symm (and_congr sub_pos.symm Iff.rfl)) rfl
    (if_congr (and_congr sub_nonpos.symm (and_congr sub_pos.symm Iff.rfl)) rfl rfl)

theorem off_rel {p a b : Coord} (h : ¬ OnLine a b p) : Off (rel p a) (rel p b) := by
  rw [onLine_iff] at h
  intro hd
  simp only [rel, sub_nonpos, sub_nonneg]
  rintro ⟨h1, h2⟩
  exact h ⟨hd, h1, h2⟩

/-- Three lines round a triangle, if the point is on none of them. -/
theorem kappa_triangle {a b c p : Coord} (h1 : ¬ OnLine a b p) (h2 : ¬ OnLine b c p) (h3 : ¬ OnLine c a p) :
    kappa p a b + kappa p b c + kappa p c a = around a b c p := by
  rw [around_eq, kappa_rel, kappa_rel, kappa_rel, kk_triangle (off_rel h1) (off_rel h2) (off_rel h3)]
  rfl

theorem onLine_swap {a b p : Coord} (h : OnLine a b p) : OnLine b a p := by
  obtain ⟨t, h0, h1, h2, h3⟩ := h
  exact ⟨1 - t, by linarith, by linarith, by rw [h2]; ring, by rw [h3]; ring⟩

/-- The sum over the triangles with `o`. -/
theorem turns_open {o p : Coord} : ∀ (ring : List Coord) (v : Coord), Clear o (v :: ring) p → ¬ OnBorder (v :: ring) p →
    turns o (v :: ring) p = winding p (pairs (v :: ring)) + kappa p o v - kappa p o ((v :: ring).getLast (by simp))
  | [], v, _, _ => by simp [turns, winding, pairs]
  | w :: ring, v, hc, hb => by
    have ih := turns_open ring w (fun x hx => hc x (List.mem_cons_of_mem _ hx))
      (fun ⟨l, hl, h⟩ => hb ⟨l, List.mem_cons_of_mem _ hl, h⟩)
    have hv : ¬ OnLine o v p := hc v (by simp)
    have hw : ¬ OnLine o w p := hc w (by simp)
    have hvw : ¬ OnLine v w p := fun h => hb ⟨(v, w), by simp [pairs], h⟩
    have tri := kappa_triangle hv hvw (fun h => hw (onLine_swap h))
    have sw := kappa_swap p o w
    unfold turns winding at ih ⊢
    rw [pairs]
    simp only [List.map_cons, List.sum_cons, ih, ← tri, sw, List.getLast_cons_cons]
    omega

theorem turns_eq {o p : Coord} {ring : List Coord} (hcl : ring.head? = ring.getLast?) (hc : Clear o ring p) (hb : ¬ OnBorder ring p) :
    turns o ring p = winding p (pairs ring) := by
  cases ring with
  | nil => rfl
  | cons v ring =>
    rw [turns_open ring v hc hb]
    have : (v :: ring).getLast (by simp) = v := by
      rw [List.getLast?_eq_getLast_of_ne_nil (by simp)] at hcl
      exact (Option.some.inj hcl).symm
    rw [this]
    omega

end Verif.Contains
