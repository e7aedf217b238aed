import Verif.Proofs.Contains
import Verif.Proofs.Loop
import Verif.Proofs.SectorIndex
/-! # Point in polygon: extent, apexes, closed walks (helper lemmas) -/

namespace Verif.Contains
open Spec
open Verif.Polygon (pairs)

theorem winding_zero {p : Coord} {ring : List Coord} (h : ∀ a ∈ ring, ∀ b ∈ ring, kappa p a b = 0) : winding p (pairs ring) = 0 := by
  unfold winding
  have : ∀ l ∈ pairs ring, kappa p l.1 l.2 = 0 := by
    intro l hl
    have := Polygon.mem_pairs (a := l.1) (b := l.2) hl
    exact h _ this.1 _ this.2
  revert this
  generalize pairs ring = ls
  intro h
  induction ls with
  | nil => rfl
  | cons l ls ih =>
    rw [List.map_cons, List.sum_cons, h l (by simp), ih (fun x hx => h x (List.mem_cons_of_mem _ hx))]
    rfl

/-- For a point left of everything the winding number telescopes. -/
theorem winding_left {p : Coord} : ∀ (ring : List Coord) (v : Coord), (∀ a ∈ v :: ring, p.1 < a.1) →
    winding p (pairs (v :: ring)) =
      (if p.2 < ((v :: ring).getLast (by simp)).2 then 1 else 0) - (if p.2 < v.2 then 1 else 0)
  | [], v, _ => by
    simp only [winding, pairs, List.map_nil, List.sum_nil, List.getLast_singleton]
    exact (Int.sub_self _).symm
  | w :: ring, v, h => by
    have ih := winding_left ring w (fun a ha => h a (List.mem_cons_of_mem _ ha))
    have hv := h v (by simp)
    have hw := h w (by simp)
    have hk : kappa p v w = (if p.2 < w.2 then 1 else 0) - (if p.2 < v.2 then 1 else 0) := by
      unfold kappa
      rcases le_or_gt v.2 p.2 with h1 | h1 <;> rcases le_or_gt w.2 p.2 with h2 | h2
      · rw [if_neg (by rintro ⟨_, h, _⟩; linarith), if_neg (by rintro ⟨_, h, _⟩; linarith), if_neg (by linarith), if_neg (by linarith)]; rfl
      · have : 0 < det v w p := by
          unfold det
          have p1 : 0 < (v.1 - p.1) * (w.2 - p.2) := mul_pos (by linarith) (by linarith)
          have p2 : (v.2 - p.2) * (w.1 - p.1) ≤ 0 := mul_nonpos_of_nonpos_of_nonneg (by linarith) (by linarith)
          linarith
        rw [if_pos ⟨h1, h2, this⟩, if_pos h2, if_neg (by linarith)]; rfl
      · have : det v w p < 0 := by
          unfold det
          have p1 : (v.1 - p.1) * (w.2 - p.2) ≤ 0 := mul_nonpos_of_nonneg_of_nonpos (by linarith) (by linarith)
          have p2 : 0 < (v.2 - p.2) * (w.1 - p.1) := mul_pos (by linarith) (by linarith)
          linarith
        rw [if_neg (by rintro ⟨h, _⟩; linarith), if_pos ⟨h2, h1, this⟩, if_neg (by linarith), if_pos h1]; rfl
      · rw [if_neg (by rintro ⟨h, _⟩; linarith), if_neg (by rintro ⟨h, _⟩; linarith), if_pos h1, if_pos h2]; rfl
    unfold winding at ih ⊢
    rw [pairs, List.map_cons, List.sum_cons, ih, hk, List.getLast_cons_cons]
    omega

theorem kappa_right {p a b : Coord} (ha : a.1 < p.1) (hb : b.1 < p.1) : kappa p a b = 0 := by
  unfold kappa
  rw [if_neg, if_neg]
  · rintro ⟨h1, h2, h3⟩
    unfold det at h3
    have p1 : 0 ≤ (a.1 - p.1) * (b.2 - p.2) := mul_nonneg_of_nonpos_of_nonpos (by linarith) (by linarith)
    have p2 : (a.2 - p.2) * (b.1 - p.1) < 0 := mul_neg_of_pos_of_neg (by linarith) (by linarith)
    linarith
  · rintro ⟨h1, h2, h3⟩
    unfold det at h3
    have p1 : (a.1 - p.1) * (b.2 - p.2) < 0 := mul_neg_of_neg_of_pos (by linarith) (by linarith)
    have p2 : 0 ≤ (a.2 - p.2) * (b.1 - p.1) := mul_nonneg_of_nonpos_of_nonpos (by linarith) (by linarith)
    linarith

theorem kappa_over {p a b : Coord} (ha : a.2 < p.2) (hb : b.2 < p.2) : kappa p a b = 0 := by
  unfold kappa
  rw [if_neg (by rintro ⟨_, h, _⟩; linarith), if_neg (by rintro ⟨_, h, _⟩; linarith)]

theorem kappa_under {p a b : Coord} (ha : p.2 < a.2) (hb : p.2 < b.2) : kappa p a b = 0 := by
  unfold kappa
  rw [if_neg (by rintro ⟨h, _⟩; linarith), if_neg (by rintro ⟨h, _⟩; linarith)]

/-- A contained point is within the extent of the border. -/
theorem extent {b : List Coord} {p : Coord} (h : contains b p = true) :
    (∃ q ∈ b, q.1 ≤ p.1) ∧ (∃ q ∈ b, p.1 ≤ q.1) ∧ (∃ q ∈ b, q.2 ≤ p.2) ∧ (∃ q ∈ b, p.2 ≤ q.2) := by
  have hw := (contains_iff.1 h).2
  refine ⟨?_, ?_, ?_, ?_⟩
  · by_contra hn
    simp only [not_exists, not_and, not_le] at hn
    apply hw
    have hn' : ∀ q ∈ close b, p.1 < q.1 := fun q hq => hn q (mem_close.1 hq)
    have hc : (close b).head? = (close b).getLast? := by rw [close_head, close_last]
    revert hn' hc
    generalize close b = ring
    intro hn' hc
    cases ring with
    | nil => rfl
    | cons v ring =>
      rw [winding_left ring v hn']
      have : (v :: ring).getLast (by simp) = v := by
        rw [List.getLast?_eq_getLast_of_ne_nil (by simp)] at hc
        exact (Option.some.inj hc).symm
      rw [this]
      omega
  · by_contra hn
    simp only [not_exists, not_and, not_le] at hn
    exact hw (winding_zero fun a ha b hb => kappa_right (hn a (mem_close.1 ha)) (hn b (mem_close.1 hb)))
  · by_contra hn
    simp only [not_exists, not_and, not_le] at hn
    exact hw (winding_zero fun a ha b hb => kappa_under (hn a (mem_close.1 ha)) (hn b (mem_close.1 hb)))
  · by_contra hn
    simp only [not_exists, not_and, not_le] at hn
    exact hw (winding_zero fun a ha b hb => kappa_over (hn a (mem_close.1 ha)) (hn b (mem_close.1 hb)))

/-! ## Apexes -/

theorem steep (p : Coord) (ring : List Coord) : ∃ k : Rat, ∀ v ∈ ring, v.1 ≠ p.1 → (v.2 - p.2) / (v.1 - p.1) < k := by
  induction ring with
  | nil => exact ⟨0, by simp⟩
  | cons w ring ih =>
    obtain ⟨k, hk⟩ := ih
    refine ⟨max k ((w.2 - p.2) / (w.1 - p.1) + 1), ?_⟩
    intro v hv hne
    rcases List.mem_cons.1 hv with rfl | hv
    · exact lt_of_lt_of_le (by linarith) (le_max_right _ _)
    · exact lt_of_lt_of_le (hk v hv hne) (le_max_left _ _)

theorem clear_exists {p : Coord} {ring : List Coord} (h : p ∉ ring) : ∃ o, Clear o ring p := by
  obtain ⟨k, hk⟩ := steep p ring
  refine ⟨(p.1 + 1, p.2 + k), ?_⟩
  rintro v hv ⟨t, h0, h1, hx, hy⟩
  simp only at hx hy
  have e1 : (1 - t) = - t * (v.1 - p.1) := by linarith
  have e2 : (1 - t) * k + t * (v.2 - p.2) = 0 := by linarith
  have ht : t ≠ 0 := by rintro rfl; norm_num at e1
  have e3 : t * ((v.2 - p.2) - (v.1 - p.1) * k) = 0 := by rw [e1] at e2; linarith
  have e4 : (v.2 - p.2) - (v.1 - p.1) * k = 0 := (mul_eq_zero.1 e3).resolve_left ht
  by_cases hv1 : v.1 = p.1
  · have hv2 : v.2 = p.2 := by rw [hv1] at e4; linarith
    exact h ((Prod.ext hv1 hv2 : v = p) ▸ hv)
  · have := hk v hv hv1
    have hne : v.1 - p.1 ≠ 0 := fun h => hv1 (by linarith)
    have : (v.2 - p.2) / (v.1 - p.1) = k := by
      rw [div_eq_iff hne]; linarith
    linarith

/-! ## Closed walks along the same lines -/

theorem onBorder_congr {ls ls' : List (Coord × Coord)} {p : Coord}
    (h : ls'.Perm ls ∨ (ls'.map Prod.swap).Perm ls) :
    (∃ l ∈ ls', OnLine l.1 l.2 p) ↔ (∃ l ∈ ls, OnLine l.1 l.2 p) := by
  rcases h with h | h
  · simp only [h.mem_iff]
  · simp only [← h.mem_iff, List.mem_map]
    constructor
    · rintro ⟨l, hl, ho⟩
      exact ⟨l.swap, ⟨l, hl, rfl⟩, onLine_swap ho⟩
    · rintro ⟨_, ⟨l, hl, rfl⟩, ho⟩
      exact ⟨l, hl, onLine_swap ho⟩

theorem winding_perm {ls ls' : List (Coord × Coord)} (p : Coord) (h : ls'.Perm ls) : winding p ls' = winding p ls :=
  (h.map _).sum_eq

theorem winding_swap (ls : List (Coord × Coord)) (p : Coord) : winding p (ls.map Prod.swap) = - winding p ls := by
  induction ls with
  | nil => rfl
  | cons l ls ih =>
    unfold winding at ih ⊢
    rw [List.map_cons, List.map_cons, List.sum_cons, ih, List.map_cons, List.sum_cons]
    have := kappa_swap p l.1 l.2
    simp only [Prod.swap]
    omega

theorem contains_congr {b b' : List Coord} (hc : b.head? = b.getLast?) (hc' : b'.head? = b'.getLast?)
    (h : (pairs b').Perm (pairs b) ∨ ((pairs b').map Prod.swap).Perm (pairs b)) (p : Coord) : contains b' p = contains b p := by
  rw [Bool.eq_iff_iff, contains_iff, contains_iff, close_closed hc, close_closed hc']
  unfold OnBorder
  rw [onBorder_congr h]
  refine and_congr Iff.rfl (not_congr ?_)
  rcases h with h | h
  · rw [winding_perm p h]
  · rw [← winding_perm p h, winding_swap]
    omega

theorem pairs_map {α β : Type} (f : α → β) (l : List α) : pairs (l.map f) = (pairs l).map fun e => (f e.1, f e.2) := by
  induction l with
  | nil => rfl
  | cons a l ih =>
    cases l with
    | nil => rfl
    | cons b l =>
      simp only [List.map_cons, pairs] at ih ⊢
      rw [ih]

theorem contains_reverse {b : List Coord} (hc : b.head? = b.getLast?) (p : Coord) : contains b.reverse p = contains b p := by
  refine contains_congr hc (by rw [List.head?_reverse, List.getLast?_reverse, hc]) (.inr ?_) p
  rw [Polygon.pairs_reverse, ← List.map_reverse, List.map_map]
  have : (Prod.swap ∘ Prod.swap : Coord × Coord → Coord × Coord) = id := by funext x; rfl
  rw [this, List.map_id]
  exact List.reverse_perm _

end Verif.Contains
