import Verif.Proofs.PolygonInit
/-! # Closed walks round a simple loop (helper lemmas) -/

namespace Verif.Polygon
open Spec
variable {V : Type} [DecidableEq V]

omit [DecidableEq V] in
theorem pairs_append (p q : List V) (h : V) : pairs (p ++ h :: q) = pairs (p ++ [h]) ++ pairs (h :: q) := by
  induction p with
  | nil => simp [pairs]
  | cons a p ih =>
    cases p with
    | nil => simp [pairs]
    | cons b p => simp only [List.cons_append, pairs] at ih ⊢; rw [ih]

omit [DecidableEq V] in
theorem pairs_reverse (l : List V) : pairs l.reverse = ((pairs l).map Prod.swap).reverse := by
  induction l with
  | nil => rfl
  | cons a l ih =>
    cases l with
    | nil => rfl
    | cons b l =>
      have e : pairs (a :: b :: l) = (a, b) :: pairs (b :: l) := rfl
      rw [e, List.map_cons, List.reverse_cons (as := (pairs (b :: l)).map Prod.swap), ← ih, List.reverse_cons, List.reverse_cons]
      rw [List.append_assoc, List.singleton_append, pairs_append]
      rfl

omit [DecidableEq V] in
theorem pairs_split {l : List V} {a b : V} (h : (a, b) ∈ pairs l) : ∃ x y, l = x ++ a :: b :: y := by
  induction l with
  | nil => simp [pairs] at h
  | cons c l ih =>
    cases l with
    | nil => simp [pairs] at h
    | cons d l =>
      rw [pairs, List.mem_cons] at h
      rcases h with h | h
      · cases h; exact ⟨[], l, rfl⟩
      · obtain ⟨x, y, hxy⟩ := ih h
        exact ⟨c :: x, y, by rw [hxy]; rfl⟩

/-- A closed walk can be begun with any of its lines. -/
theorem rotate {ring : List V} (hc : ring.head? = ring.getLast?) {a b : V} (h : (a, b) ∈ pairs ring) :
    ∃ t, (pairs (a :: b :: t)).Perm (pairs ring) := by
  obtain ⟨x, y, rfl⟩ := pairs_split h
  cases x with
  | nil => exact ⟨y, .refl _⟩
  | cons s x =>
    have hl : (a :: b :: y).getLast? = some s := by
      simp only [List.cons_append, List.head?_cons] at hc
      rw [hc, ← List.cons_append, List.getLast?_append]
      cases h2 : (a :: b :: y).getLast? with
      | none => simp at h2
      | some z => rfl
    have hl' : (b :: y).dropLast ++ [s] = b :: y := by
      have h2 : (b :: y).getLast? = some s := by simpa using hl
      exact dropLast_append_of_getLast? h2
    refine ⟨y ++ (x ++ [a]), ?_⟩
    have e1 : a :: b :: (y ++ (x ++ [a])) = (a :: (b :: y).dropLast) ++ s :: (x ++ [a]) := by
      have : b :: y ++ (x ++ [a]) = (b :: y).dropLast ++ s :: (x ++ [a]) := by
        conv => lhs; rw [← hl']
        simp
      simp only [List.cons_append] at this ⊢
      rw [this]
    rw [e1, pairs_append, pairs_append (s :: x) (b :: y) a]
    have e2 : a :: (b :: y).dropLast ++ [s] = a :: b :: y := by rw [List.cons_append, hl']
    rw [e2]
    exact List.perm_append_comm

theorem degree_pos {l : List (V × V)} {a b v : V} (h : (a, b) ∈ l) (hv : a = v ∨ b = v) : 1 ≤ degree l v := by
  rw [degree_perm (List.perm_cons_erase h), degree_cons]
  rcases hv with hv | hv <;> simp [hv] <;> omega

/-- From a point with at most one line left, in lines of which no point has more than two, there is only one way on. -/
theorem walk_unique : ∀ (l l' : List V) (u : V), (∀ a b, lineCount (pairs (u :: l)) a b = lineCount (pairs (u :: l')) a b) →
    (∀ v, degree (pairs (u :: l)) v ≤ 2) → degree (pairs (u :: l)) u ≤ 1 → l = l'
  | [], l', u, h, _, _ => by
    have := length_eq_of_lineCount h
    rw [length_pairs, length_pairs] at this
    simp at this
    exact (List.eq_nil_of_length_eq_zero this.symm).symm
  | w :: l, [], u, h, _, _ => by
    have := length_eq_of_lineCount h
    rw [length_pairs, length_pairs] at this
    simp at this
  | w :: l, w' :: l', u, h, hd, hu => by
    simp only [pairs] at h hd hu
    have hw : w = w' := by
      by_cases hww : w = w'
      · exact hww
      · exfalso
        have h1 : 0 < lineCount ((u, w) :: pairs (w :: l)) u w' := by
          rw [h, lineCount_cons]; simp
        rw [degree_cons] at hu
        simp only [if_true] at hu
        rcases lineCount_pos.1 h1 with h2 | h2
        · rcases List.mem_cons.1 h2 with h2 | h2
          · cases h2; exact hww rfl
          · have := degree_pos h2 (v := u) (.inl rfl); omega
        · rcases List.mem_cons.1 h2 with h2 | h2
          · cases h2; exact hww rfl
          · have := degree_pos h2 (v := u) (.inr rfl); omega
    subst hw
    have ih := walk_unique l l' w
      (fun a b => by have := h a b; rw [lineCount_cons, lineCount_cons] at this; omega)
      (fun v => by have := hd v; rw [degree_cons] at this; omega)
      (by have := hd w; rw [degree_cons] at this; simp only [if_true] at this; omega)
    rw [ih]

theorem lineCount_perm {l₁ l₂ : List (V × V)} (h : l₁.Perm l₂) (a b : V) : lineCount l₁ a b = lineCount l₂ a b := by
  unfold lineCount
  exact h.countP_eq _

theorem lineCount_swap (l : List (V × V)) (a b : V) : lineCount (l.map Prod.swap) a b = lineCount l a b := by
  induction l with
  | nil => rfl
  | cons e l ih =>
    rw [List.map_cons, lineCount_cons, lineCount_cons, ih]
    obtain ⟨x, y⟩ := e
    have : ((x, y).swap = (a, b) ∨ (x, y).swap = (b, a)) ↔ ((x, y) = (a, b) ∨ (x, y) = (b, a)) := by
      simp only [Prod.swap, Prod.mk.injEq]
      constructor
      · rintro (⟨h, h'⟩ | ⟨h, h'⟩)
        · exact .inr ⟨h', h⟩
        · exact .inl ⟨h', h⟩
      · rintro (⟨h, h'⟩ | ⟨h, h'⟩)
        · exact .inr ⟨h', h⟩
        · exact .inl ⟨h', h⟩
    simp only [this]

theorem forward_unique {ring ring' : List V} (hc' : ring'.head? = ring'.getLast?)
    (h : ∀ a b, lineCount (pairs ring') a b = lineCount (pairs ring) a b) (hd : ∀ v, degree (pairs ring) v ≤ 2)
    {v w : V} {m : List V} (hr : ring = v :: w :: m) (hm : (v, w) ∈ pairs ring') : (pairs ring').Perm (pairs ring) := by
  obtain ⟨t, ht⟩ := rotate hc' hm
  subst hr
  have : m = t := by
    refine walk_unique m t w ?_ ?_ ?_
    · intro a b
      have := h a b
      rw [← lineCount_perm ht a b] at this
      simp only [pairs, lineCount_cons] at this
      omega
    · intro x
      have := hd x
      rw [pairs, degree_cons] at this
      omega
    · have := hd w
      rw [pairs, degree_cons] at this
      simp only [if_true] at this
      omega
  subst this
  exact ht.symm

/-- Two closed walks along the same lines, of which no more than two meet anywhere, are the same but for where they begin and for
their direction. -/
theorem loop_unique {ring ring' : List V} (hc' : ring'.head? = ring'.getLast?)
    (h : ∀ a b, lineCount (pairs ring') a b = lineCount (pairs ring) a b) (hd : ∀ v, degree (pairs ring) v ≤ 2) :
    (pairs ring').Perm (pairs ring) ∨ ((pairs ring').map Prod.swap).Perm (pairs ring) := by
  have hlen := length_eq_of_lineCount h
  by_cases hne : pairs ring = []
  · rw [hne] at hlen ⊢
    rw [List.eq_nil_of_length_eq_zero hlen]
    exact .inl (.refl _)
  · obtain ⟨v, w, m, rfl⟩ : ∃ v w m, ring = v :: w :: m := by
      cases ring with
      | nil => exact absurd rfl hne
      | cons v ring =>
        cases ring with
        | nil => exact absurd rfl hne
        | cons w m => exact ⟨v, w, m, rfl⟩
    have hp : 0 < lineCount (pairs ring') v w := by
      rw [h, pairs, lineCount_cons]; simp
    rcases lineCount_pos.1 hp with h1 | h1
    · exact .inl (forward_unique hc' h hd rfl h1)
    · right
      have hrev : (pairs ring'.reverse).Perm ((pairs ring').map Prod.swap) := by
        rw [pairs_reverse]; exact List.reverse_perm _
      refine hrev.symm.trans (forward_unique ?_ ?_ hd rfl ?_)
      · rw [List.head?_reverse, List.getLast?_reverse, hc']
      · intro a b
        rw [lineCount_perm hrev, lineCount_swap, h]
      · rw [hrev.mem_iff, List.mem_map]
        exact ⟨(w, v), h1, rfl⟩

end Verif.Polygon
