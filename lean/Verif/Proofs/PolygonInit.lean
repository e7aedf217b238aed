import Verif.Proofs.Polygon
/-!
# The adjacency lists built from the lines, and the result of the loop (helper lemmas)
-/

set_option linter.unusedSectionVars false

namespace Verif.Polygon
open Spec
variable {V : Type} [DecidableEq V]

theorem nb_pushTo (m : Map V (List V)) (k v a : V) :
    nb (pushTo m k v) a = if k = a then nb m a ++ [v] else nb m a := by
  unfold pushTo
  rw [nb_insert]
  split
  · next h => subst h; rfl
  · rfl

theorem total_pushTo (m : Map V (List V)) (k v : V) : total (pushTo m k v) = total m + 1 := by
  unfold pushTo
  cases h : m.get? k with
  | none => rw [total_insert_new h]; simp
  | some old =>
    have := total_insert (l := old ++ [v]) h
    simp at this ⊢
    omega

theorem isSome_pushTo (m : Map V (List V)) (k v a : V) :
    ((pushTo m k v).get? a).isSome = ((m.get? a).isSome || (k = a : Bool)) := by
  unfold pushTo
  rw [Map.get?_insert]
  split <;> simp_all

theorem foldl_adj (lines : List (V × V)) (m : Map V (List V)) :
    let m' := lines.foldl (fun m l => pushTo (pushTo m l.1 l.2) l.2 l.1) m
    (∀ a b, (nb m' a).count b = (nb m a).count b + mult a b * lineCount lines a b) ∧
    (∀ a, (nb m' a).length = (nb m a).length + degree lines a) ∧
    total m' = total m + 2 * lines.length ∧
    (∀ a, (m'.get? a).isSome ↔ ((m.get? a).isSome ∨ IsPoint lines a)) := by
  induction lines generalizing m with
  | nil =>
    simp [lineCount, degree, IsPoint]
  | cons l lines ih =>
    obtain ⟨h1, h2, h3, h4⟩ := ih (pushTo (pushTo m l.1 l.2) l.2 l.1)
    simp only [List.foldl_cons]
    refine ⟨?_, ?_, ?_, ?_⟩
    · intro a b
      rw [h1, lineCount_cons, nb_pushTo, nb_pushTo, Nat.mul_add]
      have h3 : mult a b * (if l = (a, b) ∨ l = (b, a) then 1 else 0)
          = (if l.1 = a ∧ l.2 = b then 1 else 0) + (if l.2 = a ∧ l.1 = b then 1 else 0) := by
        unfold mult
        obtain ⟨x, y⟩ := l
        simp only [Prod.mk.injEq]
        by_cases e1 : x = a <;> by_cases e2 : y = b <;>
          by_cases e3 : y = a <;> by_cases e4 : x = b <;> simp_all <;> grind
      rw [h3]
      by_cases e1 : l.1 = a <;> by_cases e2 : l.2 = b <;>
          by_cases e3 : l.2 = a <;> by_cases e4 : l.1 = b <;> simp_all [List.count_append] <;> omega
    · intro a
      rw [h2, nb_pushTo, nb_pushTo]
      unfold degree
      rw [List.countP_cons, List.countP_cons]
      by_cases e1 : l.1 = a <;> by_cases e3 : l.2 = a <;> simp_all <;> omega
    · rw [h3, total_pushTo, total_pushTo, List.length_cons]; omega
    · intro a
      rw [h4, isSome_pushTo, isSome_pushTo]
      simp only [IsPoint, List.mem_cons, Bool.or_eq_true, decide_eq_true_eq]
      constructor
      · rintro (((h | h) | h) | ⟨x, hx, h⟩)
        · exact .inl h
        · exact .inr ⟨l, .inl rfl, .inl h⟩
        · exact .inr ⟨l, .inl rfl, .inr h⟩
        · exact .inr ⟨x, .inr hx, h⟩
      · rintro (h | ⟨x, rfl | hx, h | h⟩)
        · exact .inl (.inl (.inl h))
        · exact .inl (.inl (.inr h))
        · exact .inl (.inr h)
        · exact .inr ⟨x, hx, .inl h⟩
        · exact .inr ⟨x, hx, .inr h⟩

theorem foldl_edgeCount (lines : List (V × V)) (m : Map V Nat) :
    let m' := lines.foldl (fun m l => bump (bump m l.1) l.2) m
    (∀ a, (m'.get? a).getD 0 = (m.get? a).getD 0 + degree lines a) := by
  induction lines generalizing m with
  | nil => simp [degree]
  | cons l lines ih =>
    intro m' a
    have := ih (bump (bump m l.1) l.2) a
    simp only [m', List.foldl_cons]
    rw [this]
    unfold bump degree
    rw [Map.get?_insert, List.countP_cons, List.countP_cons]
    by_cases e1 : l.1 = a <;> by_cases e3 : l.2 = a <;> simp_all [Map.get?_insert] <;> omega

theorem nodup_edgeCount (lines : List (V × V)) (m : Map V Nat) (h : (Map.keys m).Nodup) :
    (Map.keys (lines.foldl (fun m l => bump (bump m l.1) l.2) m)).Nodup := by
  induction lines generalizing m with
  | nil => exact h
  | cons l lines ih =>
    exact ih _ (Map.nodup_insert (Map.nodup_insert h _ _) _ _)

theorem edgeCount_even_iff (lines : List (V × V)) :
    ((edgeCount lines).map (·.2)).all (fun c => c % 2 == 0) = true ↔ EvenDegrees lines := by
  have h1 := foldl_edgeCount lines []
  have h2 := nodup_edgeCount lines [] (by simp [Map.keys])
  rw [List.all_eq_true]
  constructor
  · intro h v
    have := h1 v
    simp at this
    cases hg : (edgeCount lines).get? v with
    | none =>
      unfold edgeCount at hg
      rw [hg] at this
      simp at this; omega
    | some n =>
      have hm := h n (List.mem_map.2 ⟨(v, n), Map.mem_of_get? hg, rfl⟩)
      unfold edgeCount at hg
      rw [hg] at this
      simp at this hm; omega
  · intro h n hn
    obtain ⟨⟨v, n'⟩, hm, rfl⟩ := List.mem_map.1 hn
    have hg := Map.get?_of_mem h2 hm
    have := h1 v
    rw [hg] at this
    simp at this
    have := h v
    simp; omega

theorem inv_init {lines : List (V × V)} {start : V} (hp : IsPoint lines start)
    (he : EvenDegrees lines) :
    Inv lines start ⟨adjacency lines, [start], [], start⟩ start := by
  obtain ⟨h1, h2, h3, h4⟩ := foldl_adj lines []
  refine ⟨by simp, by simp, by simp, ?_, hp, ?_, ?_, ?_, ?_, ?_⟩
  · intro v hv; exact (h4 v).2 (.inr hv)
  · intro v hv; simp at hv; exact hv ▸ hp
  · intro a b
    have := h1 a b
    simp [pairs, lineCount] at this ⊢
    unfold adjacency
    rw [this]; simp [nb]
  · intro v
    have := h2 v
    have := he v
    simp only [adjacency]
    simp [nb] at *
    omega
  · simp [pairs, adjacency] at h3 ⊢
    rw [h3]; simp [total]
  · simp

/-! ### Consequences -/

theorem mem_pairs {l : List V} {a b : V} (h : (a, b) ∈ pairs l) : a ∈ l ∧ b ∈ l := by
  induction l with
  | nil => simp [pairs] at h
  | cons x l ih =>
    cases l with
    | nil => simp [pairs] at h
    | cons y l =>
      simp only [pairs, List.mem_cons] at h
      rcases h with h | h
      · cases h; simp
      · have := ih h
        exact ⟨List.mem_cons_of_mem _ this.1, List.mem_cons_of_mem _ this.2⟩

theorem reach_trans {lines : List (V × V)} {a b c : V} (h1 : Reach lines a b)
    (h2 : Reach lines b c) : Reach lines a c := by
  induction h2 with
  | refl => exact h1
  | step _ e ih => exact .step ih e

theorem reach_symm {lines : List (V × V)} {a b : V} (h : Reach lines a b) : Reach lines b a := by
  induction h with
  | refl => exact .refl _
  | step _ e ih => exact reach_trans (.step (.refl _) e.symm) ih

/-- all points of a walk along lines are reachable from its first -/
theorem reach_of_walk {lines : List (V × V)} {x : V} {l : List V}
    (h : ∀ a b, (a, b) ∈ pairs (x :: l) → (a, b) ∈ lines ∨ (b, a) ∈ lines) :
    ∀ v ∈ x :: l, Reach lines x v := by
  induction l generalizing x with
  | nil => intro v hv; simp at hv; exact hv ▸ .refl _
  | cons y l ih =>
    intro v hv
    rcases List.mem_cons.1 hv with rfl | hv
    · exact .refl _
    · have h1 := ih (x := y) (fun a b hab => h a b (by simp [pairs, hab])) v hv
      exact reach_trans (.step (.refl _) (h x y (by simp [pairs]))) h1

theorem mult_pos (a b : V) : 0 < mult a b := by unfold mult; split <;> omega

theorem mem_points_iff {lines : List (V × V)} {v : V} : v ∈ points lines ↔ IsPoint lines v := by
  simp only [points, IsPoint, List.mem_flatMap, List.mem_cons, List.not_mem_nil, or_false]
  constructor
  · rintro ⟨l, hl, h | h⟩
    · exact ⟨l, hl, .inl h.symm⟩
    · exact ⟨l, hl, .inr h.symm⟩
  · rintro ⟨l, hl, h | h⟩
    · exact ⟨l, hl, .inl h.symm⟩
    · exact ⟨l, hl, .inr h.symm⟩

theorem isCircuit_of_final {lines : List (V × V)} {start : V} {ring : List V}
    {adj : Map V (List V)} (h : Final lines start ring adj)
    (hl : ring.length = lines.length + 1) : IsCircuit lines ring := by
  refine ⟨?_, h.first.trans h.last.symm, ?_⟩
  · intro he; subst he; simp at hl
  · intro a b
    have h1 := h.tot
    have h2 : total adj = 0 := by omega
    have h3 := length_nb_le_total adj a
    have h4 : nb adj a = [] := List.eq_nil_of_length_eq_zero (by omega)
    have h5 := h.cons a b
    rw [h4, List.count_nil, Nat.zero_add] at h5
    exact Nat.eq_of_mul_eq_mul_left (mult_pos a b) h5

theorem lineCount_erase {l : List (V × V)} {e : V × V} (h : e ∈ l) (a b : V) :
    lineCount l a b = lineCount (l.erase e) a b + if e = (a, b) ∨ e = (b, a) then 1 else 0 := by
  have := (List.perm_cons_erase h).countP_eq (fun e => decide (e = (a, b) ∨ e = (b, a)))
  unfold lineCount
  rw [this, List.countP_cons]
  simp

theorem length_eq_of_lineCount {l₁ l₂ : List (V × V)}
    (h : ∀ a b, lineCount l₁ a b = lineCount l₂ a b) : l₁.length = l₂.length := by
  induction l₁ generalizing l₂ with
  | nil =>
    cases l₂ with
    | nil => rfl
    | cons e l =>
      have := h e.1 e.2
      rw [lineCount_cons] at this
      simp [lineCount] at this
  | cons e l₁ ih =>
    have h1 : 0 < lineCount l₂ e.1 e.2 := by
      rw [← h, lineCount_cons]; simp
    obtain ⟨e', he', hee⟩ : ∃ e' ∈ l₂, ∀ a b : V, (e' = (a, b) ∨ e' = (b, a)) ↔ (e = (a, b) ∨ e = (b, a)) := by
      obtain ⟨x, y⟩ := e
      rcases lineCount_pos.1 h1 with h2 | h2
      · exact ⟨_, h2, fun a b => Iff.rfl⟩
      · refine ⟨_, h2, fun a b => ?_⟩
        simp only [Prod.mk.injEq]
        constructor <;> rintro (⟨h, h'⟩ | ⟨h, h'⟩) <;> simp [h, h']
    have h2 := ih (l₂ := l₂.erase e') (by
      intro a b
      have h3 := h a b
      rw [lineCount_cons, lineCount_erase he'] at h3
      simp only [hee a b] at h3
      omega)
    rw [List.length_cons, h2, List.length_erase_of_mem he']
    have := List.length_pos_of_mem he'
    omega

theorem length_of_connected {lines : List (V × V)} {start : V} {ring : List V}
    {adj : Map V (List V)} (h : Final lines start ring adj) (hp : IsPoint lines start)
    (hc : Connected lines) : ring.length = lines.length + 1 := by
  have hstart : start ∈ ring := List.mem_of_head? h.first
  have heq : ∀ b c, b ∈ ring → lineCount (pairs ring) b c = lineCount lines b c := by
    intro b c hb
    have h1 := h.cons b c
    rw [h.done b hb, List.count_nil, Nat.zero_add] at h1
    exact Nat.eq_of_mul_eq_mul_left (mult_pos b c) h1
  have hreach : ∀ v, Reach lines start v → v ∈ ring := by
    intro v hv
    induction hv with
    | refl => exact hstart
    | step hab e ih =>
      rename_i b c
      have h2 : 0 < lineCount lines b c := lineCount_pos.2 e
      have h4 : 0 < lineCount (pairs ring) b c := by rw [heq b c ih]; exact h2
      rcases lineCount_pos.1 h4 with h5 | h5
      · exact (mem_pairs h5).2
      · exact (mem_pairs h5).1
  have hall : ∀ a b, lineCount (pairs ring) a b = lineCount lines a b := by
    intro a b
    by_cases ha : 0 < lineCount lines b a
    · exact heq a b (hreach a (hc start a hp (isPoint_of_lineCount ha)))
    · rw [lineCount_comm] at ha
      have h1 := h.cons a b
      have h0 : lineCount lines a b = 0 := by omega
      rw [h0] at h1 ⊢
      have : mult a b * lineCount (pairs ring) a b = 0 := by omega
      rcases Nat.mul_eq_zero.1 this with h | h
      · have := mult_pos a b; omega
      · exact h
  have h2 := length_eq_of_lineCount hall
  rw [length_pairs] at h2
  have := List.length_pos_of_mem hstart
  omega

theorem connected_of_circuit {lines : List (V × V)} {ring : List V} (h : IsCircuit lines ring) :
    Connected lines := by
  cases ring with
  | nil => exact absurd rfl h.nonempty
  | cons x l =>
    have hw : ∀ a b, (a, b) ∈ pairs (x :: l) → (a, b) ∈ lines ∨ (b, a) ∈ lines := by
      intro a b hab
      have := h.covers a b
      exact lineCount_pos.1 (this ▸ lineCount_pos.2 (.inl hab))
    have hr := reach_of_walk hw
    have hin : ∀ a, IsPoint lines a → a ∈ x :: l := by
      rintro a ⟨⟨p, q⟩, hm, he⟩
      have h1 : 0 < lineCount lines p q := lineCount_pos.2 (.inl hm)
      rw [← h.covers] at h1
      have h2 : p ∈ x :: l ∧ q ∈ x :: l := by
        rcases lineCount_pos.1 h1 with h2 | h2
        · exact mem_pairs h2
        · exact (mem_pairs h2).symm
      rcases he with rfl | rfl
      · exact h2.1
      · exact h2.2
    intro a b ha hb
    exact reach_trans (reach_symm (hr a (hin a ha))) (hr b (hin b hb))

theorem degree_cons (e : V × V) (l : List (V × V)) (v : V) :
    degree (e :: l) v = degree l v + ((if e.1 = v then 1 else 0) + (if e.2 = v then 1 else 0)) := by
  unfold degree
  rw [List.countP_cons, List.countP_cons]
  simp
  omega

theorem degree_perm {l₁ l₂ : List (V × V)} (h : l₁.Perm l₂) (v : V) : degree l₁ v = degree l₂ v := by
  unfold degree
  rw [h.countP_eq, h.countP_eq]

theorem degree_eq_of_lineCount {l₁ l₂ : List (V × V)}
    (h : ∀ a b, lineCount l₁ a b = lineCount l₂ a b) (v : V) : degree l₁ v = degree l₂ v := by
  induction l₁ generalizing l₂ with
  | nil =>
    have : l₂ = [] := List.eq_nil_of_length_eq_zero (length_eq_of_lineCount h).symm
    rw [this]
  | cons e l₁ ih =>
    have h1 : 0 < lineCount l₂ e.1 e.2 := by
      rw [← h, lineCount_cons]; simp
    obtain ⟨e', he', hee, hd⟩ : ∃ e' ∈ l₂,
        (∀ a b : V, (e' = (a, b) ∨ e' = (b, a)) ↔ (e = (a, b) ∨ e = (b, a))) ∧
        (e' = e ∨ e' = (e.2, e.1)) := by
      obtain ⟨x, y⟩ := e
      rcases lineCount_pos.1 h1 with h2 | h2
      · exact ⟨_, h2, fun a b => Iff.rfl, .inl rfl⟩
      · refine ⟨_, h2, fun a b => ?_, .inr rfl⟩
        simp only [Prod.mk.injEq]
        constructor <;> rintro (⟨h, h'⟩ | ⟨h, h'⟩) <;> simp [h, h']
    have h2 := ih (l₂ := l₂.erase e') (by
      intro a b
      have h3 := h a b
      rw [lineCount_cons, lineCount_erase he'] at h3
      simp only [hee a b] at h3
      omega)
    rw [degree_cons, h2, degree_perm (List.perm_cons_erase he'), degree_cons]
    rcases hd with rfl | rfl
    · rfl
    · simp only; omega

theorem connected_of_lineCount {l₁ l₂ : List (V × V)}
    (h : ∀ a b, lineCount l₁ a b = lineCount l₂ a b) (hc : Connected l₁) : Connected l₂ := by
  have hm : ∀ a b, ((a, b) ∈ l₁ ∨ (b, a) ∈ l₁) ↔ ((a, b) ∈ l₂ ∨ (b, a) ∈ l₂) := by
    intro a b; rw [← lineCount_pos, ← lineCount_pos, h]
  have hr : ∀ a b, Reach l₁ a b → Reach l₂ a b := by
    intro a b hab
    induction hab with
    | refl => exact .refl _
    | step _ e ih => exact .step ih ((hm _ _).1 e)
  have hp : ∀ a, IsPoint l₂ a → IsPoint l₁ a := by
    rintro a ⟨⟨x, y⟩, hl, he⟩
    rcases (hm x y).2 (.inl hl) with h1 | h1
    · exact ⟨_, h1, he⟩
    · exact ⟨_, h1, he.symm⟩
  intro a b ha hb
  exact hr a b (hc a b (hp a ha) (hp b hb))

/-- The outcome for a chosen start point. -/
theorem polygonFromLines_spec (lines : List (V × V)) (start : V) (hp : IsPoint lines start) :
    (EvenDegrees lines ∧ Connected lines ∧
      ∃ ring, polygonFromLines lines (some start) = .ok (some ring) ∧ IsCircuit lines ring) ∨
    (¬ (EvenDegrees lines ∧ Connected lines) ∧ polygonFromLines lines (some start) = .ok none) := by
  by_cases he : EvenDegrees lines
  · have hb := (edgeCount_even_iff lines).2 he
    have ht : total (adjacency lines) = 2 * lines.length := by
      have := (foldl_adj lines []).2.2.1
      simpa [adjacency, total] using this
    obtain ⟨ring, adj, hl, hf⟩ := loop_spec (2 * lines.length + 2) _ _ (inv_init hp he)
      (by simp only [ht, List.length_cons, List.length_nil]; omega)
    have e : polygonFromLines lines (some start)
        = if ring.length = lines.length + 1 then .ok (some ring) else .ok none := by
      unfold polygonFromLines
      rw [hb]
      simp only [Bool.not_true, Bool.false_eq_true, if_false]
      rw [hl]
      rfl
    by_cases hlen : ring.length = lines.length + 1
    · have hci := isCircuit_of_final hf hlen
      exact .inl ⟨he, connected_of_circuit hci, ring, by rw [e, if_pos hlen], hci⟩
    · refine .inr ⟨?_, by rw [e, if_neg hlen]⟩
      rintro ⟨_, hc⟩
      exact hlen (length_of_connected hf hp hc)
  · refine .inr ⟨fun h => he h.1, ?_⟩
    have : ((edgeCount lines).map (·.2)).all (fun c => c % 2 == 0) = false := by
      rw [← Bool.not_eq_true, edgeCount_even_iff]; exact he
    unfold polygonFromLines
    rw [this]; simp

theorem points_eq_nil_iff {lines : List (V × V)} : points lines = [] ↔ lines = [] := by
  cases lines <;> simp [points]

end Verif.Polygon
