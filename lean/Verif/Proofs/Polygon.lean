import Verif.Spec.Polygon
/-!
# Hierholzer's algorithm (helper lemmas)
-/

set_option linter.unusedSectionVars false

namespace Verif.Polygon
open Spec
variable {V : Type} [DecidableEq V]

/-! ### Lists -/

theorem pairs_snoc (l : List V) (x y : V) : pairs (l ++ [x] ++ [y]) = pairs (l ++ [x]) ++ [(x, y)] := by
  induction l with
  | nil => simp [pairs]
  | cons a l ih =>
    cases l with
    | nil => simp [pairs]
    | cons b l =>
      simp only [List.cons_append, pairs] at ih ⊢
      rw [ih]

theorem length_pairs (l : List V) : (pairs l).length = l.length - 1 := by
  induction l with
  | nil => rfl
  | cons a l ih =>
    cases l with
    | nil => rfl
    | cons b l => simp only [pairs, List.length_cons] at ih ⊢; omega

theorem dropLast_append_of_getLast? {l : List V} {x : V} (h : l.getLast? = some x) :
    l.dropLast ++ [x] = l := by
  rcases List.eq_nil_or_concat l with rfl | ⟨l₃, y, rfl⟩
  · simp at h
  · simp at h; subst h; simp

theorem swapRemove_split (l₁ l₂ : List V) (x : V) :
    (l₁ ++ x :: l₂).Perm (x :: swapRemove (l₁ ++ x :: l₂) l₁.length) := by
  rcases List.eq_nil_or_concat l₂ with rfl | ⟨l₃, y, rfl⟩
  · have : swapRemove (l₁ ++ [x]) l₁.length = l₁ := by
      simp [swapRemove]
    rw [this]
    exact List.perm_append_comm
  · have : swapRemove (l₁ ++ x :: l₃.concat y) l₁.length = l₁ ++ y :: l₃ := by
      have e : l₁ ++ x :: l₃.concat y = (l₁ ++ x :: l₃) ++ [y] := by simp
      unfold swapRemove
      rw [e]
      simp only [List.getLast?_append, List.getLast?_singleton, Option.some_or]
      rw [List.append_assoc, List.set_append_right _ _ (Nat.le_refl _)]
      simp
      rw [← List.cons_append, List.dropLast_concat]
    rw [this]
    simp only [List.concat_eq_append]
    refine List.perm_middle.trans (List.Perm.cons _ ?_)
    refine List.Perm.append_left _ ?_
    exact List.perm_append_comm

theorem perm_swapRemove_find {l : List V} {pos : Nat} {x : V}
    (h : l.findIdx? (· = x) = some pos) : l.Perm (x :: swapRemove l pos) := by
  rw [List.findIdx?_eq_some_iff_getElem] at h
  obtain ⟨hlt, hx, _⟩ := h
  have hx : l[pos] = x := by simpa using hx
  have hsplit : l = l.take pos ++ x :: l.drop (pos + 1) := by
    rw [← hx, ← List.drop_eq_getElem_cons hlt, List.take_append_drop]
  have hlen : (l.take pos).length = pos := by
    rw [List.length_take]; omega
  have := swapRemove_split (l.take pos) (l.drop (pos + 1)) x
  rw [← hsplit, hlen] at this
  exact this

/-! ### The adjacency map -/

/-- neighbours still to be visited -/
def nb (m : Map V (List V)) (v : V) : List V := (m.get? v).getD []

/-- number of entries of the adjacency map -/
def total (m : Map V (List V)) : Nat := (m.map (fun e => e.2.length)).sum

theorem nb_insert (m : Map V (List V)) (k v : V) (l : List V) :
    nb (m.insert k l) v = if k = v then l else nb m v := by
  unfold nb
  rw [Map.get?_insert]
  split <;> rename_i h <;> simp_all

theorem total_insert {m : Map V (List V)} {k : V} {old l : List V} (h : m.get? k = some old) :
    total (m.insert k l) + old.length = total m + l.length := by
  induction m with
  | nil => simp [Map.get?] at h
  | cons e m ih =>
    obtain ⟨k', v'⟩ := e
    by_cases hk : k' = k
    · subst hk
      simp [Map.get?, Map.insert] at h ⊢
      subst h
      simp [total]; omega
    · simp [Map.get?, hk] at h
      have := ih h
      simp [Map.insert, hk, total] at this ⊢
      omega

theorem total_insert_new {m : Map V (List V)} {k : V} {l : List V} (h : m.get? k = none) :
    total (m.insert k l) = total m + l.length := by
  induction m with
  | nil => simp [Map.insert, total]
  | cons e m ih =>
    obtain ⟨k', v'⟩ := e
    by_cases hk : k' = k
    · subst hk
      simp [Map.get?] at h
    · simp [Map.get?, hk] at h
      have := ih h
      simp [Map.insert, hk, total] at this ⊢
      omega

theorem length_nb_le_total (m : Map V (List V)) (v : V) : (nb m v).length ≤ total m := by
  unfold nb
  induction m with
  | nil => simp [Map.get?]
  | cons e m ih =>
    obtain ⟨k', v'⟩ := e
    by_cases hk : k' = v
    · subst hk
      simp [Map.get?, total]
    · simp [Map.get?, hk, total] at ih ⊢
      omega

theorem isSome_insert {m : Map V (List V)} {k v : V} {l : List V} (h : (m.get? v).isSome) :
    ((m.insert k l).get? v).isSome := by
  rw [Map.get?_insert]; split <;> simp_all


/-- Removing one entry `x` of `k`. -/
theorem remove_one {m : Map V (List V)} {k x : V} {old l : List V}
    (h : m.get? k = some old) (hp : old.Perm (x :: l)) :
    (∀ a b, (nb (m.insert k l) a).count b + (if a = k ∧ b = x then 1 else 0) = (nb m a).count b) ∧
    (∀ a, (nb (m.insert k l) a).length + (if a = k then 1 else 0) = (nb m a).length) ∧
    total (m.insert k l) + 1 = total m ∧
    (∀ a, (m.get? a).isSome → ((m.insert k l).get? a).isSome) := by
  refine ⟨?_, ?_, ?_, ?_⟩
  · intro a b
    rw [nb_insert]
    by_cases hk : k = a
    · subst hk
      have : nb m k = old := by simp [nb, h]
      rw [this, hp.count_eq, List.count_cons]
      by_cases hb : b = x
      · subst hb; simp
      · have : ¬ x = b := fun h => hb h.symm
        simp [hb, this]
    · have : ¬ a = k := fun h => hk h.symm
      simp [hk, this]
  · intro a
    rw [nb_insert]
    by_cases hk : k = a
    · subst hk
      have : nb m k = old := by simp [nb, h]
      rw [this, hp.length_eq]
      simp
    · have : ¬ a = k := fun h => hk h.symm
      simp [hk, this]
  · have h1 := total_insert (l := l) h
    have h2 := hp.length_eq
    simp at h2
    omega
  · intro a ha; exact isSome_insert ha

theorem push_adj {adj : Map V (List V)} {cur next : V} {nbs : List V}
    (h : adj.get? cur = some nbs) (hl : nbs.getLast? = some next)
    (hn : cur ∈ nb (adj.insert cur nbs.dropLast) next) :
    let adj' := removeReverse (adj.insert cur nbs.dropLast) next cur
    (∀ a b, (nb adj' a).count b + (if a = cur ∧ b = next then 1 else 0)
        + (if a = next ∧ b = cur then 1 else 0) = (nb adj a).count b) ∧
    (∀ a, (nb adj' a).length + (if a = cur then 1 else 0) + (if a = next then 1 else 0)
        = (nb adj a).length) ∧
    total adj' + 2 = total adj ∧
    (∀ a, (adj.get? a).isSome → (adj'.get? a).isSome) := by
  have hp : nbs.Perm (next :: nbs.dropLast) := by
    have := dropLast_append_of_getLast? hl
    rw (config := {occs := .pos [1]}) [← this]
    exact List.perm_append_comm
  obtain ⟨a1, a2, a3, a4⟩ := remove_one h hp
  cases hg : (adj.insert cur nbs.dropLast).get? next with
  | none => simp [nb, hg] at hn
  | some rev =>
    have hrev : cur ∈ rev := by simpa [nb, hg] using hn
    cases hf : rev.findIdx? (· = cur) with
    | none =>
      rw [List.findIdx?_eq_none_iff] at hf
      have := hf cur hrev
      simp at this
    | some pos =>
      obtain ⟨b1, b2, b3, b4⟩ := remove_one hg (perm_swapRemove_find hf)
      have e : removeReverse (adj.insert cur nbs.dropLast) next cur
          = (adj.insert cur nbs.dropLast).insert next (swapRemove rev pos) := by
        simp only [removeReverse, hg, hf]
      intro adj'
      have e' : adj' = (adj.insert cur nbs.dropLast).insert next (swapRemove rev pos) := e
      rw [e']
      refine ⟨?_, ?_, ?_, ?_⟩
      · intro a b
        have := a1 a b
        have := b1 a b
        omega
      · intro a
        have := a2 a
        have := b2 a
        omega
      · omega
      · intro a ha; exact b4 a (a4 a ha)

/-! ### Line counts -/

theorem lineCount_cons (e : V × V) (l : List (V × V)) (a b : V) :
    lineCount (e :: l) a b = lineCount l a b + if e = (a, b) ∨ e = (b, a) then 1 else 0 := by
  unfold lineCount
  rw [List.countP_cons]
  simp

theorem lineCount_append (l₁ l₂ : List (V × V)) (a b : V) :
    lineCount (l₁ ++ l₂) a b = lineCount l₁ a b + lineCount l₂ a b := by
  unfold lineCount
  rw [List.countP_append]

theorem lineCount_comm (l : List (V × V)) (a b : V) : lineCount l a b = lineCount l b a := by
  unfold lineCount
  congr 1
  funext e
  simp only [decide_eq_decide]
  exact or_comm

theorem lineCount_pos {l : List (V × V)} {a b : V} :
    0 < lineCount l a b ↔ ((a, b) ∈ l ∨ (b, a) ∈ l) := by
  unfold lineCount
  rw [List.countP_pos_iff]
  constructor
  · rintro ⟨e, he, h⟩
    simp at h
    rcases h with rfl | rfl
    · exact .inl he
    · exact .inr he
  · rintro (h | h)
    · exact ⟨_, h, by simp⟩
    · exact ⟨_, h, by simp⟩

theorem isPoint_of_lineCount {l : List (V × V)} {a b : V} (h : 0 < lineCount l a b) :
    IsPoint l b := by
  rcases lineCount_pos.1 h with h | h
  · exact ⟨_, h, .inr rfl⟩
  · exact ⟨_, h, .inl rfl⟩

/-! ### The loop invariant -/

/-- a loop fills two entries of its point's list, any other line one entry of each of its points' -/
def mult (a b : V) : Nat := if a = b then 2 else 1

/-- The invariant; `c` is the point the next ring entry must have. -/
structure Inv (lines : List (V × V)) (start : V) (s : State V) (c : V) : Prop where
  nonempty : s.stack ≠ []
  bottom : (s.current :: s.stack.dropLast).getLast? = some start
  first : (s.ring ++ [c]).head? = some start
  keys : ∀ v, IsPoint lines v → (s.adj.get? v).isSome
  cur : IsPoint lines s.current
  stackPts : ∀ v ∈ s.stack, IsPoint lines v
  cons : ∀ a b, (nb s.adj a).count b
      + mult a b * (lineCount (pairs (s.ring ++ [c])) a b
        + lineCount (pairs (s.current :: s.stack.dropLast)) a b)
      = mult a b * lineCount lines a b
  parity : ∀ v, (nb s.adj v).length % 2
      = ((if v = c then 1 else 0) + (if v = s.current then 1 else 0)) % 2
  tot : total s.adj + 2 * ((pairs (s.ring ++ [c])).length
      + (pairs (s.current :: s.stack.dropLast)).length) = 2 * lines.length
  done : ∀ v ∈ s.ring, nb s.adj v = []

/-- What holds of the ring when the loop ends. -/
structure Final (lines : List (V × V)) (start : V) (ring : List V) (adj : Map V (List V)) : Prop where
  first : ring.head? = some start
  last : ring.getLast? = some start
  cons : ∀ a b, (nb adj a).count b + mult a b * lineCount (pairs ring) a b
      = mult a b * lineCount lines a b
  tot : total adj + 2 * (ring.length - 1) = 2 * lines.length
  done : ∀ v ∈ ring, nb adj v = []

theorem mem_reverse {lines : List (V × V)} {start : V} {s : State V} {c : V}
    (h : Inv lines start s c) {nbs : List V} {next : V}
    (hg : s.adj.get? s.current = some nbs) (hl : nbs.getLast? = some next) :
    s.current ∈ nb (s.adj.insert s.current nbs.dropLast) next := by
  have hnb : nb s.adj s.current = nbs := by simp [nb, hg]
  have happ := dropLast_append_of_getLast? hl
  have hmem : next ∈ nbs := List.mem_of_getLast? hl
  have hc : 0 < nbs.count next := List.count_pos_iff.2 hmem
  rw [nb_insert]
  by_cases he : s.current = next
  · simp only [he, if_true]
    have h1 := h.cons s.current s.current
    rw [hnb] at h1
    simp only [mult, if_true] at h1
    rw [he] at h1
    have h2 : nbs.count next = nbs.dropLast.count next + 1 := by
      rw (config := {occs := .pos [1]}) [← happ]
      simp
    exact List.count_pos_iff.1 (by omega)
  · simp only [he, if_false]
    have h1 := h.cons s.current next
    have h2 := h.cons next s.current
    have he' : ¬ next = s.current := fun h => he h.symm
    rw [hnb] at h1
    simp only [mult, he, he', if_false] at h1 h2
    rw [lineCount_comm _ next, lineCount_comm _ next, lineCount_comm lines next] at h2
    exact List.count_pos_iff.1 (by omega)

theorem inv_push {lines : List (V × V)} {start : V} {s : State V} {c : V}
    (h : Inv lines start s c) {nbs : List V} {next : V}
    (hg : s.adj.get? s.current = some nbs) (hl : nbs.getLast? = some next) :
    Inv lines start
      { s with
        stack := s.current :: s.stack
        adj := removeReverse (s.adj.insert s.current nbs.dropLast) next s.current
        current := next } c ∧
    total (removeReverse (s.adj.insert s.current nbs.dropLast) next s.current) + 2
      = total s.adj := by
  obtain ⟨p1, p2, p3, p4⟩ := push_adj hg hl (mem_reverse h hg hl)
  generalize removeReverse (s.adj.insert s.current nbs.dropLast) next s.current = adj' at *
  have hnb : nb s.adj s.current = nbs := by simp [nb, hg]
  have hmem : next ∈ nbs := List.mem_of_getLast? hl
  have hdl : (s.current :: s.stack).dropLast = s.current :: s.stack.dropLast := by
    cases hs : s.stack with
    | nil => exact absurd hs h.nonempty
    | cons a l => rfl
  refine ⟨⟨?_, ?_, h.first, ?_, ?_, ?_, ?_, ?_, ?_, ?_⟩, p3⟩
  · simp
  · simp only [hdl]
    rw [List.getLast?_cons_cons]; exact h.bottom
  · intro v hv; exact p4 v (h.keys v hv)
  · have h1 := h.cons s.current next
    rw [hnb] at h1
    have hc : 0 < nbs.count next := List.count_pos_iff.2 hmem
    have : 0 < mult s.current next * lineCount lines s.current next := by omega
    exact isPoint_of_lineCount (Nat.pos_of_mul_pos_left this)
  · intro v hv
    rcases List.mem_cons.1 hv with rfl | hv
    · exact h.cur
    · exact h.stackPts v hv
  · intro a b
    simp only [hdl, pairs]
    rw [lineCount_cons]
    have h1 := h.cons a b
    have h2 := p1 a b
    have h3 : mult a b * (if (next, s.current) = (a, b) ∨ (next, s.current) = (b, a) then 1 else 0)
        = (if a = s.current ∧ b = next then 1 else 0) + (if a = next ∧ b = s.current then 1 else 0) := by
      unfold mult
      simp only [Prod.mk.injEq]
      by_cases e1 : a = s.current <;> by_cases e2 : b = next <;>
        by_cases e3 : a = next <;> by_cases e4 : b = s.current <;> simp_all <;> grind
    rw [← Nat.add_assoc, Nat.mul_add, h3]
    omega
  · intro v
    have h1 := h.parity v
    have h2 := p2 v
    simp only
    omega
  · simp only [hdl, pairs, List.length_cons]
    have := h.tot
    omega
  · intro v hv
    have h1 := h.done v hv
    have h2 := p2 v
    rw [h1] at h2
    simp at h2
    exact h2.1.1

theorem inv_pop {lines : List (V × V)} {start : V} {s : State V} {c : V}
    (h : Inv lines start s c) {top top' : V} {rest : List V} (hs : s.stack = top :: top' :: rest)
    (he : nb s.adj s.current = []) :
    Inv lines start
      { s with ring := s.ring ++ [s.current], current := top, stack := top' :: rest } top := by
  have hc : s.current = c := by
    have := h.parity s.current
    rw [he] at this
    by_cases e : s.current = c
    · exact e
    · simp [e] at this
  have hb := h.bottom
  have hco := h.cons
  have ht := h.tot
  have hsp := h.stackPts
  have hd : (top :: top' :: rest).dropLast = top :: (top' :: rest).dropLast := rfl
  rw [hs] at hb hsp
  rw [hd] at hb
  simp only [hs, hd] at hco ht
  refine ⟨by simp, ?_, ?_, h.keys, ?_, ?_, ?_, ?_, ?_, ?_⟩
  · simp only
    rw [List.getLast?_cons_cons] at hb; exact hb
  · have := h.first
    rw [← hc] at this
    simp only [List.head?_append] at this ⊢
    cases hr : s.ring.head? <;> simp_all
  · exact hsp top (by simp)
  · intro v hv; exact hsp v (List.mem_cons_of_mem _ hv)
  · intro a b
    have h1 := hco a b
    simp only
    rw [← hc] at h1
    rw [pairs_snoc, lineCount_append]
    simp only [pairs, lineCount_cons] at h1 ⊢
    have : lineCount ([] : List (V × V)) a b = 0 := rfl
    rw [this]
    rw [← h1]
    congr 2
    omega
  · intro v
    have := h.parity v
    simp only
    rw [← hc] at this
    omega
  · simp only
    rw [pairs_snoc, hc]
    simp only [pairs, List.length_cons, List.length_append, List.length_nil] at ht ⊢
    omega
  · intro v hv
    rcases List.mem_append.1 hv with hv | hv
    · exact h.done v hv
    · simp at hv; subst hv; exact he

theorem loop_spec {lines : List (V × V)} {start : V} (fuel : Nat) (s : State V) (c : V)
    (h : Inv lines start s c) (hf : total s.adj + s.stack.length < fuel) :
    ∃ ring adj, loop fuel s = .ok ring ∧ Final lines start ring adj := by
  induction fuel generalizing s c with
  | zero => omega
  | succ fuel ih =>
    cases hs : s.stack with
    | nil => exact absurd hs h.nonempty
    | cons top rest =>
      have hk := h.keys _ h.cur
      cases hg : s.adj.get? s.current with
      | none => simp [hg] at hk
      | some nbs =>
        cases hl : nbs.getLast? with
        | some next =>
          obtain ⟨hi, ht⟩ := inv_push h hg hl
          simp only [loop, hs, hg, hl]
          rw [hs] at hi hf
          refine ih _ c hi ?_
          simp only [List.length_cons] at hf ⊢
          omega
        | none =>
          have he : nb s.adj s.current = [] := by
            simp [nb, hg]; simpa using hl
          simp only [loop, hs, hg, hl]
          cases rest with
          | cons top' rest =>
            refine ih _ top (inv_pop h hs he) ?_
            rw [hs] at hf
            simp only [List.length_cons] at hf ⊢
            omega
          | nil =>
            have hc : s.current = c := by
              have := h.parity s.current
              rw [he] at this
              by_cases e : s.current = c
              · exact e
              · simp [e] at this
            have hfu : ∃ f, fuel = f + 1 := ⟨fuel - 1, by rw [hs] at hf; simp at hf; omega⟩
            obtain ⟨f, rfl⟩ := hfu
            refine ⟨s.ring ++ [s.current], s.adj, by simp [loop], ?_, ?_, ?_, ?_, ?_⟩
            · rw [hc]; exact h.first
            · have := h.bottom
              rw [hs] at this
              simp at this
              simp [this]
            · intro a b
              have := h.cons a b
              rw [hs, ← hc] at this
              simpa [pairs, lineCount] using this
            · have := h.tot
              rw [hs, ← hc, length_pairs] at this
              simpa [pairs] using this
            · intro v hv
              rcases List.mem_append.1 hv with hv | hv
              · exact h.done v hv
              · simp at hv; subst hv; exact he

end Verif.Polygon
