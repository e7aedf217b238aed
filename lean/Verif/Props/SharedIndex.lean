import Verif.Proofs.SharedIndex
import Verif.Props.SectorIndex
/-!
# C113: threads that share an adaptation

`Model/SharedIndex.lean` says what threads with a shared reference can do and in which steps; a schedule is any
sequence of thread numbers.  `Spec/SharedIndex.lean` says what they should get.
-/

namespace Verif.SectorIndex
open Shared

section
variable {F L : Type} [LE F] [DecidableLE F] (env : Env F L) (a : Adaptation F) (calls : List (List (Call F L)))

/-- **C113.** Whatever the schedule, each thread gets for the calls it has made what it would have got alone: queries are
answered from the index the adaptation had or, if it had none, from one that is built from its sectors and volumes; and
clones answer all queries as the adaptation does. -/
theorem C113_answers {is : List Nat} {s : State F L} (h : Exec env a.data (State.begin a calls) is s) :
    s.threads.length = calls.length ∧
    ∀ (i : Nat) (th : Thread F L) (cs : List (Call F L)), s.threads[i]? = some th → calls[i]? = some cs → ∃ before, cs = before ++ th.todo ∧ Replies env a before th.got :=
  ⟨(inv_exec (inv_begin a calls) h).len, fun i th cs h1 h2 => ((inv_exec (inv_begin a calls) h).each i th cs h1 h2).made⟩

theorem reply_at {env : Env F L} {a : Adaptation F} {cs : List (Call F L)} {rs : List (Result F)} (h : Replies env a cs rs) {k : Nat} {q : Query F L}
    (hk : cs[k]? = some (.query q)) : rs[k]? = some (.answer (a.ask env q)) := by
  induction h generalizing k with
  | nil => simp at hk
  | cons c r cs rs h1 _ ih =>
    cases k with
    | zero =>
      simp only [List.getElem?_cons_zero, Option.some.injEq] at hk ⊢
      subst hk
      cases h1
      rfl
    | succ k =>
      rw [List.getElem?_cons_succ] at hk ⊢
      exact ih hk

theorem replies_length {env : Env F L} {a : Adaptation F} {cs : List (Call F L)} {rs : List (Result F)} (h : Replies env a cs rs) :
    rs.length = cs.length := by
  induction h with
  | nil => rfl
  | cons c r cs rs _ _ ih => simp [ih]

/-- **C113, finding sectors.** If the index was not built yet, or was built from the present sectors and volumes, then the
`k`-th call of a thread, if it is `find_sector` and has returned, has given what the exhaustive search gives. -/
theorem C113_find_sector [Std.IsLinearPreorder F] (hc : Spec.ContainsWithinExtent env) (hs : Spec.ShufflePerm env)
    (ha : a.index = none ∨ a.index = some (buildTree a.data)) {is : List Nat} {s : State F L}
    (h : Exec env a.data (State.begin a calls) is s) {i k : Nat} {th : Thread F L} {cs : List (Call F L)} {p : Pt F} {level : L}
    (h1 : s.threads[i]? = some th) (h2 : calls[i]? = some cs) (h3 : cs[k]? = some (.query (.findSector p level))) (h4 : k < th.got.length) :
    ∃ r, th.got[k]? = some (.answer (.sector r)) ∧
      ∀ id, r = some id ↔ (Spec.SectorAt env a.data p level id ∧ ∀ id', Spec.SectorAt env a.data p level id' → Spec.StrLe id id') := by
  obtain ⟨before, e, hr⟩ := (C113_answers env a calls h).2 i th cs h1 h2
  have hk : before[k]? = some (.query (.findSector p level)) := by
    rw [e, List.getElem?_append_left (by rw [← replies_length hr]; exact h4)] at h3
    exact h3
  have ht : a.getOrBuild.1 = buildTree a.data := by
    rcases ha with ha | ha <;> simp [Adaptation.getOrBuild, ha]
  refine ⟨findSector env (buildTree a.data) p level, ?_, fun id => C25_find_sector_iff env hc hs a.data p level id⟩
  rw [reply_at hr hk, Adaptation.ask, ht]
  rfl

/-- **C113, once.** The index is built at most once, and not at all if it was there before. -/
theorem C113_built_once {is : List Nat} {s : State F L} (h : Exec env a.data (State.begin a calls) is s) :
    s.builds ≤ 1 ∧ (a.index ≠ none → s.builds = 0) := by
  have hc := (inv_exec (inv_begin a calls) h).count
  constructor
  · rw [hc]
    split <;> omega
  · intro hn
    rw [hc]
    cases hi : a.index with
    | none => exact absurd hi hn
    | some t => rfl

/-- **C113, progress.** The threads cannot block each other: as long as one of them has a call to make, some thread can make
a step; and after at most three steps for each call all threads are done. -/
theorem C113_progress {is : List Nat} {s : State F L} (h : Exec env a.data (State.begin a calls) is s) :
    ((∃ th ∈ s.threads, ¬ th.Finished) → ∃ i s', Step env a.data i s s') ∧
    is.length ≤ 3 * (calls.map List.length).sum ∧
    ∃ js s', Exec env a.data s js s' ∧ ∀ th ∈ s'.threads, th.Finished := by
  have hi := inv_exec (inv_begin a calls) h
  refine ⟨progress hi, ?_, ?_⟩
  · have := left_exec (inv_begin a calls) h
    rw [left_begin] at this
    omega
  · have : ∀ n (s : State F L), s.left ≤ n → Inv env a calls s → ∃ js s', Exec env a.data s js s' ∧ ∀ th ∈ s'.threads, th.Finished := by
      intro n
      induction n with
      | zero =>
        intro s hn hi
        refine ⟨[], s, .nil s, fun th hm => ?_⟩
        by_cases hf : th.Finished
        · exact hf
        · obtain ⟨i, s', hs⟩ := progress hi ⟨th, hm, hf⟩
          have := left_step hi hs
          omega
      | succ n ih =>
        intro s hn hi
        by_cases hf : ∃ th ∈ s.threads, ¬ th.Finished
        · obtain ⟨i, s', hs⟩ := progress hi hf
          have hl := left_step hi hs
          obtain ⟨js, s'', h1, h2⟩ := ih s' (by omega) (inv_step hi hs)
          exact ⟨i :: js, s'', .cons _ _ _ _ _ hs h1, h2⟩
        · refine ⟨[], s, .nil s, fun th hm => ?_⟩
          by_cases hd : th.Finished
          · exact hd
          · exact absurd ⟨th, hm, hd⟩ hf
    exact this _ s (Nat.le_refl _) hi

/-- The query of a call. -/
def queryOf : Call F L → Option (Query F L)
  | .query q => some q
  | .clone => none

/-- **C113, afterwards.** When all threads are done, the adaptation has the index it would have if one thread had made all
the calls, one after the other. -/
theorem C113_afterwards {is : List Nat} {s : State F L} (h : Exec env a.data (State.begin a calls) is s)
    (hd : ∀ th ∈ s.threads, th.Finished) :
    s.cell = cellOf (a.run ((calls.flatten.filterMap queryOf).map Op.query)).index := by
  have hi := inv_exec (inv_begin a calls) h
  have h2 := inv2_exec (inv_begin a calls) (inv2_begin a calls) h
  have notrun : s.cell ≠ .running := by
    intro hr
    obtain ⟨i, th, h1, h3⟩ := hi.runs.1 hr
    have hl : i < calls.length := hi.len ▸ (List.getElem?_eq_some_iff.1 h1).1
    obtain ⟨q, rest, ht⟩ := (hi.each _ _ _ h1 (List.getElem?_eq_getElem hl)).busy (by
      revert h3; unfold Thread.isInit; cases th.phase <;> simp)
    have := hd th (List.mem_of_getElem? h1)
    rw [Thread.Finished, ht] at this
    cases this
  by_cases hq : calls.flatten.filterMap queryOf = []
  · rw [hq]
    by_cases e : s.cell = cellOf a.index
    · exact e
    · obtain ⟨cs, hcs, hany⟩ := h2.set e
      obtain ⟨c, hc, hcq⟩ := List.any_eq_true.1 hany
      cases c with
      | clone => cases hcq
      | query q =>
        have : q ∈ calls.flatten.filterMap queryOf :=
          List.mem_filterMap.2 ⟨.query q, List.mem_flatten.2 ⟨cs, hcs, hc⟩, rfl⟩
        rw [hq] at this
        cases this
  · rw [run_queries a _ hq]
    show s.cell = .full (treeOf a)
    have unset : ¬ (s.cell = .empty ∨ s.cell = .running) := by
      intro hu
      obtain ⟨q, hm⟩ := List.exists_mem_of_ne_nil _ hq
      obtain ⟨c, hm, hc⟩ := List.mem_filterMap.1 hm
      obtain ⟨cs, hcs, hm⟩ := List.mem_flatten.1 hm
      obtain ⟨i, hl, rfl⟩ := List.getElem_of_mem hcs
      have hl' : i < s.threads.length := hi.len ▸ hl
      obtain ⟨before, e, hr⟩ := (hi.each _ _ _ (List.getElem?_eq_getElem hl') (List.getElem?_eq_getElem hl)).made
      have hfin : (s.threads[i]).todo = [] := hd _ (List.getElem_mem hl')
      rw [hfin, List.append_nil] at e
      have h3 := h2.unset hu _ (List.getElem_mem hl')
      rw [← replies_answers hr, ← e] at h3
      have := (List.any_eq_false.1 h3) c hm
      cases c with
      | clone => cases hc
      | query q => exact this rfl
    cases hc : s.cell with
    | empty => exact absurd (Or.inl hc) unset
    | running => exact absurd hc notrun
    | full t => rw [hi.cell t hc]

end

/-! ## The hypotheses can be met -/

namespace SharedExample

def env : Env Int Int := ⟨fun b p => b.any (fun q => q.1 ≤ p.1) && b.any (fun q => p.1 ≤ q.1) && b.any (fun q => q.2 ≤ p.2) && b.any (fun q => p.2 ≤ q.2), id, fun n => n, fun a b => a ≤ b, fun a b => a < b⟩
def border : Border Int := [(0, 0), (2, 0), (2, 2), (0, 2), (0, 0)]
def data : Data Int := ⟨[(['A'], ⟨['A'], [['P']], [], [['v']], [], []⟩)], [(['v'], ⟨['v'], 0, 100, border⟩)]⟩
def adaptation : Adaptation Int := ⟨data, none⟩

/-- Two threads with a query each; the first also makes a clone. -/
def calls : List (List (Call Int Int)) := [[.query (.findSector (1, 1) 50), .clone], [.query (.findSector (5, 5) 50)]]

/-- The second thread starts to build the index, the first waits for it, answers and makes its clone before the second thread
has answered. -/
example : ∃ s, Exec env adaptation.data (State.begin adaptation calls) [1, 1, 0, 0, 0, 1] s ∧ (∀ th ∈ s.threads, th.Finished) ∧
    s.builds = 1 := by
  refine ⟨_, .cons _ _ _ _ _ (.enter _ _ _ _ rfl rfl rfl rfl) (.cons _ _ _ _ _ (.finish _ _ rfl rfl) (.cons _ _ _ _ _ (.found _ _ _ _ _ rfl rfl rfl rfl)
    (.cons _ _ _ _ _ (.reply _ _ _ _ _ rfl rfl rfl) (.cons _ _ _ _ _ (.clone _ _ _ rfl rfl rfl) (.cons _ _ _ _ _ (.reply _ _ _ _ _ rfl rfl rfl)
      (.nil _)))))), ?_, rfl⟩
  intro th hth
  simp only [State.begin, calls, List.map_cons, List.map_nil, List.set_cons_succ, List.set_cons_zero, List.mem_cons, List.not_mem_nil, or_false] at hth
  rcases hth with rfl | rfl <;> rfl

example : Spec.ContainsWithinExtent env ∧ Spec.ShufflePerm env := by
  refine ⟨fun b p h => ?_, fun l => List.Perm.refl _⟩
  simp only [env, Bool.and_eq_true, List.any_eq_true, decide_eq_true_eq] at h
  exact ⟨h.1.1.1, h.1.1.2, h.1.2, h.2⟩

/-- The answers are those without other threads. -/
example : adaptation.ask env (.findSector (1, 1) 50) = .sector (some ['A']) ∧ adaptation.ask env (.findSector (5, 5) 50) = .sector none := by
  constructor <;> rfl

end SharedExample
end Verif.SectorIndex
