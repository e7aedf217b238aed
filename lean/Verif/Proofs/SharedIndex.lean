import Verif.Spec.SharedIndex
/-!
# Threads that share an adaptation: invariants
-/

namespace Verif.SectorIndex.Shared
variable {F L : Type} [LE F] [DecidableLE F] {env : Env F L}

/-- The tree every query uses. -/
def treeOf (a : Adaptation F) : List (Entry F) := a.getOrBuild.1

theorem treeOf_some {a : Adaptation F} {t : List (Entry F)} (h : a.index = some t) : treeOf a = t := by
  simp [treeOf, Adaptation.getOrBuild, h]

theorem treeOf_none {a : Adaptation F} (h : a.index = none) : treeOf a = buildTree a.data := by
  simp [treeOf, Adaptation.getOrBuild, h]

def Thread.isInit (th : Thread F L) : Bool := match th.phase with | .initialising => true | _ => false

/-- What holds of a thread with these calls. -/
structure ThreadOk (env : Env F L) (a : Adaptation F) (cs : List (Call F L)) (th : Thread F L) : Prop where
  made : ∃ before, cs = before ++ th.todo ∧ Replies env a before th.got
  holds : ∀ t, th.phase = .holding t → t = treeOf a
  busy : th.phase ≠ .start → ∃ q rest, th.todo = .query q :: rest

/-- What holds of all. -/
structure Inv (env : Env F L) (a : Adaptation F) (calls : List (List (Call F L))) (s : State F L) : Prop where
  len : s.threads.length = calls.length
  each : ∀ (i : Nat) (th : Thread F L) (cs : List (Call F L)), s.threads[i]? = some th → calls[i]? = some cs → ThreadOk env a cs th
  cell : ∀ t, s.cell = .full t → t = treeOf a
  runs : s.cell = .running ↔ ∃ (i : Nat) (th : Thread F L), s.threads[i]? = some th ∧ th.isInit = true
  one : ∀ (i j : Nat) (th th' : Thread F L), s.threads[i]? = some th → s.threads[j]? = some th' → th.isInit = true → th'.isInit = true → i = j
  stale : a.index ≠ none → s.cell = .full (treeOf a)
  count : s.builds = (match a.index, s.cell with | none, .running => 1 | none, .full _ => 1 | _, _ => 0)
  waiting : ∀ (i : Nat) (th : Thread F L) (t : List (Entry F)), s.threads[i]? = some th → th.phase = .holding t → ∃ t', s.cell = .full t'

theorem inv_begin (a : Adaptation F) (calls : List (List (Call F L))) : Inv env a calls (State.begin a calls) := by
  have start : ∀ (i : Nat) (th : Thread F L), (State.begin a calls).threads[i]? = some th → ∃ cs, calls[i]? = some cs ∧ th = ⟨cs, .start, []⟩ := by
    intro i th h
    simp only [State.begin, List.getElem?_map, Option.map_eq_some_iff] at h
    obtain ⟨cs, h1, h2⟩ := h
    exact ⟨cs, h1, h2.symm⟩
  have quiet : ∀ (i : Nat) (th : Thread F L), (State.begin a calls).threads[i]? = some th → th.isInit = false := by
    intro i th h
    obtain ⟨_, _, rfl⟩ := start i th h
    rfl
  refine ⟨by simp [State.begin], ?_, ?_, ?_, ?_, ?_, ?_, ?_⟩
  · intro i th cs h hc
    obtain ⟨cs', h1, rfl⟩ := start i th h
    rw [h1] at hc
    obtain rfl := Option.some.inj hc
    exact ⟨⟨[], rfl, .nil⟩, (fun t h => by cases h), fun h => absurd rfl h⟩
  · intro t h
    cases hi : a.index with
    | none => simp [State.begin, cellOf, hi] at h
    | some t' =>
      simp only [State.begin, cellOf, hi, Cell.full.injEq] at h
      rw [treeOf_some hi, h]
  · constructor
    · intro h
      cases hi : a.index <;> simp [State.begin, cellOf, hi] at h
    · rintro ⟨i, th, h1, h2⟩
      rw [quiet i th h1] at h2
      cases h2
  · intro i j th th' h _ hi _
    rw [quiet i th h] at hi
    cases hi
  · intro h
    cases hi : a.index with
    | none => exact absurd hi h
    | some t => rw [treeOf_some hi]; simp [State.begin, cellOf, hi]
  · cases hi : a.index <;> simp [State.begin, cellOf, hi]
  · intro i th t h hp
    obtain ⟨_, _, rfl⟩ := start i th h
    cases hp

theorem ask_of_cell {a : Adaptation F} {cell : Cell (List (Entry F))} (hf : ∀ t, cell = .full t → t = treeOf a)
    (hs : a.index ≠ none → cell = .full (treeOf a)) (q : Query F L) : Adaptation.ask env ⟨a.data, cell.get⟩ q = a.ask env q := by
  unfold Adaptation.ask
  congr 1
  show (Adaptation.getOrBuild ⟨a.data, cell.get⟩).1 = treeOf a
  have none_case : cell.get = none → a.index = none := by
    intro h
    by_cases hi : a.index = none
    · exact hi
    · rw [hs hi] at h; cases h
  cases h : cell.get with
  | none =>
    rw [treeOf_none (none_case h)]
    simp [Adaptation.getOrBuild]
  | some t =>
    have : cell = .full t := by
      cases cell with
      | full t' => simp only [Cell.get, Option.some.injEq] at h; rw [h]
      | empty => cases h
      | running => cases h
    rw [← hf t this]
    simp [Adaptation.getOrBuild]

theorem replies_append {a : Adaptation F} {cs : List (Call F L)} {rs : List (Result F)} {c : Call F L} {r : Result F}
    (h : Replies env a cs rs) (hr : AsAlone env a c r) : Replies env a (cs ++ [c]) (rs ++ [r]) := by
  induction h with
  | nil => exact .cons _ _ _ _ hr .nil
  | cons c' r' cs rs h1 _ ih => exact .cons _ _ _ _ h1 ih

theorem get_set {α : Type} {l : List α} {i j : Nat} {x y z : α} (hi : l[i]? = some x) (h : (l.set i y)[j]? = some z) :
    (j = i ∧ z = y) ∨ (j ≠ i ∧ l[j]? = some z) := by
  by_cases e : j = i
  · subst e
    have hl : j < l.length := (List.getElem?_eq_some_iff.1 hi).1
    rw [List.getElem?_set_self hl] at h
    exact Or.inl ⟨rfl, (Option.some.inj h).symm⟩
  · rw [List.getElem?_set_ne (fun h => e h.symm)] at h
    exact Or.inr ⟨e, h⟩

theorem get_set_self {α : Type} {l : List α} {i : Nat} {x y : α} (hi : l[i]? = some x) : (l.set i y)[i]? = some y :=
  List.getElem?_set_self (List.getElem?_eq_some_iff.1 hi).1

theorem get_set_ne {α : Type} {l : List α} {i j : Nat} {x y : α} (h : j ≠ i) (hj : l[j]? = some x) : (l.set i y)[j]? = some x := by
  rw [List.getElem?_set_ne (fun e => h e.symm)]; exact hj

/-- A step of a thread that neither starts nor ends an initialiser. -/
theorem inv_plain {a : Adaptation F} {calls : List (List (Call F L))} {s : State F L} (h : Inv env a calls s) {i : Nat} {th th' : Thread F L}
    (hi : s.threads[i]? = some th) (q1 : th.isInit = false) (q2 : th'.isInit = false)
    (ok : ∀ cs, calls[i]? = some cs → ThreadOk env a cs th → ThreadOk env a cs th')
    (hold : ∀ t, th'.phase = .holding t → ∃ t', s.cell = .full t') :
    Inv env a calls { s with threads := s.threads.set i th' } := by
  refine ⟨by simp [h.len], ?_, h.cell, ?_, ?_, h.stale, h.count, ?_⟩
  · intro j t cs hj hc
    rcases get_set hi hj with ⟨rfl, rfl⟩ | ⟨_, hj⟩
    · exact ok cs hc (h.each _ _ _ hi hc)
    · exact h.each _ _ _ hj hc
  · refine h.runs.trans ⟨?_, ?_⟩
    · rintro ⟨j, t, hj, ht⟩
      refine ⟨j, t, get_set_ne ?_ hj, ht⟩
      rintro rfl
      rw [hi] at hj
      obtain rfl := Option.some.inj hj
      rw [q1] at ht
      cases ht
    · rintro ⟨j, t, hj, ht⟩
      rcases get_set hi hj with ⟨rfl, rfl⟩ | ⟨_, hj⟩
      · rw [q2] at ht; cases ht
      · exact ⟨j, t, hj, ht⟩
  · intro j k t t' hj hk h1 h2
    rcases get_set hi hj with ⟨rfl, rfl⟩ | ⟨_, hj⟩
    · rw [q2] at h1; cases h1
    · rcases get_set hi hk with ⟨rfl, rfl⟩ | ⟨_, hk⟩
      · rw [q2] at h2; cases h2
      · exact h.one _ _ _ _ hj hk h1 h2
  · intro j t t' hj hp
    rcases get_set hi hj with ⟨rfl, rfl⟩ | ⟨_, hj⟩
    · exact hold _ hp
    · exact h.waiting _ _ _ hj hp

theorem inv_step {a : Adaptation F} {calls : List (List (Call F L))} {s s' : State F L} {i : Nat} (h : Inv env a calls s)
    (hs : Step env a.data i s s') : Inv env a calls s' := by
  cases hs with
  | enter th q rest hi hp ht hc =>
    have hn : a.index = none := by
      by_cases e : a.index = none
      · exact e
      · have := h.stale e
        rw [hc] at this
        cases this
    have none_runs : ∀ (j : Nat) (t : Thread F L), s.threads[j]? = some t → t.isInit = false := by
      intro j t hj
      cases e : t.isInit with
      | false => rfl
      | true =>
        have := h.runs.2 ⟨j, t, hj, e⟩
        rw [hc] at this
        cases this
    refine ⟨by simp [h.len], ?_, ?_, ?_, ?_, fun e => absurd hn e, ?_, ?_⟩
    · intro j t cs hj hcs
      rcases get_set hi hj with ⟨rfl, rfl⟩ | ⟨_, hj⟩
      · have k := h.each _ _ _ hi hcs
        exact ⟨k.made, (fun t h => by cases h), fun _ => ⟨q, rest, ht⟩⟩
      · exact h.each _ _ _ hj hcs
    · intro t e; cases e
    · exact ⟨fun _ => ⟨i, _, get_set_self hi, rfl⟩, fun _ => rfl⟩
    · intro j k t t' hj hk h1 h2
      rcases get_set hi hj with ⟨rfl, rfl⟩ | ⟨_, hj⟩
      · rcases get_set hi hk with ⟨rfl, rfl⟩ | ⟨_, hk⟩
        · rfl
        · rw [none_runs _ _ hk] at h2; cases h2
      · rw [none_runs _ _ hj] at h1; cases h1
    · have := h.count
      rw [hn, hc] at this
      rw [hn]
      show s.builds + 1 = 1
      rw [this]
    · intro j t t' hj hp'
      rcases get_set hi hj with ⟨rfl, rfl⟩ | ⟨_, hj⟩
      · cases hp'
      · obtain ⟨t'', e⟩ := h.waiting _ _ _ hj hp'
        rw [hc] at e
        cases e
  | finish th hi hp =>
    have hrun : s.cell = .running := h.runs.2 ⟨i, th, hi, by simp [Thread.isInit, hp]⟩
    have hn : a.index = none := by
      by_cases e : a.index = none
      · exact e
      · have := h.stale e
        rw [hrun] at this
        cases this
    have me : ∀ (j : Nat) (t : Thread F L), s.threads[j]? = some t → t.isInit = true → j = i := fun j t hj e =>
      h.one _ _ _ _ hj hi e (by simp [Thread.isInit, hp])
    refine ⟨by simp [h.len], ?_, ?_, ?_, ?_, fun e => absurd hn e, ?_, ?_⟩
    · intro j t cs hj hcs
      rcases get_set hi hj with ⟨rfl, rfl⟩ | ⟨_, hj⟩
      · have k := h.each _ _ _ hi hcs
        refine ⟨k.made, ?_, fun _ => k.busy (by rw [hp]; exact fun h => by cases h)⟩
        intro t e
        cases e
        exact (treeOf_none hn).symm
      · exact h.each _ _ _ hj hcs
    · intro t e
      cases e
      exact (treeOf_none hn).symm
    · constructor
      · intro e; cases e
      · rintro ⟨j, t, hj, ht⟩
        rcases get_set hi hj with ⟨rfl, rfl⟩ | ⟨hne, hj⟩
        · cases ht
        · exact absurd (me j t hj ht) hne
    · intro j k t t' hj hk h1 h2
      rcases get_set hi hj with ⟨rfl, rfl⟩ | ⟨hne, hj⟩
      · cases h1
      · exact absurd (me j t hj h1) hne
    · have := h.count
      rw [hn, hrun] at this
      rw [hn]
      exact this
    · intro j t t' hj hp'
      exact ⟨_, rfl⟩
  | found th q rest t hi hp ht hc =>
    refine inv_plain h hi (by simp [Thread.isInit, hp]) rfl (fun cs hcs k => ⟨k.made, ?_, fun _ => ⟨q, rest, ht⟩⟩) fun _ _ => ⟨_, hc⟩
    intro t' e
    cases e
    exact h.cell _ hc
  | reply th q rest t hi hp ht =>
    refine inv_plain h hi (by simp [Thread.isInit, hp]) rfl (fun cs hcs k => ⟨?_, (fun t h => by cases h), fun h => absurd rfl h⟩) (fun t h => by cases h)
    obtain ⟨before, e, hr⟩ := k.made
    refine ⟨before ++ [.query q], by rw [e, ht]; simp, replies_append hr ?_⟩
    rw [k.holds t hp]
    exact .query q
  | clone th rest hi hp ht =>
    refine inv_plain h hi (by simp [Thread.isInit, hp]) rfl (fun cs hcs k => ⟨?_, (fun t h => by cases h), fun h => absurd rfl h⟩) (fun t h => by cases h)
    obtain ⟨before, e, hr⟩ := k.made
    have r : AsAlone env a .clone (.clone ⟨a.data, s.cell.get⟩) :=
      AsAlone.clone (a := a) ⟨a.data, s.cell.get⟩ rfl fun q => ask_of_cell h.cell h.stale q
    exact ⟨before ++ [.clone], by rw [e, ht]; simp, replies_append hr r⟩

theorem inv_exec {a : Adaptation F} {calls : List (List (Call F L))} {s s' : State F L} {is : List Nat} (h : Inv env a calls s)
    (hs : Exec env a.data s is s') : Inv env a calls s' := by
  induction hs with
  | nil => exact h
  | cons s s1 s2 i is h1 _ ih => exact ih (inv_step h h1)

/-! ## Progress -/

/-- In any state with a thread that is not finished, some thread can make a step. -/
theorem progress {a : Adaptation F} {calls : List (List (Call F L))} {s : State F L} (h : Inv env a calls s)
    (hn : ∃ th ∈ s.threads, ¬ th.Finished) : ∃ i s', Step env a.data i s s' := by
  obtain ⟨th, hm, hf⟩ := hn
  obtain ⟨i, hl, hi⟩ := List.getElem_of_mem hm
  have hi : s.threads[i]? = some th := by rw [List.getElem?_eq_getElem hl, hi]
  cases hp : th.phase with
  | initialising => exact ⟨i, _, .finish s th hi hp⟩
  | holding t =>
    obtain ⟨cs, hcs⟩ : ∃ cs, calls[i]? = some cs := by
      have : i < calls.length := h.len ▸ hl
      exact ⟨_, List.getElem?_eq_getElem this⟩
    obtain ⟨q, rest, ht⟩ := (h.each _ _ _ hi hcs).busy (by rw [hp]; exact fun h => by cases h)
    exact ⟨i, _, .reply s th q rest t hi hp ht⟩
  | start =>
    cases ht : th.todo with
    | nil => exact absurd ht hf
    | cons c rest =>
      cases c with
      | clone => exact ⟨i, _, .clone s th rest hi hp ht⟩
      | query q =>
        cases hc : s.cell with
        | empty => exact ⟨i, _, .enter s th q rest hi hp ht hc⟩
        | full t => exact ⟨i, _, .found s th q rest t hi hp ht hc⟩
        | running =>
          obtain ⟨j, th', hj, hr⟩ := h.runs.1 hc
          refine ⟨j, _, .finish s th' hj ?_⟩
          revert hr
          unfold Thread.isInit
          cases th'.phase <;> simp

/-- The steps a thread has still to make, at most. -/
def Thread.left (th : Thread F L) : Nat :=
  3 * th.todo.length - (match th.phase with | .start => 0 | .initialising => 1 | .holding _ => 2)

def State.left (s : State F L) : Nat := (s.threads.map Thread.left).sum

theorem sum_set {α : Type} (f : α → Nat) : ∀ {l : List α} {i : Nat} {x y : α}, l[i]? = some x →
    ((l.set i y).map f).sum + f x = (l.map f).sum + f y
  | [], i, x, y, h => by simp at h
  | a :: l, 0, x, y, h => by
    simp only [List.getElem?_cons_zero, Option.some.injEq] at h
    subst h
    simp only [List.set_cons_zero, List.map_cons, List.sum_cons]
    omega
  | a :: l, i + 1, x, y, h => by
    rw [List.getElem?_cons_succ] at h
    have := sum_set f (y := y) h
    simp only [List.set_cons_succ, List.map_cons, List.sum_cons]
    omega

theorem left_step {a : Adaptation F} {calls : List (List (Call F L))} {s s' : State F L} {i : Nat} (h : Inv env a calls s)
    (hs : Step env a.data i s s') : s'.left < s.left := by
  have key : ∀ {th th' : Thread F L} {c b}, s.threads[i]? = some th → th'.left < th.left →
      State.left ⟨c, s.threads.set i th', b⟩ < s.left := by
    intro th th' c b hi hl
    have := sum_set Thread.left (y := th') hi
    show ((s.threads.set i th').map Thread.left).sum < (s.threads.map Thread.left).sum
    omega
  cases hs with
  | enter th q rest hi hp ht hc => exact key hi (by simp only [Thread.left, hp, ht, List.length_cons]; omega)
  | finish th hi hp =>
    have hl : i < calls.length := h.len ▸ (List.getElem?_eq_some_iff.1 hi).1
    obtain ⟨q, rest, ht⟩ := (h.each _ _ _ hi (List.getElem?_eq_getElem hl)).busy (by rw [hp]; exact fun h => by cases h)
    exact key hi (by simp only [Thread.left, hp, ht, List.length_cons]; omega)
  | found th q rest t hi hp ht hc => exact key hi (by simp only [Thread.left, hp, ht, List.length_cons]; omega)
  | reply th q rest t hi hp ht => exact key hi (by simp only [Thread.left, hp, ht, List.length_cons]; omega)
  | clone th rest hi hp ht => exact key hi (by simp only [Thread.left, hp, ht, List.length_cons]; omega)

theorem left_exec {a : Adaptation F} {calls : List (List (Call F L))} {s s' : State F L} {is : List Nat} (h : Inv env a calls s)
    (hs : Exec env a.data s is s') : s'.left + is.length ≤ s.left := by
  induction hs with
  | nil => simp
  | cons s s1 s2 i is h1 _ ih =>
    have h2 := left_step h h1
    have h3 := ih (inv_step h h1)
    simp only [List.length_cons]
    omega

omit [LE F] [DecidableLE F] in
theorem left_begin (a : Adaptation F) (calls : List (List (Call F L))) : (State.begin a calls).left = 3 * (calls.map List.length).sum := by
  simp only [State.begin, State.left, List.map_map]
  induction calls with
  | nil => rfl
  | cons cs l ih =>
    simp only [List.map_cons, List.sum_cons, Function.comp_apply, Thread.left] at ih ⊢
    omega

/-! ## The cell afterwards -/

def Result.isAnswer : Result F → Bool
  | .answer _ => true
  | .clone _ => false

def Call.isQuery : Call F L → Bool
  | .query _ => true
  | .clone => false

theorem replies_answers {a : Adaptation F} {cs : List (Call F L)} {rs : List (Result F)} (h : Replies env a cs rs) :
    cs.any Call.isQuery = rs.any Result.isAnswer := by
  induction h with
  | nil => rfl
  | cons c r cs rs h1 _ ih => cases h1 <;> simp [ih, Call.isQuery, Result.isAnswer]

structure Inv2 (a : Adaptation F) (calls : List (List (Call F L))) (s : State F L) : Prop where
  unset : s.cell = .empty ∨ s.cell = .running → ∀ th ∈ s.threads, th.got.any Result.isAnswer = false
  set : s.cell ≠ cellOf a.index → ∃ cs ∈ calls, cs.any Call.isQuery = true

theorem inv2_step {a : Adaptation F} {calls : List (List (Call F L))} {s s' : State F L} {i : Nat} (h : Inv env a calls s)
    (h2 : Inv2 a calls s) (hs : Step env a.data i s s') : Inv2 a calls s' := by
  have mem : ∀ {th th' x : Thread F L}, s.threads[i]? = some th → x ∈ s.threads.set i th' → x = th' ∨ x ∈ s.threads := by
    intro th th' x _ hx
    rcases List.mem_or_eq_of_mem_set hx with h | h
    · exact Or.inr h
    · exact Or.inl h
  have asked : ∀ {th : Thread F L}, s.threads[i]? = some th → (∃ q rest, th.todo = .query q :: rest) → ∃ cs ∈ calls, cs.any Call.isQuery = true := by
    rintro th hi ⟨q, rest, ht⟩
    have hl : i < calls.length := h.len ▸ (List.getElem?_eq_some_iff.1 hi).1
    have k := h.each _ _ _ hi (List.getElem?_eq_getElem hl)
    obtain ⟨before, e, _⟩ := k.made
    refine ⟨calls[i], List.getElem_mem hl, ?_⟩
    rw [e, ht]
    simp [Call.isQuery]
  cases hs with
  | enter th q rest hi hp ht hc =>
    refine ⟨fun _ x hx => ?_, fun _ => asked hi ⟨q, rest, ht⟩⟩
    rcases mem hi hx with rfl | hx
    · exact h2.unset (Or.inl hc) th (List.mem_of_getElem? hi)
    · exact h2.unset (Or.inl hc) x hx
  | finish th hi hp =>
    refine ⟨(fun e => by rcases e with e | e <;> cases e), fun _ => asked hi ?_⟩
    have hl : i < calls.length := h.len ▸ (List.getElem?_eq_some_iff.1 hi).1
    exact (h.each _ _ _ hi (List.getElem?_eq_getElem hl)).busy (by rw [hp]; exact fun h => by cases h)
  | found th q rest t hi hp ht hc =>
    refine ⟨fun e => ?_, h2.set⟩
    rw [show s.cell = _ from hc] at e
    rcases e with e | e <;> cases e
  | reply th q rest t hi hp ht =>
    refine ⟨fun e => ?_, h2.set⟩
    obtain ⟨t', hc⟩ := h.waiting _ _ _ hi hp
    rw [show s.cell = _ from hc] at e
    rcases e with e | e <;> cases e
  | clone th rest hi hp ht =>
    refine ⟨fun e x hx => ?_, h2.set⟩
    rcases mem hi hx with rfl | hx
    · have := h2.unset e th (List.mem_of_getElem? hi)
      simp [this, Result.isAnswer]
    · exact h2.unset e x hx

theorem inv2_exec {a : Adaptation F} {calls : List (List (Call F L))} {s s' : State F L} {is : List Nat} (h : Inv env a calls s)
    (h2 : Inv2 a calls s) (hs : Exec env a.data s is s') : Inv2 a calls s' := by
  induction hs with
  | nil => exact h2
  | cons s s1 s2 i is h1 _ ih => exact ih (inv_step h h1) (inv2_step h h2 h1)

omit [LE F] [DecidableLE F] in
theorem inv2_begin (a : Adaptation F) (calls : List (List (Call F L))) : Inv2 a calls (State.begin a calls) := by
  refine ⟨fun _ th hth => ?_, fun e => absurd rfl e⟩
  simp only [State.begin, List.mem_map] at hth
  obtain ⟨cs, _, rfl⟩ := hth
  rfl

/-- The cell after queries by a single thread. -/
theorem run_queries (a : Adaptation F) : ∀ qs : List (Query F L), qs ≠ [] →
    (a.run (qs.map Op.query)).index = some (treeOf a)
  | [], h => absurd rfl h
  | q :: qs, _ => by
    have keep : ∀ (b : Adaptation F) (t : List (Entry F)), b.index = some t → ∀ qs : List (Query F L), (b.run (qs.map Op.query)).index = some t := by
      intro b t hb qs
      induction qs generalizing b with
      | nil => exact hb
      | cons q qs ih =>
        refine ih (b.step (.query q)) ?_
        simp [Adaptation.step, Adaptation.getOrBuild, hb]
    refine keep (a.step (.query q)) (treeOf a) ?_ qs
    cases hi : a.index with
    | none => simp [Adaptation.step, Adaptation.getOrBuild, treeOf, hi]
    | some t => simp [Adaptation.step, Adaptation.getOrBuild, treeOf, hi]

end Verif.SectorIndex.Shared
