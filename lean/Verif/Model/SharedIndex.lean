import Verif.Model.SectorIndex
/-!
# The sector index shared by threads

Models what threads do that hold a shared reference `&Adaptation` at the same time: the queries of
`/repo/src/adaptation/mod.rs` 327-343 and `Clone for SectorVolumeIndex`, `/repo/src/adaptation/sector_index.rs` 50-58.
(`rebuild_sector_index` and changes to `sectors` and `volumes` need `&mut Adaptation`, which excludes other threads.)

`std::sync::OnceLock` is modelled step by step after its documentation: `get_or_init` lets one thread run the
initialiser while others that call it wait; `get` never waits and gives nothing before the initialiser has finished.
Steps of different threads may alternate in any way; each step is atomic.  An initialiser that panics is left out,
as `build_tree` has nothing that panics.  The iterators that queries return are consumed at once.
-/

namespace Verif.SectorIndex.Shared
variable {F L : Type} [LE F] [DecidableLE F]

/-- The state of a `OnceLock`: empty, initialised by a running thread, or set. -/
inductive Cell (T : Type) where
  | empty
  | running
  | full (t : T)

/-- What a thread can do with a shared reference. -/
inductive Call (F L : Type) where
  | query (q : Query F L)
  | clone

/-- What it gets. -/
inductive Result (F : Type) where
  | answer (a : Answer F)
  | clone (a : Adaptation F)

/-- Where a thread is within its current call: at its start, running the initialiser, or holding the tree that
`get_or_init` has returned. -/
inductive Phase (T : Type) where
  | start
  | initialising
  | holding (t : T)

/-- A thread: the calls it has still to make, the first of which is under way, and what it has got. -/
structure Thread (F L : Type) where
  todo : List (Call F L)
  phase : Phase (List (Entry F))
  got : List (Result F)

/-- The shared cell, the threads, and how often the tree has been built. -/
structure State (F L : Type) where
  cell : Cell (List (Entry F))
  threads : List (Thread F L)
  builds : Nat

/-- The cell of an adaptation that is not shared. -/
def cellOf : Option (List (Entry F)) → Cell (List (Entry F))
  | none => .empty
  | some t => .full t

/-- `OnceLock::get` -/
def Cell.get {T : Type} : Cell T → Option T
  | .full t => some t
  | _ => none

/-- Threads that are about to make these calls on the adaptation `a`. -/
def State.begin (a : Adaptation F) (calls : List (List (Call F L))) : State F L :=
  ⟨cellOf a.index, calls.map fun cs => ⟨cs, .start, []⟩, 0⟩

/-- A step of the thread number `i`; `data` are the sectors and volumes, which cannot change while they are shared. -/
inductive Step (env : Env F L) (data : Data F) (i : Nat) : State F L → State F L → Prop
  /-- `get_or_init` finds the cell empty and starts the initialiser (sector_index.rs 66). -/
  | enter (s : State F L) (th : Thread F L) (q : Query F L) (rest : List (Call F L)) :
      s.threads[i]? = some th → th.phase = .start → th.todo = .query q :: rest → s.cell = .empty →
      Step env data i s ⟨.running, s.threads.set i { th with phase := .initialising }, s.builds + 1⟩
  /-- The initialiser has finished: the cell is set (sector_index.rs 66). -/
  | finish (s : State F L) (th : Thread F L) : s.threads[i]? = some th → th.phase = .initialising →
      Step env data i s ⟨.full (buildTree data), s.threads.set i { th with phase := .holding (buildTree data) }, s.builds⟩
  /-- `get_or_init` finds the cell set, possibly after having waited for it. -/
  | found (s : State F L) (th : Thread F L) (q : Query F L) (rest : List (Call F L)) (t : List (Entry F)) :
      s.threads[i]? = some th → th.phase = .start → th.todo = .query q :: rest → s.cell = .full t →
      Step env data i s { s with threads := s.threads.set i { th with phase := .holding t } }
  /-- The query is answered from the tree (sector_index.rs 78-123). -/
  | reply (s : State F L) (th : Thread F L) (q : Query F L) (rest : List (Call F L)) (t : List (Entry F)) :
      s.threads[i]? = some th → th.phase = .holding t → th.todo = .query q :: rest →
      Step env data i s { s with threads := s.threads.set i ⟨rest, .start, th.got ++ [.answer (answer env t q)]⟩ }
  /-- The adaptation is cloned, with its index as far as it is there (sector_index.rs 50-58). -/
  | clone (s : State F L) (th : Thread F L) (rest : List (Call F L)) :
      s.threads[i]? = some th → th.phase = .start → th.todo = .clone :: rest →
      Step env data i s { s with threads := s.threads.set i ⟨rest, .start, th.got ++ [.clone ⟨data, s.cell.get⟩]⟩ }

/-- An execution under the schedule `is`: the numbers of the threads that make a step, in order. -/
inductive Exec (env : Env F L) (data : Data F) : State F L → List Nat → State F L → Prop
  | nil (s : State F L) : Exec env data s [] s
  | cons (s s' s'' : State F L) (i : Nat) (is : List Nat) : Step env data i s s' → Exec env data s' is s'' →
      Exec env data s (i :: is) s''

/-- The thread has made all its calls. -/
def Thread.Finished (th : Thread F L) : Prop := th.todo = []

end Verif.SectorIndex.Shared
