import Verif.Model.EseAirspace
/-!
# The airspace section of an ESE file: theorems

C40.
-/

namespace Verif.EseAirspace
open Verif.Constraints

variable {L C : Type}

/-! ## Specification -/

/-- The sector definitions with an id, in file order, each with the names of its border lines. -/
def sectorsNamed (l : List (Statement L C)) (id : Str) : List (List Str × Sector L) :=
  l.filterMap fun
    | .sector b s => if s.id = id then some (b, s) else none
    | _ => none

/-- The sector lines with an id, in file order. -/
def linesNamed (l : List (Statement L C)) (id : Str) : List L :=
  l.filterMap fun
    | .sectorLine i x => if i = id then some x else none
    | _ => none

/-- The constraints, in file order. -/
def constraintsOf (l : List (Statement L C)) : List Constraint :=
  l.filterMap fun
    | .cop c => some c
    | .firCop c => some c
    | _ => none

/-! ## The fold -/

structure Inv (l : List (Statement L C)) (a : Collected L C) : Prop where
  sectors : ∀ id, a.sectors.get? id = ((sectorsNamed l id).getLast?).map (·.2)
  borders : ∀ id, a.borders.get? id = ((sectorsNamed l id).getLast?).map (·.1)
  lines : ∀ id, a.lines.get? id = (linesNamed l id).getLast?
  constraints : a.constraints = constraintsOf l
  nodup : a.sectors.keys.Nodup

theorem inv_step {l : List (Statement L C)} {a : Collected L C} (h : Inv l a) (st : Statement L C) :
    Inv (l ++ [st]) (collect a st) := by
  cases st with
  | sector b s =>
    refine ⟨?_, ?_, ?_, ?_, ?_⟩
    · intro id
      simp only [collect, Map.get?_insert, sectorsNamed, List.filterMap_append, List.filterMap_cons,
        List.filterMap_nil]
      split
      · simp
      · simpa [sectorsNamed] using h.sectors id
    · intro id
      simp only [collect, Map.get?_insert, sectorsNamed, List.filterMap_append, List.filterMap_cons,
        List.filterMap_nil]
      split
      · simp
      · simpa [sectorsNamed] using h.borders id
    · intro id
      simpa [collect, linesNamed] using h.lines id
    · simpa [collect, constraintsOf] using h.constraints
    · exact Map.nodup_insert h.nodup _ _
  | sectorLine i x =>
    refine ⟨?_, ?_, ?_, ?_, h.nodup⟩
    · intro id
      simpa [collect, sectorsNamed] using h.sectors id
    · intro id
      simpa [collect, sectorsNamed] using h.borders id
    · intro id
      simp only [collect, Map.get?_insert, linesNamed, List.filterMap_append, List.filterMap_cons,
        List.filterMap_nil]
      split
      · simp
      · simpa [linesNamed] using h.lines id
    · simpa [collect, constraintsOf] using h.constraints
  | firCop c =>
    refine ⟨?_, ?_, ?_, ?_, h.nodup⟩
    · intro id; simpa [collect, sectorsNamed] using h.sectors id
    · intro id; simpa [collect, sectorsNamed] using h.borders id
    · intro id; simpa [collect, linesNamed] using h.lines id
    · simp [collect, constraintsOf, h.constraints]
  | cop c =>
    refine ⟨?_, ?_, ?_, ?_, h.nodup⟩
    · intro id; simpa [collect, sectorsNamed] using h.sectors id
    · intro id; simpa [collect, sectorsNamed] using h.borders id
    · intro id; simpa [collect, linesNamed] using h.lines id
    · simp [collect, constraintsOf, h.constraints]
  | circleSectorLine i x =>
    refine ⟨?_, ?_, ?_, ?_, h.nodup⟩
    · intro id; simpa [collect, sectorsNamed] using h.sectors id
    · intro id; simpa [collect, sectorsNamed] using h.borders id
    · intro id; simpa [collect, linesNamed] using h.lines id
    · simpa [collect, constraintsOf] using h.constraints
  | displaySectorline =>
    refine ⟨?_, ?_, ?_, ?_, h.nodup⟩
    · intro id; simpa [collect, sectorsNamed] using h.sectors id
    · intro id; simpa [collect, sectorsNamed] using h.borders id
    · intro id; simpa [collect, linesNamed] using h.lines id
    · simpa [collect, constraintsOf] using h.constraints
  | msaw =>
    refine ⟨?_, ?_, ?_, ?_, h.nodup⟩
    · intro id; simpa [collect, sectorsNamed] using h.sectors id
    · intro id; simpa [collect, sectorsNamed] using h.borders id
    · intro id; simpa [collect, linesNamed] using h.lines id
    · simpa [collect, constraintsOf] using h.constraints

theorem inv_fold (l rest : List (Statement L C)) (a : Collected L C) (h : Inv l a) :
    Inv (l ++ rest) (rest.foldl collect a) := by
  induction rest generalizing l a with
  | nil => simpa using h
  | cons st rest ih =>
    have := ih (l ++ [st]) _ (inv_step h st)
    simpa using this

theorem inv_all (l : List (Statement L C)) : Inv l (l.foldl collect ⟨[], [], [], [], []⟩) := by
  have : Inv ([] : List (Statement L C)) ⟨[], [], [], [], []⟩ :=
    ⟨fun _ => rfl, fun _ => rfl, fun _ => rfl, rfl, by simp [Map.keys]⟩
  simpa using inv_fold [] l _ this

theorem get?_map {V W : Type} (m : Map Str V) (f : Str → V → W) (k : Str) :
    Map.get? (m.map fun e => (e.1, f e.1 e.2)) k = (Map.get? m k).map (f k) := by
  induction m with
  | nil => rfl
  | cons e m ih =>
    simp only [List.map_cons, Map.get?, ih]
    split
    · next h => subst h; rfl
    · rfl

/-! ## Theorems -/

/-- C40: the sector of an id is the last one defined with it; its border are the lines named by that
definition, in the order of the names, each line being the last one defined with its name wherever in
the section that is, and names without a line are skipped. -/
theorem C40_sector (l : List (Statement L C)) (id : Str) :
    (airspace l).1.get? id = ((sectorsNamed l id).getLast?).map fun d =>
      { d.2 with border := d.1.filterMap fun name => (linesNamed l name).getLast? } := by
  have h := inv_all l
  unfold airspace combine
  generalize l.foldl collect ⟨[], [], [], [], []⟩ = a at h
  simp only
  refine (get?_map a.sectors (fun k (v : Sector L) => { v with border := borderOf a k }) id).trans ?_
  rw [h.sectors id]
  unfold borderOf
  have e : (fun name => a.lines.get? name) = fun name => (linesNamed l name).getLast? := funext h.lines
  rw [e, h.borders id]
  cases (sectorsNamed l id).getLast? <;> rfl

/-- C40: the table has no other entries. -/
theorem C40_entries (l : List (Statement L C)) :
    (airspace l).1.keys.Nodup ∧ ∀ e ∈ (airspace l).1, e.1 = e.2.id := by
  have h := inv_all l
  have hn : (airspace l).1.keys.Nodup := by
    unfold airspace combine
    have : ∀ a : Collected L C, a.sectors.keys.Nodup →
        (Map.keys (a.sectors.map fun e => (e.1, { e.2 with border := borderOf a e.1 }))).Nodup := by
      intro a ha
      simpa [Map.keys, Function.comp_def] using ha
    exact this _ h.nodup
  refine ⟨hn, ?_⟩
  rintro ⟨k, s⟩ he
  have := Map.get?_of_mem hn he
  rw [C40_sector] at this
  obtain ⟨d, hd, rfl⟩ := Option.map_eq_some_iff.1 this
  have := List.mem_of_getLast? hd
  simp only [sectorsNamed, List.mem_filterMap] at this
  obtain ⟨st, _, hst⟩ := this
  cases st <;> simp at hst
  obtain ⟨h1, h2⟩ := hst
  rw [← h2]
  exact h1.symm

/-- C40: the result only depends on the order of the sector definitions, of the line definitions and
of the constraints among themselves, not on how they are interleaved. -/
theorem C40_order_independent (l l' : List (Statement L C))
    (hs : ∀ id, sectorsNamed l id = sectorsNamed l' id)
    (hl : ∀ id, linesNamed l id = linesNamed l' id) (id : Str) :
    (airspace l).1.get? id = (airspace l').1.get? id := by
  rw [C40_sector, C40_sector, hs]
  have : (fun name => (linesNamed l name).getLast?) = fun name => (linesNamed l' name).getLast? := by
    funext n; rw [hl]
  rw [this]

/-- C40: constraints are kept in file order, both kinds in one list. -/
theorem C40_constraints (l : List (Statement L C)) : (airspace l).2 = constraintsOf l :=
  (inv_all l).constraints

/-! ## Examples -/

section Examples

def sec (id : Str) (bottom : Nat) : Sector Nat := ⟨id, bottom, 100, [], [], [], [], []⟩

/-- A line defined after the sector, an unknown line and a duplicate sector. -/
example : (airspace ([.sector [c!"a"] (sec c!"S" 1), .sectorLine c!"x" 1,
      .sector [c!"y", c!"z", c!"x"] (sec c!"S" 2), .sectorLine c!"y" 2, .sectorLine c!"x" 3] :
      List (Statement Nat Nat))).1 = [(c!"S", { sec c!"S" 2 with border := [2, 3] })] := by decide

/-- Two interleavings with the same definitions. -/
example : let l : List (Statement Nat Nat) := [.sector [c!"x"] (sec c!"S" 1), .sectorLine c!"x" 1]
    let l' : List (Statement Nat Nat) := [.sectorLine c!"x" 1, .sector [c!"x"] (sec c!"S" 1)]
    (∀ id, sectorsNamed l id = sectorsNamed l' id) ∧ (∀ id, linesNamed l id = linesNamed l' id) :=
  ⟨fun _ => rfl, fun _ => rfl⟩

end Examples

end Verif.EseAirspace
