import Verif.Base.Core
/-!
# Finite maps

`HashMap` is modelled by an association list.  Only the observable operations
(`get`, `insert`, `entry`) are used; where the code iterates over a `HashMap`
the model quantifies over an arbitrary permutation of the entries.
-/

namespace Verif

abbrev Map (K V : Type) := List (K × V)

namespace Map
variable {K V : Type} [DecidableEq K]

/-- `HashMap::get` -/
def get? (m : Map K V) (k : K) : Option V :=
  match m with
  | [] => none
  | (k', v) :: m => if k' = k then some v else get? m k

/-- `HashMap::insert` (replaces the value of an existing key). -/
def insert (m : Map K V) (k : K) (v : V) : Map K V :=
  match m with
  | [] => [(k, v)]
  | (k', v') :: m => if k' = k then (k, v) :: m else (k', v') :: insert m k v

/-- `HashMap::contains_key` -/
def contains (m : Map K V) (k : K) : Bool := (get? m k).isSome

def keys (m : Map K V) : List K := m.map (·.1)

/-- `entry(k).or_insert(v)` used as a statement: keeps an existing value. -/
def insertIfNew (m : Map K V) (k : K) (v : V) : Map K V :=
  match get? m k with
  | some _ => m
  | none => insert m k v

/-- `iter.collect::<HashMap<_,_>>()`: inserts in order, later entries win. -/
def ofList (l : List (K × V)) : Map K V := l.foldl (fun m e => insert m e.1 e.2) []

@[simp] theorem get?_nil (k : K) : get? ([] : Map K V) k = none := rfl

theorem get?_insert (m : Map K V) (k k' : K) (v : V) :
    get? (insert m k v) k' = if k = k' then some v else get? m k' := by
  induction m with
  | nil => simp [insert, get?]
  | cons e m ih =>
    obtain ⟨a, b⟩ := e
    by_cases h : a = k
    · subst h; by_cases h2 : a = k' <;> simp [insert, get?, h2]
    · by_cases h2 : a = k'
      · have : ¬ k = k' := by intro h3; exact h (h2.trans h3.symm)
        have h5 : ¬ k' = k := fun h3 => this h3.symm
        subst h2
        simp [insert, get?, h5, this]
      · simp only [insert, h, if_false, get?, h2, ih]

@[simp] theorem get?_insert_self (m : Map K V) (k : K) (v : V) :
    get? (insert m k v) k = some v := by simp [get?_insert]

theorem get?_insert_ne (m : Map K V) {k k' : K} (v : V) (h : k ≠ k') :
    get? (insert m k v) k' = get? m k' := by simp [get?_insert, h]

theorem mem_of_get? {m : Map K V} {k : K} {v : V} (h : get? m k = some v) : (k, v) ∈ m := by
  induction m with
  | nil => simp at h
  | cons e m ih =>
    obtain ⟨a, b⟩ := e
    simp only [get?] at h
    split at h
    · next h2 => subst h2; cases h; simp
    · exact List.mem_cons_of_mem _ (ih h)

theorem get?_eq_none_iff {m : Map K V} {k : K} : get? m k = none ↔ k ∉ keys m := by
  induction m with
  | nil => simp [keys]
  | cons e m ih =>
    obtain ⟨a, b⟩ := e
    simp only [get?, keys, List.map_cons, List.mem_cons, not_or]
    split
    · next h => simp [h]
    · next h =>
      simp only [keys] at ih
      rw [ih]; constructor
      · intro h2; exact ⟨fun h3 => h h3.symm, h2⟩
      · exact fun h2 => h2.2

theorem get?_of_mem {m : Map K V} (hn : (keys m).Nodup) {k : K} {v : V} (h : (k, v) ∈ m) :
    get? m k = some v := by
  induction m with
  | nil => simp at h
  | cons e m ih =>
    obtain ⟨a, b⟩ := e
    simp only [keys, List.map_cons, List.nodup_cons] at hn
    simp only [get?]
    rcases List.mem_cons.1 h with h | h
    · cases h; simp
    · have : a ≠ k := by
        intro h2; subst h2
        exact hn.1 (List.mem_map.2 ⟨(a, v), h, rfl⟩)
      simp [this, ih hn.2 h]

theorem mem_iff_get? {m : Map K V} (hn : (keys m).Nodup) {k : K} {v : V} :
    (k, v) ∈ m ↔ get? m k = some v := ⟨get?_of_mem hn, mem_of_get?⟩

theorem mem_keys_insert {m : Map K V} {k k' : K} {v : V} :
    k' ∈ keys (insert m k v) ↔ k' = k ∨ k' ∈ keys m := by
  induction m with
  | nil => simp [keys, insert]
  | cons e m ih =>
    obtain ⟨a, b⟩ := e
    simp only [keys] at ih
    by_cases h : a = k
    · subst h; simp [keys, insert]
    · simp only [keys, insert, h, if_false, List.map_cons, List.mem_cons, ih]
      constructor
      · rintro (h | h | h) <;> simp [h]
      · rintro (h | h | h) <;> simp [h]

theorem nodup_insert {m : Map K V} (hn : (keys m).Nodup) (k : K) (v : V) :
    (keys (insert m k v)).Nodup := by
  induction m with
  | nil => simp [keys, insert]
  | cons e m ih =>
    obtain ⟨a, b⟩ := e
    by_cases h : a = k
    · subst h; simpa [keys, insert] using hn
    · simp only [insert, h, if_false, keys, List.map_cons, List.nodup_cons] at hn ⊢
      refine ⟨?_, ih hn.2⟩
      intro h2
      have := mem_keys_insert.1 h2
      rcases this with h3 | h3
      · exact h h3
      · exact hn.1 h3

theorem get?_insertIfNew (m : Map K V) (k k' : K) (v : V) :
    get? (insertIfNew m k v) k' = if k = k' then some ((get? m k).getD v) else get? m k' := by
  unfold insertIfNew
  split
  · next w h => by_cases h2 : k = k'
                · subst h2; simp [h]
                · simp [h2]
  · next h => by_cases h2 : k = k'
              · subst h2; simp [h]
              · simp [get?_insert, h2]

/-- Fold of insertions: the last entry with the key wins over the initial map. -/
theorem get?_foldl_insert {E : Type} (l : List E) (key : E → K) (val : E → V) (m : Map K V) (k : K) :
    get? (l.foldl (fun m e => insert m (key e) (val e)) m) k =
      match l.reverse.find? (fun e => decide (key e = k)) with
      | some e => some (val e)
      | none => get? m k := by
  induction l generalizing m with
  | nil => simp
  | cons e l ih =>
    simp only [List.foldl_cons, List.reverse_cons, List.find?_append, ih]
    cases h : l.reverse.find? (fun e => decide (key e = k)) with
    | some e' => simp
    | none =>
      by_cases h2 : key e = k
      · simp [h2]
      · simp [h2, get?_insert]

/-- Fold of or-insertions: the first entry with the key wins, after the initial map. -/
theorem get?_foldl_insertIfNew {E : Type} (l : List E) (key : E → K) (val : E → V) (m : Map K V)
    (k : K) :
    get? (l.foldl (fun m e => insertIfNew m (key e) (val e)) m) k =
      match get? m k with
      | some v => some v
      | none => (l.find? (fun e => decide (key e = k))).map val := by
  induction l generalizing m with
  | nil => simp; cases get? m k <;> rfl
  | cons e l ih =>
    simp only [List.foldl_cons, ih, get?_insertIfNew]
    by_cases h : key e = k
    · subst h
      cases get? m (key e) <;> simp
    · cases get? m k <;> simp [h]

theorem nodup_foldl_insert {E : Type} (l : List E) (key : E → K) (val : E → V) (m : Map K V)
    (hn : (keys m).Nodup) :
    (keys (l.foldl (fun m e => insert m (key e) (val e)) m)).Nodup := by
  induction l generalizing m with
  | nil => exact hn
  | cons e l ih => exact ih _ (nodup_insert hn _ _)

theorem nodup_insertIfNew {m : Map K V} (hn : (keys m).Nodup) (k : K) (v : V) :
    (keys (insertIfNew m k v)).Nodup := by
  unfold insertIfNew; split
  · exact hn
  · exact nodup_insert hn k v

end Map

/-! ## Multi maps (`multimap::MultiMap`): each key owns the vector of its values in insertion order. -/

abbrev MultiMap (K V : Type) := Map K (List V)

namespace MultiMap
variable {K V : Type} [DecidableEq K]

/-- `MultiMap::insert` : appends the value to the vector of the key. -/
def insert (m : MultiMap K V) (k : K) (v : V) : MultiMap K V :=
  Map.insert m k (((Map.get? m k).getD []) ++ [v])

/-- `MultiMap::get_vec` (absent key = empty vector). -/
def getVec (m : MultiMap K V) (k : K) : List V := (Map.get? m k).getD []

/-- `MultiMap::get` : the first value stored for the key. -/
def get (m : MultiMap K V) (k : K) : Option V := (getVec m k).head?

theorem getVec_insert (m : MultiMap K V) (k k' : K) (v : V) :
    getVec (insert m k v) k' = if k = k' then getVec m k ++ [v] else getVec m k' := by
  unfold getVec insert
  rw [Map.get?_insert]
  split <;> simp

theorem getVec_foldl_insert {E : Type} (l : List E) (key : E → K) (val : E → V)
    (m : MultiMap K V) (k : K) :
    getVec (l.foldl (fun m e => insert m (key e) (val e)) m) k =
      getVec m k ++ (l.filter (fun e => decide (key e = k))).map val := by
  induction l generalizing m with
  | nil => simp
  | cons e l ih =>
    simp only [List.foldl_cons, ih, getVec_insert]
    by_cases h : key e = k
    · subst h; simp
    · simp [h]

end MultiMap
end Verif
