import Verif.Proofs.Maps
/-! # Folders (helper lemmas) -/

set_option linter.unusedSectionVars false

namespace Verif.Maps
open World Spec
variable [World]

theorem insert_new {K V : Type} [DecidableEq K] (m : Map K V) (k : K) (v : V)
    (h : m.get? k = none) : m.insert k v = m ++ [(k, v)] := by
  induction m with
  | nil => rfl
  | cons e m ih =>
    obtain ⟨a, b⟩ := e
    simp only [Map.get?] at h
    split at h
    · cases h
    · next hne =>
      simp only [Map.insert, hne, if_false, List.cons_append]
      rw [ih h]

theorem contains_iff {V : Type} (m : Map Str V) (k : Str) :
    Map.contains m k = true ↔ k ∈ Map.keys m := by
  unfold Map.contains
  by_cases h : k ∈ Map.keys m
  · cases hg : Map.get? m k with
    | none => exact absurd h (Map.get?_eq_none_iff.1 hg)
    | some v => simp [h]
  · rw [Map.get?_eq_none_iff.2 h]; simp [h]

theorem freeSuffix_some (maps : Map Str MapV) (name : Str) (fuel i k : Nat)
    (h : freeSuffix maps name fuel i = some k) :
    i ≤ k ∧ suffixed name k ∉ Map.keys maps ∧
      ∀ j, i ≤ j → j < k → suffixed name j ∈ Map.keys maps := by
  induction fuel generalizing i with
  | zero => cases h
  | succ fuel ih =>
    simp only [freeSuffix] at h
    split at h
    · next hc =>
      obtain ⟨h1, h2, h3⟩ := ih _ h
      refine ⟨by omega, h2, ?_⟩
      intro j hj hjk
      by_cases e : j = i
      · subst e; exact (contains_iff _ _).1 hc
      · exact h3 j (by omega) hjk
    · next hc =>
      cases h
      refine ⟨Nat.le_refl _, fun hm => hc ((contains_iff _ _).2 hm), fun j h1 h2 => by omega⟩

theorem freeSuffix_none (maps : Map Str MapV) (name : Str) (fuel i : Nat)
    (h : freeSuffix maps name fuel i = none) :
    ∀ j, i ≤ j → j < i + fuel → suffixed name j ∈ Map.keys maps := by
  induction fuel generalizing i with
  | zero => intro j h1 h2; omega
  | succ fuel ih =>
    simp only [freeSuffix] at h
    split at h
    · next hc =>
      intro j h1 h2
      by_cases e : j = i
      · subst e; exact (contains_iff _ _).1 hc
      · exact ih _ h j (by omega) (by omega)
    · cases h

theorem suffixed_inj {name : Str} {i j : Nat} (h : suffixed name i = suffixed name j) : i = j := by
  unfold suffixed at h
  have := List.append_cancel_left h
  simp only [List.cons.injEq, true_and] at this
  exact showNat_inj this

theorem freeSuffix_exists (maps : Map Str MapV) (name : Str) (i : Nat) :
    ∃ k, freeSuffix maps name (maps.length + 1) i = some k := by
  cases h : freeSuffix maps name (maps.length + 1) i with
  | some k => exact ⟨k, rfl⟩
  | none =>
    exfalso
    have hall := freeSuffix_none maps name _ i h
    have hnd : ((List.range (maps.length + 1)).map fun j => suffixed name (i + j)).Nodup := by
      rw [List.nodup_iff_pairwise_ne, List.pairwise_map]
      apply List.Pairwise.imp _ List.nodup_range
      intro a b hab hs
      have := suffixed_inj hs
      exact hab (by omega)
    have hsub : ((List.range (maps.length + 1)).map fun j => suffixed name (i + j)) ⊆ Map.keys maps := by
      intro x hx
      rw [List.mem_map] at hx
      obtain ⟨j, hj, rfl⟩ := hx
      rw [List.mem_range] at hj
      exact hall _ (by omega) (by omega)
    have := List.Nodup.length_le_of_subset hnd hsub
    simp only [Map.keys, List.length_map, List.length_range] at this
    omega

/-- The name given in an existing folder. -/
theorem freeName_spec (maps : Map Str MapV) (name : Str) :
    ∃ given, freeName maps name = .ok given ∧ IsNameFor (Map.keys maps) name given ∧
      given ∉ Map.keys maps := by
  unfold freeName
  split
  · next hc =>
    obtain ⟨k, hk⟩ := freeSuffix_exists maps name 2
    rw [hk]
    obtain ⟨h1, h2, h3⟩ := freeSuffix_some maps name _ _ _ hk
    exact ⟨_, rfl, .inr ⟨(contains_iff _ _).1 hc, k, h1, rfl, h2, h3⟩, h2⟩
  · next hc =>
    have : name ∉ Map.keys maps := fun h => hc ((contains_iff _ _).2 h)
    exact ⟨_, rfl, .inl ⟨this, rfl⟩, this⟩

theorem areNames_snoc {names given : List Str} {n g : Str} (h : AreNamesFor names given)
    (hn : IsNameFor given n g) : AreNamesFor (names ++ [n]) (given ++ [g]) := by
  obtain ⟨h1, h2⟩ := h
  refine ⟨by simp [h1], ?_⟩
  intro i hi hi'
  simp only [List.length_append, List.length_cons, List.length_nil] at hi
  by_cases e : i < names.length
  · rw [List.getElem_append_left e, List.getElem_append_left (by omega),
      List.take_append_of_le_length (by omega)]
    exact h2 i e (by omega)
  · have : i = names.length := by omega
    subst this
    rw [List.getElem_append_right (by omega), List.getElem_append_right (by omega)]
    simp only [h1, Nat.sub_self, List.getElem_cons_zero, List.take_left]
    exact hn

/-- The entries of a folder: the maps of that folder with the given names. -/
def entries (ms : List MapV) (given : List Str) : Map Str MapV :=
  List.zipWith (fun (m : MapV) n => (n, { m with name := n })) ms given

theorem entries_keys {ms : List MapV} {given : List Str} (h : ms.length = given.length) :
    Map.keys (entries ms given) = given := by
  induction ms generalizing given with
  | nil => cases given with
    | nil => rfl
    | cons _ _ => cases h
  | cons m ms ih =>
    cases given with
    | nil => cases h
    | cons g given =>
      simp only [entries, List.zipWith_cons_cons, Map.keys, List.map_cons, List.cons.injEq, true_and]
      exact ih (by simpa using h)

theorem entries_snoc {ms : List MapV} {given : List Str} (h : ms.length = given.length) (m : MapV)
    (n : Str) : entries (ms ++ [m]) (given ++ [n]) = entries ms given ++ [(n, { m with name := n })] := by
  unfold entries
  rw [List.zipWith_append h]
  rfl

/-- The folder holding the maps `ms` (all of the folder `f`). -/
def FolderOk (s : Settings) (overrides : List OverrideSct) (f : Str) (ms : List MapV) :
    Option Folder → Prop
  | none => ms = []
  | some fd => ms ≠ [] ∧ fd.name = f ∧ (fd.hidden = (f == s.autoFolder || overrides.contains ⟨f, none⟩)) ∧
      ∃ given, AreNamesFor (ms.map (·.name)) given ∧ given.Nodup ∧ fd.maps = entries ms given

theorem addMap_ok (s : Settings) (overrides : List OverrideSct) (folders : Map Str Folder)
    (ms : List MapV) (m : MapV)
    (h : ∀ f, FolderOk s overrides f (ms.filter fun x => x.folder = f) (folders.get? f)) :
    ∃ folders', addMap s overrides folders m = .ok folders' ∧
      ∀ f, FolderOk s overrides f ((ms ++ [m]).filter fun x => x.folder = f) (folders'.get? f) := by
  have hm := h m.folder
  unfold addMap
  cases hg : folders.get? m.folder with
  | none =>
    rw [hg] at hm
    simp only [FolderOk] at hm
    refine ⟨_, rfl, ?_⟩
    intro f
    rw [Map.get?_insert, List.filter_append]
    by_cases e : m.folder = f
    · subst e
      rw [hm]
      simp only [if_true, List.filter_cons, decide_true, List.filter_nil, List.nil_append, FolderOk]
      refine ⟨by simp, trivial, trivial, [m.name], ⟨rfl, ?_⟩, by simp, rfl⟩
      intro i hi hi'
      simp only [List.map_cons, List.map_nil, List.length_cons, List.length_nil] at hi
      have : i = 0 := by omega
      subst this
      exact .inl ⟨by simp, rfl⟩
    · simp only [e, if_false, List.filter_cons, decide_false, List.filter_nil, List.append_nil,
        Bool.false_eq_true]
      exact h f
  | some fd =>
    rw [hg] at hm
    obtain ⟨hne, hname, hhid, given, hgiv, hnd, hmaps⟩ := hm
    obtain ⟨n, hn, hfor, hnew⟩ := freeName_spec fd.maps m.name
    have hlen : (ms.filter fun x => x.folder = m.folder).length = given.length := by
      have := hgiv.1; simpa using this
    have hkeys : Map.keys fd.maps = given := by rw [hmaps]; exact entries_keys hlen
    simp only [hn, run_ok_bind]
    refine ⟨_, rfl, ?_⟩
    intro f
    rw [Map.get?_insert, List.filter_append]
    by_cases e : m.folder = f
    · subst e
      simp only [if_true, List.filter_cons, decide_true, List.filter_nil, FolderOk]
      refine ⟨by simp, hname, hhid, given ++ [n], ?_, ?_, ?_⟩
      · rw [List.map_append]
        rw [hkeys] at hfor
        exact areNames_snoc hgiv hfor
      · rw [List.nodup_append]
        refine ⟨hnd, by simp, ?_⟩
        intro a ha b hb
        simp only [List.mem_cons, List.not_mem_nil, or_false] at hb
        rw [hb]
        intro hab
        exact hnew (by rw [hkeys, ← hab]; exact ha)
      · rw [entries_snoc hlen, ← hmaps]
        exact insert_new _ _ _ (Map.get?_eq_none_iff.2 hnew)
    · simp only [e, if_false, List.filter_cons, decide_false, List.filter_nil, List.append_nil,
        Bool.false_eq_true]
      exact h f

theorem addMaps_ok (s : Settings) (overrides : List OverrideSct) (folders : Map Str Folder)
    (ms l : List MapV)
    (h : ∀ f, FolderOk s overrides f (ms.filter fun x => x.folder = f) (folders.get? f)) :
    ∃ folders', addMaps s overrides folders l = .ok folders' ∧
      ∀ f, FolderOk s overrides f ((ms ++ l).filter fun x => x.folder = f) (folders'.get? f) := by
  induction l generalizing folders ms with
  | nil => exact ⟨folders, rfl, by simpa using h⟩
  | cons m l ih =>
    obtain ⟨folders1, h1, h2⟩ := addMap_ok s overrides folders ms m h
    obtain ⟨folders2, h3, h4⟩ := ih folders1 (ms ++ [m]) h2
    refine ⟨folders2, by simp only [addMaps, h1, run_ok_bind, h3], ?_⟩
    simpa using h4

end Verif.Maps
