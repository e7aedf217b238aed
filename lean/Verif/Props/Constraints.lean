import Verif.Model.Constraints
/-!
# Constraints and two-key maps: theorems

C38, C39, C42.
-/

namespace Verif.Constraints

/-- The seven fields that make up the key. -/
def keyFields (c : Constraint) :
    Option Str × Option Str × Option Str × Option Str × Option Str × Str × Str :=
  (c.previousFix, c.departureRunway, c.subsequentFix, c.arrivalRunway, c.fix, c.exitSector, c.entrySector)

/-- The optional fields. -/
def optionalFields (c : Constraint) : List (Option Str) :=
  [c.previousFix, c.departureRunway, c.subsequentFix, c.arrivalRunway, c.fix]

/-- No field contains a `#`, and no optional field is the text `*`. -/
def Plain (c : Constraint) : Prop :=
  (∀ f ∈ optionalFields c, ∀ s, f = some s → '#' ∉ s ∧ s ≠ c!"*") ∧ '#' ∉ c.exitSector

instance (c : Constraint) : Decidable (Plain c) :=
  if h : (optionalFields c).all (fun f => match f with
      | none => true
      | some s => decide ('#' ∉ s ∧ s ≠ c!"*")) = true ∧ '#' ∉ c.exitSector
  then isTrue (by
    refine ⟨?_, h.2⟩
    intro f hf s hs
    have := List.all_eq_true.1 h.1 f hf
    subst hs
    simpa using this)
  else isFalse (by
    intro hp
    apply h
    refine ⟨List.all_eq_true.2 ?_, hp.2⟩
    intro f hf
    cases hfe : f with
    | none => rfl
    | some s => simpa using hp.1 f hf s hfe)

theorem opt_inj {f g : Option Str} (hf : ∀ s, f = some s → '#' ∉ s ∧ s ≠ c!"*")
    (hg : ∀ s, g = some s → '#' ∉ s ∧ s ≠ c!"*") (h : opt f = opt g) : f = g := by
  cases f with
  | none =>
    cases g with
    | none => rfl
    | some t => exact absurd h.symm (hg t rfl).2
  | some s =>
    cases g with
    | none => exact absurd h (hf s rfl).2
    | some t => simpa [opt] using h

theorem opt_no_hash {f : Option Str} (hf : ∀ s, f = some s → '#' ∉ s ∧ s ≠ c!"*") : '#' ∉ opt f := by
  cases f with
  | none => simp [opt]
  | some s => exact (hf s rfl).1

/-- C38 (partial): for constraints without `#` and without a literal `*`, the key identifies exactly
the seven fields (previous fix, departure runway, subsequent fix, arrival runway, fix, exit sector,
entry sector).  Missing from the documented claim: levels and description are not identified
(`C38_levels_share_key`), and the two conditions are needed (`C38_collisions`). -/
theorem C38_key_iff_partial (c d : Constraint) (hc : Plain c) (hd : Plain d) :
    key c = key d ↔ keyFields c = keyFields d := by
  constructor
  · intro h
    unfold key at h
    have hc' := hc.1
    have hd' := hd.1
    simp only [optionalFields, List.mem_cons, List.not_mem_nil, or_false, forall_eq_or_imp, forall_eq] at hc' hd'
    obtain ⟨c1, c2, c3, c4, c5⟩ := hc'
    obtain ⟨d1, d2, d3, d4, d5⟩ := hd'
    obtain ⟨e1, h⟩ := sep_inj (opt_no_hash c1) (opt_no_hash d1) h
    obtain ⟨e2, h⟩ := sep_inj (opt_no_hash c2) (opt_no_hash d2) h
    obtain ⟨e3, h⟩ := sep_inj (opt_no_hash c3) (opt_no_hash d3) h
    obtain ⟨e4, h⟩ := sep_inj (opt_no_hash c4) (opt_no_hash d4) h
    obtain ⟨e5, h⟩ := sep_inj (opt_no_hash c5) (opt_no_hash d5) h
    obtain ⟨e6, e7⟩ := sep_inj hc.2 hd.2 h
    simp only [keyFields, Prod.mk.injEq]
    exact ⟨opt_inj c1 d1 e1, opt_inj c2 d2 e2, opt_inj c3 d3 e3, opt_inj c4 d4 e4, opt_inj c5 d5 e5,
      e6, e7⟩
  · intro h
    simp only [keyFields, Prod.mk.injEq] at h
    obtain ⟨h1, h2, h3, h4, h5, h6, h7⟩ := h
    simp only [key, h1, h2, h3, h4, h5, h6, h7]

/-- C38, negated: any constraint shares its key with every constraint that differs from it only in
levels and description. -/
theorem C38_levels_share_key (c : Constraint) (climb descent : Option Nat) (description : Str) :
    key { c with climbLevel := climb, descentLevel := descent, description := description } = key c :=
  rfl

/-- A constraint with the given previous fix and fix. -/
def sample (prev fix : Option Str) (exit entry : Str) : Constraint :=
  ⟨prev, none, none, none, fix, exit, entry, some 100, none, []⟩

/-- C38, negated: also constraints whose key fields differ share keys, by a literal `*` or by a `#`
inside a field. -/
theorem C38_collisions :
    (∃ c d : Constraint, keyFields c ≠ keyFields d ∧ key c = key d ∧ '#' ∉ c.exitSector ∧
      '#' ∉ d.exitSector ∧ (∀ f ∈ optionalFields c ++ optionalFields d, ∀ s, f = some s → '#' ∉ s)) ∧
    (∃ c d : Constraint, keyFields c ≠ keyFields d ∧ key c = key d ∧
      (∀ f ∈ optionalFields c ++ optionalFields d, f ≠ some c!"*")) :=
  ⟨⟨sample (some c!"*") none c!"A" c!"B", sample none none c!"A" c!"B", by simp [keyFields, sample],
      by decide, by decide, by decide, by simp [optionalFields, sample]⟩,
    ⟨sample none none c!"A#B" c!"C", sample none none c!"A" c!"B#C", by simp [keyFields, sample],
      by decide, by decide⟩⟩

/-! ## Extraction -/

theorem keyed_get (v : List Constraint) (k : Str) :
    (keyed v).get? k = (v.filter fun c => decide (key c = k)).getLast? := by
  unfold keyed Map.ofList
  rw [Map.get?_foldl_insert, ← List.map_reverse, List.find?_map]
  have : (v.filter fun c => decide (key c = k)).getLast? =
      v.reverse.find? (fun c => decide (key c = k)) := by
    rw [List.getLast?_eq_head?_reverse, ← List.filter_reverse, List.head?_filter]
  rw [this]
  have e : ((fun e : Str × Constraint => decide (e.1 = k)) ∘ fun c => (key c, c)) =
      fun c => decide (key c = k) := rfl
  rw [e]
  cases v.reverse.find? (fun c => decide (key c = k)) <;> simp

/-- C39: the departure table has under each key the last constraint with this key that has a climb
level; the destination table has under each key the last constraint with this key that has a descent
level and no climb level.  Nothing else is in the tables. -/
theorem C39_extract (cs : List Constraint) (k : Str) :
    (extract cs).1.get? k =
      (cs.filter fun c => decide (c.climbLevel ≠ none ∧ key c = k)).getLast? ∧
    (extract cs).2.get? k =
      (cs.filter fun c => decide (c.climbLevel = none ∧ c.descentLevel ≠ none ∧ key c = k)).getLast? := by
  simp only [extract, keyed_get, List.partition_eq_filter_filter, List.filter_filter]
  constructor <;> congr 1 <;> congr 1 <;> funext c <;>
    cases h1 : c.climbLevel <;> cases h2 : c.descentLevel <;> simp [h1]

/-- C39: the keys of the tables are distinct, so that every entry is found by its key. -/
theorem C39_entries (cs : List Constraint) :
    ((extract cs).1.keys).Nodup ∧ ((extract cs).2.keys).Nodup ∧
    (∀ e ∈ (extract cs).1, e.1 = key e.2 ∧ e.2 ∈ cs ∧ e.2.climbLevel ≠ none) ∧
    (∀ e ∈ (extract cs).2, e.1 = key e.2 ∧ e.2 ∈ cs ∧ e.2.climbLevel = none ∧ e.2.descentLevel ≠ none) := by
  have n1 : ((extract cs).1.keys).Nodup := Map.nodup_foldl_insert _ _ _ _ (by simp [Map.keys])
  have n2 : ((extract cs).2.keys).Nodup := Map.nodup_foldl_insert _ _ _ _ (by simp [Map.keys])
  refine ⟨n1, n2, ?_, ?_⟩
  · rintro ⟨k, c⟩ he
    have h := Map.get?_of_mem n1 he
    rw [(C39_extract cs k).1] at h
    have := List.mem_of_getLast? h
    simp only [List.mem_filter, decide_eq_true_eq] at this
    exact ⟨this.2.2.symm, this.1, this.2.1⟩
  · rintro ⟨k, c⟩ he
    have h := Map.get?_of_mem n2 he
    rw [(C39_extract cs k).2] at h
    have := List.mem_of_getLast? h
    simp only [List.mem_filter, decide_eq_true_eq] at this
    exact ⟨this.2.2.2.symm, this.1, this.2.1, this.2.2.1⟩

/-- C39: a constraint that shares its key with no other constraint is kept exactly if it has a
level. -/
theorem C39_kept_iff (cs : List Constraint) (c : Constraint) (hc : c ∈ cs)
    (huniq : ∀ d ∈ cs, key d = key c → d = c) :
    ((extract cs).1.get? (key c) = some c ↔ c.climbLevel ≠ none) ∧
    ((extract cs).2.get? (key c) = some c ↔ c.climbLevel = none ∧ c.descentLevel ≠ none) := by
  obtain ⟨h1, h2⟩ := C39_extract cs (key c)
  constructor
  · rw [h1]
    constructor
    · intro h
      have := List.mem_of_getLast? h
      simp only [List.mem_filter, decide_eq_true_eq] at this
      exact this.2.1
    · intro h
      have hne : (cs.filter fun d => decide (d.climbLevel ≠ none ∧ key d = key c)) ≠ [] :=
        List.ne_nil_of_mem (List.mem_filter.2 ⟨hc, by simpa using h⟩)
      have hm := List.getLast_mem hne
      rw [List.getLast?_eq_some_getLast hne]
      simp only [List.mem_filter, decide_eq_true_eq] at hm
      rw [huniq _ hm.1 hm.2.2]
  · rw [h2]
    constructor
    · intro h
      have := List.mem_of_getLast? h
      simp only [List.mem_filter, decide_eq_true_eq] at this
      exact ⟨this.2.1, this.2.2.1⟩
    · intro h
      have hne : (cs.filter fun d => decide (d.climbLevel = none ∧ d.descentLevel ≠ none ∧ key d = key c)) ≠ [] :=
        List.ne_nil_of_mem (List.mem_filter.2 ⟨hc, by simpa using h⟩)
      have hm := List.getLast_mem hne
      rw [List.getLast?_eq_some_getLast hne]
      simp only [List.mem_filter, decide_eq_true_eq] at hm
      rw [huniq _ hm.1 hm.2.2.2]

/-! ## Two-key maps -/

/-- C42: a two-key map is written with one entry per key pair, and no key is written twice, provided
the first keys contain no colon. -/
theorem C42_no_collisions {V : Type} (m : Map (Str × Str) V) (hm : m.keys.Nodup)
    (hc : ∀ k ∈ m.keys, ':' ∉ k.1) :
    ((serializeTwoKey m).map (·.1)).Nodup ∧
    ∀ k1 k2 v, ((k1, k2), v) ∈ m ↔ ':' ∉ k1 ∧ (k1 ++ c!":" ++ k2, v) ∈ serializeTwoKey m := by
  have inj : ∀ k ∈ m.keys, ∀ k' : Str × Str, ':' ∉ k'.1 → pairKey k = pairKey k' → k = k' := by
    intro k hk k' hk' h
    obtain ⟨h1, h2⟩ := sep_inj (hc k hk) hk' h
    exact Prod.ext h1 h2
  constructor
  · have : (serializeTwoKey m).map (·.1) = m.keys.map pairKey := by
      simp [serializeTwoKey, Map.keys, Function.comp_def]
    rw [this, List.Nodup, List.pairwise_map]
    refine List.Pairwise.imp_of_mem ?_ hm
    intro a b ha hb hab h
    exact hab (inj a ha b (hc b hb) h)
  · intro k1 k2 v
    constructor
    · intro h
      refine ⟨hc (k1, k2) (List.mem_map.2 ⟨_, h, rfl⟩), List.mem_map.2 ⟨_, h, ?_⟩⟩
      simp [pairKey]
    · rintro ⟨hk, h⟩
      obtain ⟨e, he, h2⟩ := List.mem_map.1 h
      obtain ⟨ek, ev⟩ := e
      simp only [Prod.mk.injEq] at h2
      have : pairKey ek = pairKey (k1, k2) := by rw [h2.1]; simp [pairKey]
      have := inj ek (List.mem_map.2 ⟨_, he, rfl⟩) (k1, k2) hk this
      rw [← this, ← h2.2]
      exact he

/-- C42: without that condition two key pairs may be written under the same key. -/
theorem C42_collision : ∃ m : Map (Str × Str) Nat, m.keys.Nodup ∧
    ¬ ((serializeTwoKey m).map (·.1)).Nodup :=
  ⟨[((c!"a:b", c!"c"), 1), ((c!"a", c!"b:c"), 2)], by decide, by decide⟩

/-! ## Examples -/

section Examples

/-- Two plain constraints with different keys. -/
example : Plain (sample (some c!"X") none c!"A" c!"B") ∧ Plain (sample none (some c!"X") c!"A" c!"B") ∧
    key (sample (some c!"X") none c!"A" c!"B") ≠ key (sample none (some c!"X") c!"A" c!"B") := by decide

/-- The second of two constraints with the same key wins. -/
example : (extract [sample none none c!"A" c!"B",
      { sample none none c!"A" c!"B" with climbLevel := some 200 }]).1.get? (c!"*#*#*#*#*#A#B") =
    some { sample none none c!"A" c!"B" with climbLevel := some 200 } := by decide

example : let m : Map (Str × Str) Nat := [((c!"Settings", c!"sector:x"), 1), ((c!"Settings", c!"y"), 2)]
    m.keys.Nodup ∧ ∀ k ∈ m.keys, ':' ∉ k.1 := by decide

end Examples

end Verif.Constraints
