import Verif.Proofs.TwoKey
import Verif.Props.Asr
import Verif.Props.Symbology
/-!
# Two-key maps as they are written

C42 for the three kinds of files whose results contain such a map, and C102 for two-key multimaps.
-/

namespace Verif.Props
open Verif.Peg Verif.Parse Verif.Proofs Verif.Constraints

/-- What is written tells the whole map: no key twice, and the value of every pair of keys is found under
`k1:k2`. -/
def WrittenFaithfully {V : Type} (m : Map (Str × Str) V) (written : List (Str × V)) : Prop :=
  (written.map (·.1)).Nodup ∧
  ∀ k1 k2 v, m.get? (k1, k2) = some v ↔ ':' ∉ k1 ∧ (k1 ++ c!":" ++ k2, v) ∈ written

theorem faithful {V : Type} {m : Map (Str × Str) V} (h : TwoKey.Good m) : WrittenFaithfully m (serializeTwoKey m) := by
  obtain ⟨h1, h2⟩ := C42_no_collisions m h.1 h.2
  refine ⟨h1, fun k1 k2 v => ?_⟩
  rw [← h2]
  exact ⟨Map.mem_of_get?, Map.get?_of_mem h.1⟩

/-- C42 for profiles: whatever the text, the settings read from it are written without loss. -/
theorem C42_prf [UnicodeTables] (content : Str) (m : Prf.Settings) (h : Prf.parsePrf content = .ok m) :
    WrittenFaithfully m (serializeTwoKey m) := faithful (TwoKey.prf_good h)

/-- C42 for ASR files: the plugin settings. -/
theorem C42_asr {F : Type} [F64 F] (content : Str) (a : Asr.Asr F) (h : Asr.parse content = .ok a) :
    WrittenFaithfully a.pluginSettings (serializeTwoKey a.pluginSettings) := faithful (TwoKey.asr_good h)

/-- C42 for symbology files: the items. -/
theorem C42_symbology {F G : Type} [F64 F] [F64 G] [SymbolRule.Close F] (content : Str) (s : Symbology.Symbology F G)
    (h : Symbology.parse content = .ok s) :
    WrittenFaithfully s.items (serializeTwoKey s.items) := faithful (TwoKey.symbology_good h)

/-! ## Two-key multimaps -/

/-- The multimap that is made by these insertions, in this order. -/
def inserted {V : Type} (l : List ((Str × Str) × V)) : MultiMap (Str × Str) V :=
  l.foldl (fun m e => MultiMap.insert m e.1 e.2) []

/-- The values inserted under a pair of keys, in order. -/
def valuesOf {V : Type} (l : List ((Str × Str) × V)) (k : Str × Str) : List V :=
  (l.filter fun e => decide (e.1 = k)).map (·.2)

/-- A vector is written as its first value. -/
theorem written_heads {V : Type} : ∀ m : MultiMap (Str × Str) V, (∀ e ∈ m, e.2 ≠ []) →
    ∃ h : Map (Str × Str) V, serializeTwoKeyMulti m = .ok (serializeTwoKey h) ∧ h.keys = m.keys ∧
      ∀ k v, (k, v) ∈ h ↔ ∃ vs, (k, v :: vs) ∈ m
  | [], _ => ⟨[], rfl, rfl, by simp⟩
  | (k, []) :: m, hm => absurd rfl (hm _ List.mem_cons_self)
  | (k, v :: vs) :: m, hm => by
    obtain ⟨h, h1, h2, h3⟩ := written_heads m fun e he => hm e (List.mem_cons_of_mem _ he)
    refine ⟨(k, v) :: h, ?_, ?_, fun k' v' => ?_⟩
    · simp only [serializeTwoKeyMulti] at h1
      simp only [serializeTwoKeyMulti, List.mapM_cons, h1]
      rfl
    · simp only [Map.keys, List.map_cons] at h2 ⊢
      rw [h2]
    · simp only [List.mem_cons, Prod.mk.injEq, h3]
      constructor
      · rintro (⟨rfl, rfl⟩ | ⟨ws, hw⟩)
        · exact ⟨vs, Or.inl ⟨rfl, rfl⟩⟩
        · exact ⟨ws, Or.inr hw⟩
      · rintro ⟨ws, ⟨rfl, hw⟩ | hw⟩
        · cases hw
          exact Or.inl ⟨rfl, rfl⟩
        · exact Or.inr ⟨ws, hw⟩

/-- What insertions make: distinct keys from the list, and no empty vector. -/
theorem inserted_inv {V : Type} (l : List ((Str × Str) × V)) (hc : ∀ e ∈ l, ':' ∉ e.1.1) :
    TwoKey.Good (inserted l) ∧ ∀ k, Map.get? (inserted l) k ≠ some [] := by
  have : ∀ (l : List ((Str × Str) × V)) (m : MultiMap (Str × Str) V), (∀ e ∈ l, ':' ∉ e.1.1) → TwoKey.Good m →
      (∀ k, Map.get? m k ≠ some []) →
      TwoKey.Good (l.foldl (fun m e => MultiMap.insert m e.1 e.2) m) ∧
        ∀ k, Map.get? (l.foldl (fun m e => MultiMap.insert m e.1 e.2) m) k ≠ some [] := by
    intro l
    induction l with
    | nil => intro m _ hm hn; exact ⟨hm, hn⟩
    | cons e l ih =>
      intro m hl hm hn
      refine ih _ (fun e he => hl e (List.mem_cons_of_mem _ he)) (TwoKey.good_insert hm (hl e List.mem_cons_self) _) fun k => ?_
      show Map.get? (Map.insert m e.1 _) k ≠ some []
      rw [Map.get?_insert]
      split
      · simp
      · exact hn k
  exact this l [] hc TwoKey.good_nil (by simp)

/-- C102: a multimap made by insertions is written, without a panic, with one entry per pair of keys,
which has the value that was inserted first. -/
theorem C102_first_values_partial {V : Type} (l : List ((Str × Str) × V)) (hc : ∀ e ∈ l, ':' ∉ e.1.1) :
    ∃ w, serializeTwoKeyMulti (inserted l) = .ok w ∧ (w.map (·.1)).Nodup ∧
      ∀ k1 k2 v, (valuesOf l (k1, k2)).head? = some v ↔ ':' ∉ k1 ∧ (k1 ++ c!":" ++ k2, v) ∈ w := by
  obtain ⟨hg, hn⟩ := inserted_inv l hc
  obtain ⟨h, h1, h2, h3⟩ := written_heads (inserted l) fun e he hv =>
    hn e.1 (Map.get?_of_mem hg.1 (by rw [← hv]; exact he))
  have hgood : TwoKey.Good h := ⟨by rw [h2]; exact hg.1, by rw [h2]; exact hg.2⟩
  obtain ⟨f1, f2⟩ := faithful hgood
  refine ⟨_, h1, f1, fun k1 k2 v => ?_⟩
  rw [← f2, ← Map.mem_iff_get? hgood.1, h3]
  have hv : MultiMap.getVec (inserted l) (k1, k2) = valuesOf l (k1, k2) := by
    rw [inserted, MultiMap.getVec_foldl_insert]
    rfl
  rw [← hv, MultiMap.getVec]
  constructor
  · intro hh
    cases hx : Map.get? (inserted l) (k1, k2) with
    | none => rw [hx] at hh; cases hh
    | some vs =>
      rw [hx] at hh
      cases vs with
      | nil => cases hh
      | cons v' vs =>
        cases hh
        exact ⟨vs, Map.mem_of_get? hx⟩
  · rintro ⟨vs, hm⟩
    rw [Map.get?_of_mem hg.1 hm]
    rfl

/-- C102: every value but the first of its pair of keys is lost. -/
theorem C102_others_lost {V : Type} (l : List ((Str × Str) × V)) (hc : ∀ e ∈ l, ':' ∉ e.1.1) (w : List (Str × V))
    (hw : serializeTwoKeyMulti (inserted l) = .ok w) (k1 k2 : Str) (hk : ':' ∉ k1) (v0 v : V) (vs : List V)
    (hv : valuesOf l (k1, k2) = v0 :: vs) (hne : v ≠ v0) : (k1 ++ c!":" ++ k2, v) ∉ w := by
  obtain ⟨w', h1, _, h3⟩ := C102_first_values_partial l hc
  rw [hw] at h1
  cases h1
  intro hm
  have := (h3 k1 k2 v).2 ⟨hk, hm⟩
  rw [hv] at this
  exact hne (by simpa using this.symm)

/-- C102: with an empty vector, which insertions do not make, nothing is written and the program stops. -/
theorem C102_empty_vector {V : Type} (a b : MultiMap (Str × Str) V) (k : Str × Str) (ha : ∀ e ∈ a, e.2 ≠ []) :
    serializeTwoKeyMulti (a ++ (k, []) :: b) = .error .panic := by
  obtain ⟨h, h1, _, _⟩ := written_heads a ha
  simp only [serializeTwoKeyMulti] at h1
  simp only [serializeTwoKeyMulti, List.mapM_append, List.mapM_cons, h1]
  rfl

/-! ## Examples -/

section Examples

attribute [local instance] asciiTables

/-- A profile whose second setting replaces the first. -/
example : (Prf.parsePrf c!"Settings\tsector\tA.sct\nSettings\tsector\tB.sct\n").map serializeTwoKey =
    .ok [(c!"Settings:sector", c!"B.sct")] := by decide +kernel

/-- Two values under one pair of keys, and one under another. -/
example : serializeTwoKeyMulti (inserted [((c!"a", c!"b"), 1), ((c!"c", c!"d"), 2), ((c!"a", c!"b"), 3)]) =
    .ok [(c!"a:b", 1), (c!"c:d", 2)] := by rfl

example : ∀ e ∈ [((c!"a", c!"b"), 1), ((c!"c", c!"d"), 2), ((c!"a", c!"b"), 3)], ':' ∉ e.1.1 := by decide

example : valuesOf [((c!"a", c!"b"), 1), ((c!"c", c!"d"), 2), ((c!"a", c!"b"), 3)] (c!"a", c!"b") = [1, 3] := by decide

end Examples
end Verif.Props
