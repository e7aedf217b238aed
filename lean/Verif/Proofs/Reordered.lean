import Verif.Proofs.Joined
import Verif.Spec.Reordered
/-!
# Blocks of lines in another order
-/

namespace Verif.Proofs.Reordered
open Verif.Spec Verif.Proofs.Joined

/-- A kind of file that can be cut behind every line feed. -/
structure Cuts {D : Type} (file : Str → List D → Prop) : Prop where
  nil : ∀ ds, file [] ds ↔ ds = []
  cut : ∀ u v ds, file (u ++ '\n' :: v) ds ↔ ∃ d1 d2, ds = d1 ++ d2 ∧ file (u ++ ['\n']) d1 ∧ file v d2

variable {D : Type} {file : Str → List D → Prop}

theorem Cuts.whole (h : Cuts file) {u v : Str} (hu : WholeLines u) (ds : List D) :
    file (u ++ v) ds ↔ ∃ d1 d2, ds = d1 ++ d2 ∧ file u d1 ∧ file v d2 := by
  rcases hu with rfl | ⟨t, rfl⟩
  · constructor
    · intro hf; exact ⟨[], ds, rfl, (h.nil _).2 rfl, hf⟩
    · rintro ⟨d1, d2, rfl, h1, h2⟩
      rw [(h.nil _).1 h1]
      exact h2
  · have := h.cut t v ds
    rwa [show t ++ '\n' :: v = t ++ ['\n'] ++ v by simp] at this

/-- The blocks `a` and `b` change places. -/
theorem Cuts.swap (h : Cuts file) {u a b v : Str} (hu : WholeLines u) (ha : WholeLines a) (hb : WholeLines b) {ds : List D}
    (hf : file (u ++ a ++ b ++ v) ds) :
    ∃ d1 d2 d3 d4, ds = d1 ++ (d2 ++ (d3 ++ d4)) ∧ file a d2 ∧ file b d3 ∧ file (u ++ b ++ a ++ v) (d1 ++ (d3 ++ (d2 ++ d4))) := by
  simp only [List.append_assoc] at hf ⊢
  obtain ⟨d1, r1, rfl, f1, hf⟩ := (h.whole hu _).1 hf
  obtain ⟨d2, r2, rfl, f2, hf⟩ := (h.whole ha _).1 hf
  obtain ⟨d3, d4, rfl, f3, f4⟩ := (h.whole hb _).1 hf
  exact ⟨d1, d2, d3, d4, rfl, f2, f3, (h.whole hu _).2 ⟨_, _, rfl, f1, (h.whole hb _).2 ⟨_, _, rfl, f3, (h.whole ha _).2 ⟨_, _, rfl, f2, f4⟩⟩⟩⟩

theorem icao_cuts {rest : Str → Prop} {line last : D → Str → Prop} (h : Lines rest line last) : Cuts (Icao.IsFile rest line last) :=
  ⟨fun _ => ⟨icao_nil h, fun e => e ▸ .blanks [] h.nil⟩, fun _ _ _ => icao_iff h⟩

theorem ended_nil {blank : Str → Prop} {line : D → Str → Prop} {ds : List D} (hf : Ended blank line [] ds) : ds = [] := by
  generalize e : ([] : Str) = t at hf
  cases hf with
  | last => rfl
  | blank b nl rest ws _ h => rcases h with rfl | rfl | ⟨rfl, _⟩ <;> simp at e
  | line w t nl rest ws _ h => rcases h with rfl | rfl | ⟨rfl, _⟩ <;> simp at e

theorem isec_cuts : Cuts Isec.IsFile :=
  ⟨fun _ => ⟨fun h => ended_nil (isec_ended.1 h), fun e => e ▸ .last [] ⟨[], [], rfl, by simp [Isec.IsSpaces], Or.inl rfl⟩⟩, fun _ _ _ => isec_iff⟩

theorem airway_cuts : Cuts Airway.IsFile :=
  ⟨fun _ => ⟨fun h => ended_nil (airway_ended.1 h), fun e => e ▸ .last [] (Or.inl rfl)⟩, fun _ _ _ => airway_iff⟩

theorem prf_cuts [UnicodeTables] : Cuts Prf.IsFile := by
  refine ⟨fun ws => ⟨fun h => ?_, fun e => e ▸ .last [] (by simp)⟩, fun _ _ _ => prf_iff⟩
  generalize e : ([] : Str) = t at h
  cases h with
  | last => rfl
  | lastLine w t h =>
    obtain ⟨b0, b1, b2, h, _, _, _, h1, _⟩ := h
    rw [h] at e
    simp at e
    exact absurd e.2.1 h1
  | blank => simp at e
  | line => simp at e

/-- The first of each name, if two parts of the list change places. -/
theorem first_swap {name : D → Str} {l1 l2 l3 l4 : List D} {k : Str} :
    Icao.first name (l1 ++ (l3 ++ (l2 ++ l4))) k = Icao.first name (l1 ++ (l2 ++ (l3 ++ l4))) k ∨
    ((Icao.first name l2 k).isSome ∧ (Icao.first name l3 k).isSome) := by
  have ap : ∀ a b : List D, Icao.first name (a ++ b) k = (Icao.first name a k).or (Icao.first name b k) := fun _ _ => List.find?_append ..
  simp only [ap]
  cases Icao.first name l1 k <;> cases Icao.first name l2 k <;> cases Icao.first name l3 k <;> simp

/-- The last of each key, if two parts of the list change places. -/
theorem last_swap {p : D → Bool} {l1 l2 l3 l4 : List D} :
    ((l1 ++ (l3 ++ (l2 ++ l4))).filter p).getLast? = ((l1 ++ (l2 ++ (l3 ++ l4))).filter p).getLast? ∨
    (((l2.filter p).getLast?).isSome ∧ ((l3.filter p).getLast?).isSome) := by
  simp only [List.filter_append, List.getLast?_append]
  cases (l1.filter p).getLast? <;> cases (l2.filter p).getLast? <;> cases (l3.filter p).getLast? <;> cases (l4.filter p).getLast? <;> simp

end Verif.Proofs.Reordered
