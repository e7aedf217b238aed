import Verif.Proofs.Quantize
import Verif.Props.AirwayGraph
/-!
# C95: when two positions are the same

Every statement is for any arithmetic within the error bound of doubles, `Rounding`; `Props/Binary64` shows that the arithmetic of
doubles is one.
-/

namespace Verif.Props
open Verif.Model Verif.Model.Rounding Verif.Spec.Quantize Verif.Spec.SctWrite
open Verif.AirwayGraph (Fix Segment Graph build quantize Quantize)
open Verif.AirwayGraph.Spec (FixAt src dst)
open Verif.Parse (Point)

variable (R : Rounding)

/-- **C95, six decimals.**  A number written with at most six decimals is represented by its millionths, exactly. -/
theorem C95_six_decimals {s : Str} {neg : Bool} {n : Nat} (h : Millionths s neg n) (hn : n ≤ 10 ^ 15) :
    R.micro (R.ofText s) = signed neg n := by
  rw [R.ofText_millionths h]
  exact R.micro_millionths neg hn

/-- **C95, nearest.**  Any other number up to 1000 is represented by the nearest millionth, but for a millionth of a millionth. -/
theorem C95_nearest {x : R.Num} (h0 : 0 ≤ Double.mag x) (h : Double.mag x ≤ 1000) :
    |(R.micro x : Rat) - value x * 1000000| ≤ 1 / 2 + 1 / 1000000 := by
  have := R.micro_near h0 (h.trans (by norm_num))
  linarith

/-- **C95, told apart.**  Numbers that are represented alike differ by a millionth, and a millionth of it, at most. -/
theorem C95_apart {x y : R.Num} (hx0 : 0 ≤ Double.mag x) (hx : Double.mag x ≤ 1000) (hy0 : 0 ≤ Double.mag y) (hy : Double.mag y ≤ 1000)
    (h : R.micro x = R.micro y) : |value x - value y| ≤ 1 / 1000000 + 1 / 500000000000 := by
  have h1 := abs_le.1 (C95_nearest R hx0 hx)
  have h2 := abs_le.1 (C95_nearest R hy0 hy)
  rw [h] at h1
  rw [abs_le]
  constructor <;> linarith

/-- **C95, equality of fixes** is an equivalence relation that respects hashing, for every hasher. -/
theorem C95_fix_equality {P : Type} [Quantize P] (a b c : Fix P) :
    fixEq a a = true ∧ (fixEq a b = true → fixEq b a = true) ∧ (fixEq a b = true → fixEq b c = true → fixEq a c = true) ∧
    (fixEq a b = true → ∀ (S : Type) (text : Str → S → S) (number : Int → S → S) (state : S),
      fixHash text number a state = fixHash text number b state) ∧
    (fixEq a b = true ↔ a.designator = b.designator ∧ positionEq a.coordinate b.coordinate = true) := by
  simp only [fixEq, positionEq, Bool.and_eq_true, beq_iff_eq]
  refine ⟨by simp, fun h => ⟨h.1.symm, h.2.symm⟩, fun h h' => ⟨h.1.trans h'.1, h.2.trans h'.2⟩, ?_, by simp⟩
  intro h S text number state
  simp only [fixHash, h.1, h.2]

/-- The fix has this name, and its coordinates are read from numerals with at most six decimals for these millionths. -/
def Written (f : Fix (Point R.Num)) (name : Str) (lat lng : Int) : Prop :=
  f.designator = name ∧
    (∃ s neg n, Millionths s neg n ∧ n ≤ 10 ^ 15 ∧ f.coordinate.y = R.ofText s ∧ lat = signed neg n) ∧
    ∃ s neg n, Millionths s neg n ∧ n ≤ 10 ^ 15 ∧ f.coordinate.x = R.ofText s ∧ lng = signed neg n

theorem written_quantize {f : Fix (Point R.Num)} {name : Str} {lat lng : Int} (h : Written R f name lat lng) : quantize f.coordinate = (lng, lat) := by
  obtain ⟨_, ⟨s, neg, n, h1, h2, h3, h4⟩, s', neg', n', h1', h2', h3', h4'⟩ := h
  show (R.micro f.coordinate.x, R.micro f.coordinate.y) = _
  rw [h3, h3', C95_six_decimals R h1 h2, C95_six_decimals R h1' h2', h4, h4']

/-- **C95, written fixes.**  Fixes from files with six decimals are equal exactly if their names are the same and the same numbers are written. -/
theorem C95_written_fixes {f g : Fix (Point R.Num)} {name name' : Str} {lat lng lat' lng' : Int} (hf : Written R f name lat lng)
    (hg : Written R g name' lat' lng') : fixEq f g = true ↔ name = name' ∧ lat = lat' ∧ lng = lng' := by
  unfold fixEq
  rw [written_quantize R hf, written_quantize R hg, hf.1, hg.1]
  simp [and_comm, and_assoc]

/-- **C95, airways.**  Each end of each segment is a fix of the graph, and two ends with six decimals are the same one exactly if their
names are the same and the same numbers are written. -/
theorem C95_airway_fixes {segs : List (Segment (Point R.Num))} {g : Graph (Point R.Num)} (h : build segs = .ok g)
    {a b : Fix (Point R.Num)} (ha : ∃ s ∈ segs, a = ⟨s.fromName, s.fromPos⟩ ∨ a = s.segment.fix)
    (hb : ∃ s ∈ segs, b = ⟨s.fromName, s.fromPos⟩ ∨ b = s.segment.fix) {name name' : Str} {lat lng lat' lng' : Int}
    (wa : Written R a name lat lng) (wb : Written R b name' lat' lng') :
    ∃ i j, FixAt g i (name, (lng, lat)) ∧ FixAt g j (name', (lng', lat')) ∧ (i = j ↔ name = name' ∧ lat = lat' ∧ lng = lng') := by
  obtain ⟨_, _, _, hinj, _, _, hall⟩ := AirwayGraph.C09_consistent segs g h
  have key : ∀ {a : Fix (Point R.Num)} {name : Str} {lat lng : Int}, (∃ s ∈ segs, a = ⟨s.fromName, s.fromPos⟩ ∨ a = s.segment.fix) →
      Written R a name lat lng → ∃ i, FixAt g i (name, (lng, lat)) := by
    intro a name lat lng hs hw
    rw [hall]
    obtain ⟨s, hs, h⟩ := hs
    have hq := written_quantize R hw
    refine ⟨s, hs, ?_⟩
    rcases h with rfl | rfl
    · exact .inl (Prod.ext hw.1 hq)
    · exact .inr (Prod.ext hw.1 hq)
  obtain ⟨i, hi⟩ := key ha wa
  obtain ⟨j, hj⟩ := key hb wb
  refine ⟨i, j, hi, hj, ?_, ?_⟩
  · rintro rfl
    obtain ⟨f, h1, h2, h3⟩ := hi
    obtain ⟨f', h1', h2', h3'⟩ := hj
    rw [h1] at h1'
    cases h1'
    rw [h2] at h2'
    rw [h3] at h3'
    cases h3'
    exact ⟨Option.some.inj h2', rfl, rfl⟩
  · rintro ⟨rfl, rfl, rfl⟩
    exact hinj _ _ _ hi hj

/-! ## Examples -/

example : Millionths c!"48.353783" false 48353783 :=
  ⟨[], c!"48", c!"353783", 0, rfl, .inl rfl, by decide, by decide, rfl, by decide⟩

/-- `-0.5` and `-0.500000` are the same number, and `-0.500001` is another. -/
example : R.micro (R.ofText c!"-0.5") = -500000 ∧ R.micro (R.ofText c!"-0.500000") = -500000 ∧ R.micro (R.ofText c!"-0.500001") = -500001 :=
  ⟨C95_six_decimals R (neg := true) (n := 500000) ⟨c!"-", c!"0", c!"5", 5, rfl, rfl, by decide, by decide, rfl, by decide⟩ (by norm_num),
   C95_six_decimals R (neg := true) (n := 500000) ⟨c!"-", c!"0", c!"500000", 0, rfl, rfl, by decide, by decide, rfl, by decide⟩ (by norm_num),
   C95_six_decimals R (neg := true) (n := 500001) ⟨c!"-", c!"0", c!"500001", 0, rfl, rfl, by decide, by decide, rfl, by decide⟩ (by norm_num)⟩

/-- Both zeros are the same. -/
example : R.micro (R.ofText c!"-0.0") = R.micro (R.ofText c!"0") :=
  (C95_six_decimals R (neg := true) (n := 0) ⟨c!"-", c!"0", c!"0", 5, rfl, rfl, by decide, by decide, rfl, by decide⟩ (by norm_num)).trans
   (C95_six_decimals R (neg := false) (n := 0) ⟨[], c!"0", [], 6, rfl, .inl rfl, by decide, by decide, rfl, by decide⟩ (by norm_num)).symm

end Verif.Props
