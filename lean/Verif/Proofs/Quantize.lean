import Verif.Model.Quantize
import Verif.Spec.Quantize
import Verif.Spec.SctDouble
import Verif.Proofs.Double
import Verif.Proofs.Binary64
/-!
# Lemmas on quantised positions
-/

namespace Verif.Model.Rounding
open Verif.Spec.Quantize Verif.Spec.SctWrite

theorem digitsValue_snoc_aux (a b : Str) (n : Nat) :
    b.foldl (fun n c => 10 * n + (c.toNat - 48)) n = n * 10 ^ b.length + digitsValue b := by
  induction b generalizing n with
  | nil => simp [digitsValue]
  | cons c b ih =>
    have h2 := ih (10 * 0 + (c.toNat - 48))
    unfold digitsValue
    rw [List.foldl_cons, List.foldl_cons, ih, h2, List.length_cons]
    ring

theorem digitsValue_append (a b : Str) : digitsValue (a ++ b) = digitsValue a * 10 ^ b.length + digitsValue b := by
  show (a ++ b).foldl _ 0 = _
  rw [List.foldl_append, digitsValue_snoc_aux a]
  rfl

theorem digitsValue_replicate (z : Nat) : digitsValue (List.replicate z '0') = 0 := by
  induction z with
  | zero => rfl
  | succ z ih =>
    rw [List.replicate_succ]
    show (List.replicate z '0').foldl _ (10 * 0 + ('0'.toNat - 48)) = 0
    exact ih

theorem decimalValue_parts {ds fs : Str} (h : ∀ c ∈ ds, isAsciiDigit c = true) :
    decimalValue (ds ++ (if fs = [] then [] else '.' :: fs)) = digitsValue ds + digitsValue fs / 10 ^ fs.length := by
  have hp : ∀ c ∈ ds, decide (c ≠ '.') = true := fun c hc => by
    have := isDigit_ne (h c hc) (d := '.') (by decide)
    simpa using this
  unfold decimalValue
  split
  · rename_i hf
    subst hf
    rw [List.append_nil]
    have e1 : ds.takeWhile (fun c => decide (c ≠ '.')) = ds := by
      simpa using List.takeWhile_append_of_pos (l₂ := []) hp
    have e2 : ds.dropWhile (fun c => decide (c ≠ '.')) = [] := by
      simpa using List.dropWhile_append_of_pos (l₂ := []) hp
    simp only [e1, e2, List.drop_nil]
  · have e1 : (ds ++ '.' :: fs).takeWhile (fun c => decide (c ≠ '.')) = ds := by
      rw [List.takeWhile_append_of_pos hp]
      simp
    have e2 : (ds ++ '.' :: fs).dropWhile (fun c => decide (c ≠ '.')) = '.' :: fs := by
      rw [List.dropWhile_append_of_pos hp]
      simp
    simp only [e1, e2, List.drop_one, List.tail_cons]

variable (R : Rounding)

/-- What is read for a numeral with at most six decimals. -/
theorem ofText_millionths {s : Str} {neg : Bool} {n : Nat} (h : Millionths s neg n) : R.ofText s = (⟨neg, R.rnd (n / 1000000)⟩ : Double) := by
  obtain ⟨sg, ds, fs, z, rfl, hsg, hd, hf, hz, rfl⟩ := h
  have hv : decimalValue (ds ++ (if fs = [] then [] else '.' :: fs)) = (digitsValue (ds ++ fs ++ List.replicate z '0') : Nat) / 1000000 := by
    rw [decimalValue_parts hd.2, digitsValue_append, digitsValue_append, digitsValue_replicate, List.length_replicate]
    have : (1000000 : Rat) = 10 ^ fs.length * 10 ^ z := by rw [← pow_add, hz]; norm_num
    rw [this]
    push_cast
    field_simp
    ring
  rw [← hv]
  generalize (if fs = [] then [] else '.' :: fs) = t at *
  obtain ⟨c, l, rfl⟩ : ∃ c l, ds = c :: l := by
    cases ds with
    | nil => exact absurd rfl hd.1
    | cons c l => exact ⟨c, l, rfl⟩
  have hc := hd.2 c (by simp)
  have n1 : c ≠ '-' := isDigit_ne hc (by decide)
  have n2 : c ≠ '+' := isDigit_ne hc (by decide)
  unfold ofText
  cases neg with
  | true =>
    cases hsg
    simp
    rfl
  | false =>
    rcases hsg with rfl | rfl
    · simp [n1, n2, beq_eq_false_iff_ne.2 n1]
      rfl
    · simp
      rfl

theorem rnd_small {x : Rat} (h0 : 0 ≤ x) (h : x ≤ 2 ^ 51) : |R.rnd x - x| ≤ x / 2 ^ 53 + 1 / 2 ^ 100 := by
  have h1 := R.near x (by
    rw [abs_of_nonneg h0]
    exact h.trans (pow_le_pow_right₀ (by norm_num) (by norm_num)))
  rw [abs_of_nonneg h0] at h1
  refine h1.trans (add_le_add_right ?_ _)
  exact one_div_le_one_div_of_le (by positivity) (pow_le_pow_right₀ (by norm_num) (by norm_num))

/-- The product before `round`. -/
theorem scaled_near {m : Rat} (h0 : 0 ≤ m) (h : m ≤ 2 ^ 30) : |R.rnd (m * 1000000) - m * 1000000| ≤ m * 1000000 / 2 ^ 53 + 1 / 2 ^ 100 :=
  R.rnd_small (by positivity) (by linarith [show (2 : Rat) ^ 30 * 1000000 ≤ 2 ^ 51 by norm_num])

theorem micro_of {d : Double} {n : Nat} (hn : n ≤ 2 ^ 50) (h : |R.rnd (d.mag * 1000000) - n| < 1 / 2) : R.micro d = signed d.neg n := by
  have h' := abs_lt.1 h
  have hf : ⌊R.rnd (d.mag * 1000000) + 1 / 2⌋ = (n : Int) := by
    rw [Int.floor_eq_iff]
    push_cast
    constructor <;> linarith
  unfold micro signed
  simp only [hf]
  split
  · rw [max_eq_right]; omega
  · rw [min_eq_right]; omega

theorem micro_millionths {n : Nat} (neg : Bool) (hn : n ≤ 10 ^ 15) : R.micro (⟨neg, R.rnd (n / 1000000)⟩ : Double) = signed neg n := by
  have hq : (n : Rat) ≤ 10 ^ 15 := by exact_mod_cast hn
  have h0 : (0 : Rat) ≤ (n : Rat) / 1000000 := by positivity
  have h1 := abs_le.1 (R.rnd_small h0 (by linarith))
  have h2 := R.nonneg _ h0
  refine R.micro_of (d := ⟨neg, R.rnd (n / 1000000)⟩) (hn.trans (by norm_num)) ?_
  show |R.rnd (R.rnd (n / 1000000) * 1000000) - n| < 1 / 2
  generalize R.rnd (n / 1000000) = m at *
  have h3 := abs_le.1 (R.scaled_near h2 (by linarith))
  generalize R.rnd (m * 1000000) = y at *
  rw [abs_lt]
  constructor <;> linarith

/-- The quantised number is the nearest millionth, up to the rounding of the product. -/
theorem micro_near {x : R.Num} (h0 : 0 ≤ Double.mag x) (h : Double.mag x ≤ 2 ^ 30) :
    |(R.micro x : Rat) - value x * 1000000| ≤ 1 / 2 + Double.mag x / 2 ^ 33 + 1 / 2 ^ 100 := by
  obtain ⟨neg, m⟩ := x
  simp only at h0 h
  have h1 := abs_le.1 (R.scaled_near h0 h)
  have h2 := Int.floor_le (R.rnd (m * 1000000) + 1 / 2)
  have h3 := Int.lt_floor_add_one (R.rnd (m * 1000000) + 1 / 2)
  have h4 := R.nonneg (m * 1000000) (by positivity)
  have hl : 0 ≤ ⌊R.rnd (m * 1000000) + 1 / 2⌋ := Int.floor_nonneg.2 (by linarith)
  have hu : ⌊R.rnd (m * 1000000) + 1 / 2⌋ ≤ 2 ^ 51 := by
    have : ((⌊R.rnd (m * 1000000) + 1 / 2⌋ : Int) : Rat) ≤ 2 ^ 51 := by linarith
    exact_mod_cast this
  unfold micro value
  simp only
  generalize ⌊R.rnd (m * 1000000) + 1 / 2⌋ = k at *
  generalize R.rnd (m * 1000000) = y at *
  cases neg with
  | true =>
    simp only [if_true]
    rw [max_eq_right (by omega)]
    push_cast
    rw [abs_le]
    constructor <;> linarith
  | false =>
    simp only [Bool.false_eq_true, if_false]
    rw [min_eq_right (by omega), abs_le]
    constructor <;> linarith

end Verif.Model.Rounding
