import Verif.Model.JsonFloat
import Verif.Proofs.Binary64
import Verif.Proofs.JsonText
import Mathlib.Tactic.NormNum
import Mathlib.Tactic.Linarith
import Mathlib.Tactic.Positivity
import Mathlib.Tactic.FieldSimp
/-!
# Reading of numbers as doubles
-/

namespace Verif.Proofs.JsonFloat
open Verif.JsonFloat Verif.Model.Binary64 Verif.Spec.Binary64 Verif.Spec.JsonText

/-! ## The digits -/

/-- The value of digits behind others -/
def continued (sig : Nat) (s : Str) : Nat := s.foldl (fun n c => 10 * n + (c.toNat - 48)) sig

theorem continued_ge (sig : Nat) (s : Str) : sig ≤ continued sig s := by
  induction s generalizing sig with
  | nil => exact Nat.le_refl _
  | cons c s ih => exact Nat.le_trans (by omega) (ih (10 * sig + (c.toNat - 48)))

theorem accumulate_all {sig : Nat} {s : Str} (h : continued sig s < 2 ^ 64) : accumulate sig s = (continued sig s, s.length) := by
  induction s generalizing sig with
  | nil => rfl
  | cons c s ih =>
    have h1 : continued (10 * sig + (c.toNat - 48)) s < 2 ^ 64 := h
    have h2 := continued_ge (10 * sig + (c.toNat - 48)) s
    rw [accumulate, if_neg (by omega), ih h1]
    rfl

theorem continued_append (sig : Nat) (s t : Str) : continued sig (s ++ t) = continued (continued sig s) t := List.foldl_append

theorem digitsValue_continued (s : Str) : digitsValue s = continued 0 s := rfl

theorem fromDigits_small {whole frac : Str} (e : Int) (h : digitsValue (whole ++ frac) < 2 ^ 64) :
    fromDigits whole frac e = fromParts (digitsValue (whole ++ frac)) (e - frac.length) := by
  rw [digitsValue_continued, continued_append] at *
  have h1 : continued 0 whole < 2 ^ 64 := lt_of_le_of_lt (continued_ge _ frac) h
  unfold fromDigits
  simp only [accumulate_all h1, accumulate_all h]
  congr 1
  omega

/-- A valid numeral is read by its digits. -/
theorem read_text {n : Numeral} (h : n.Valid) :
    Verif.JsonFloat.read n.text = (fromDigits n.whole (n.frac.getD []) n.power).map fun r => if n.neg then -r else r := by
  have hu : unsigned (n.whole ++ (Proofs.JsonText.fracText n.frac ++ Proofs.JsonText.expText n.exp)) =
      fromDigits n.whole (n.frac.getD []) n.power := by
    obtain ⟨hw, h0, hf, he⟩ := h
    have hw' := (Proofs.JsonText.numeral_iff _).1 hw
    have hs := Proofs.JsonText.digits_split hw'.2 (r := Proofs.JsonText.fracText n.frac ++ Proofs.JsonText.expText n.exp)
      (fun c hc => Proofs.JsonText.fracText_head (fun c hc => (Proofs.JsonText.expText_head he c hc).1) c hc)
    simp only [unsigned, hs.1, hs.2]
    rw [if_neg ((Proofs.JsonText.whole_iff hw).1 h0), Proofs.JsonText.fraction_complete hf (Proofs.JsonText.expText_head he)]
    simp only [Proofs.JsonText.exponent_complete he, Proofs.JsonText.power_eq, Option.bind_some]
  rw [Proofs.JsonText.text_eq]
  cases hneg : n.neg with
  | true => simp [Verif.JsonFloat.read, hu]
  | false =>
    obtain ⟨c, w, hw, hc⟩ := Proofs.JsonText.whole_head h
    have hm : c ≠ '-' := by intro hh; subst hh; revert hc; decide
    simp only [Bool.false_eq_true, ↓reduceIte, List.nil_append, Option.map_id_fun', id_eq]
    rw [← hu, hw]
    simp only [List.cons_append, Verif.JsonFloat.read, hm, ↓reduceIte]

/-! ## Rounding -/

/-- Powers of ten up to 10²² are doubles. -/
theorem pow10_double {k : Nat} (h : k ≤ 22) : rnd (10 ^ k) = 10 ^ k := by
  refine rnd_double ⟨5 ^ k, k, ?_, by omega, ?_⟩
  · rw [abs_of_nonneg (by positivity)]
    calc (5 : Int) ^ k ≤ 5 ^ 22 := pow_le_pow_right₀ (by norm_num) h
      _ < 2 ^ 53 := by norm_num
  · push_cast
    rw [zpow_natCast, ← mul_pow]
    norm_num

theorem fromParts_nearest {sig : Nat} {e : Int} (hs : sig ≤ 2 ^ 53) (h1 : -22 ≤ e) (h2 : e ≤ 22) :
    fromParts sig e = some (rnd (sig * 10 ^ e)) := by
  unfold fromParts
  by_cases he : 0 ≤ e
  · rw [if_pos he, if_pos (by omega), rnd_nat hs, pow10_double (by omega)]
    obtain ⟨k, rfl⟩ := Int.eq_ofNat_of_zero_le he
    simp
  · rw [if_neg he]
    unfold divide
    rw [if_pos (by omega), rnd_nat hs, pow10_double (by omega)]
    congr 2
    obtain ⟨k, hk⟩ := Int.eq_ofNat_of_zero_le (a := -e) (by omega)
    have : e = -(k : Int) := by omega
    subst this
    simp [zpow_neg, div_eq_mul_inv]

theorem value_eq (n : Numeral) : n.value =
    (if n.neg then -1 else 1) * ((digitsValue (n.whole ++ n.frac.getD []) : Rat) * 10 ^ (n.power - ((n.frac.getD []).length : Int))) := by
  unfold Numeral.value
  cases n.neg
  · simp
  · simp

theorem read_nearest {n : Numeral} (h : n.Valid) (hd : digitsValue (n.whole ++ n.frac.getD []) ≤ 2 ^ 53)
    (h1 : -22 ≤ n.power - ((n.frac.getD []).length : Int)) (h2 : n.power - ((n.frac.getD []).length : Int) ≤ 22) :
    Verif.JsonFloat.read n.text = some (rnd n.value) := by
  rw [read_text h, fromDigits_small _ (by omega), fromParts_nearest hd h1 h2, value_eq]
  cases n.neg
  · simp
  · simp [rnd_neg]

/-! ## The error in general -/

/-- A bound for the relative error of a rounding -/
def unit : Rat := 1 / 2 ^ 53 + 1 / 2 ^ 75

theorem rnd_rel {x : Rat} (hx : 1 / 2 ^ 1000 ≤ x) : ∃ a, |a| ≤ unit ∧ rnd x = x * (1 + a) := by
  have h0 : 0 < x := lt_of_lt_of_le (by positivity) hx
  refine ⟨(rnd x - x) / x, ?_, by field_simp; ring⟩
  rw [abs_div, abs_of_pos h0, div_le_iff₀ h0]
  have h := rnd_near x
  rw [abs_of_pos h0] at h
  refine h.trans ?_
  have : (1 : Rat) / 2 ^ 1075 = 1 / 2 ^ 75 * (1 / 2 ^ 1000) := by rw [div_mul_div_comm, one_mul, ← pow_add]
  rw [this]
  have h2 := mul_le_mul_of_nonneg_left hx (show (0 : Rat) ≤ 1 / 2 ^ 75 by positivity)
  unfold unit
  linarith

theorem unit_pos : 0 < unit := by unfold unit; positivity

theorem times_error {a b c : Rat} (ha : |a| ≤ unit) (hb : |b| ≤ unit) (hc : |c| ≤ unit) :
    |(1 + a) * (1 + b) * (1 + c) - 1| ≤ 1 / 2 ^ 51 := by
  have hab : |a * b| ≤ unit * unit := by rw [abs_mul]; exact mul_le_mul ha hb (abs_nonneg _) unit_pos.le
  have hbc : |b * c| ≤ unit * unit := by rw [abs_mul]; exact mul_le_mul hb hc (abs_nonneg _) unit_pos.le
  have hac : |a * c| ≤ unit * unit := by rw [abs_mul]; exact mul_le_mul ha hc (abs_nonneg _) unit_pos.le
  have habc : |a * b * c| ≤ unit * unit * unit := by
    rw [abs_mul]; exact mul_le_mul hab hc (abs_nonneg _) (by have := unit_pos; positivity)
  have e : (1 + a) * (1 + b) * (1 + c) - 1 = a + b + c + a * b + b * c + a * c + a * b * c := by ring
  rw [e]
  have hw : unit + unit + unit + unit * unit + unit * unit + unit * unit + unit * unit * unit ≤ 1 / 2 ^ 51 := by
    unfold unit; norm_num
  rw [abs_le] at *
  constructor <;> linarith

theorem over_error {a b c : Rat} (ha : |a| ≤ unit) (hb : |b| ≤ unit) (hc : |c| ≤ unit) :
    |(1 + a) / (1 + b) * (1 + c) - 1| ≤ 1 / 2 ^ 51 := by
  have hu : unit ≤ 1 / 2 := by unfold unit; norm_num
  have hb' := abs_le.1 hb
  have hpos : 0 < 1 + b := by linarith
  have e : (1 + a) / (1 + b) * (1 + c) - 1 = (a + c + a * c - b) / (1 + b) := by field_simp; ring
  rw [e, abs_div, abs_of_pos hpos, div_le_iff₀ hpos]
  have hac : |a * c| ≤ unit * unit := by rw [abs_mul]; exact mul_le_mul ha hc (abs_nonneg _) unit_pos.le
  have hw : unit + unit + unit + unit * unit ≤ 1 / 2 ^ 51 * (1 - unit) := by
    unfold unit; norm_num
  have h1 : (1 : Rat) / 2 ^ 51 * (1 - unit) ≤ 1 / 2 ^ 51 * (1 + b) := mul_le_mul_of_nonneg_left (by linarith) (by positivity)
  rw [abs_le] at *
  constructor <;> linarith

theorem one_le_rnd {x : Rat} (h : 1 ≤ x) : 1 ≤ rnd x := by
  have := rnd_mono h
  rwa [show rnd 1 = 1 by simpa using rnd_nat (n := 1) (by norm_num)] at this

theorem small (x : Rat) (h : 1 ≤ x) : 1 / 2 ^ 1000 ≤ x :=
  le_trans (by rw [div_le_one (by positivity)]; exact one_le_pow₀ (by norm_num)) h

set_option exponentiation.threshold 2000 in
theorem pow10_le {k : Nat} (h : k ≤ 290) : rnd (10 ^ k) ≤ 2 ^ 1000 := by
  obtain ⟨b, hb, he⟩ := rnd_rel (small ((10 : Rat) ^ k) (one_le_pow₀ (by norm_num)))
  have hu : unit ≤ 1 := by unfold unit; norm_num
  have := (abs_le.1 hb).2
  calc rnd (10 ^ k) = 10 ^ k * (1 + b) := he
    _ ≤ 10 ^ 290 * 2 := mul_le_mul (pow_le_pow_right₀ (by norm_num) h) (by linarith) (by linarith [(abs_le.1 hb).1]) (by positivity)
    _ ≤ 2 ^ 1000 := by norm_num

/-- Three roundings, each with a relative error of 2⁻⁵³ and a little more -/
theorem fromParts_near {sig : Nat} {e : Int} (h1 : -290 ≤ e) (h2 : e ≤ 290) :
    ∃ r, fromParts sig e = some r ∧ |r - sig * 10 ^ e| ≤ sig * 10 ^ e / 2 ^ 51 := by
  by_cases h0 : sig = 0
  · subst h0
    unfold fromParts
    by_cases he : 0 ≤ e
    · rw [if_pos he, if_pos (by omega)]
      exact ⟨_, rfl, by simp [rnd_zero]⟩
    · rw [if_neg he]
      unfold divide
      rw [if_pos (by omega)]
      exact ⟨_, rfl, by simp [rnd_zero]⟩
  have hs1 : (1 : Rat) ≤ sig := by exact_mod_cast Nat.one_le_iff_ne_zero.2 h0
  obtain ⟨a, ha, ea⟩ := rnd_rel (small _ hs1)
  have ps := one_le_rnd hs1
  unfold fromParts
  by_cases he : 0 ≤ e
  · obtain ⟨k, rfl⟩ := Int.eq_ofNat_of_zero_le he
    have hp1 : (1 : Rat) ≤ 10 ^ k := one_le_pow₀ (by norm_num)
    obtain ⟨b, hb, eb⟩ := rnd_rel (small _ hp1)
    have pp := one_le_rnd hp1
    obtain ⟨c, hc, ec⟩ := rnd_rel (small (rnd sig * rnd (10 ^ k)) (one_le_mul_of_one_le_of_one_le ps pp))
    rw [if_pos he, if_pos (by omega)]
    refine ⟨_, rfl, ?_⟩
    have hk : ((k : Int)).toNat = k := by omega
    simp only [hk, zpow_natCast]
    rw [ec, ea, eb]
    have : (sig : Rat) * (1 + a) * (10 ^ k * (1 + b)) * (1 + c) - sig * 10 ^ k = sig * 10 ^ k * ((1 + a) * (1 + b) * (1 + c) - 1) := by ring
    have hpos : (0 : Rat) ≤ sig * 10 ^ k := by positivity
    rw [this, abs_mul, abs_of_nonneg hpos, div_eq_mul_one_div _ ((2 : Rat) ^ 51)]
    exact mul_le_mul_of_nonneg_left (times_error ha hb hc) hpos
  · obtain ⟨k, hk⟩ := Int.eq_ofNat_of_zero_le (a := -e) (by omega)
    have : e = -(k : Int) := by omega
    subst this
    have hp1 : (1 : Rat) ≤ 10 ^ k := one_le_pow₀ (by norm_num)
    obtain ⟨b, hb, eb⟩ := rnd_rel (small _ hp1)
    have pp := one_le_rnd hp1
    have hq : 1 / 2 ^ 1000 ≤ rnd sig / rnd (10 ^ k) := by
      rw [div_le_div_iff₀ (by positivity) (by linarith), one_mul]
      have := pow10_le (k := k) (by omega)
      calc rnd (10 ^ k) ≤ 2 ^ 1000 := this
        _ ≤ rnd sig * 2 ^ 1000 := le_mul_of_one_le_left (by positivity) ps
    obtain ⟨c, hc, ec⟩ := rnd_rel hq
    rw [if_neg he]
    unfold divide
    rw [if_pos (by omega)]
    refine ⟨_, rfl, ?_⟩
    have hk2 : (-(-(k : Int))).toNat = k := by omega
    simp only [hk2, zpow_neg, zpow_natCast]
    rw [ec, ea, eb]
    have hu : unit ≤ 1 / 2 := by unfold unit; norm_num
    have hb1 : (0 : Rat) < 1 + b := by have := (abs_le.1 hb).1; linarith
    have : (sig : Rat) * (1 + a) / (10 ^ k * (1 + b)) * (1 + c) - sig * (10 ^ k)⁻¹ = sig * (10 ^ k)⁻¹ * ((1 + a) / (1 + b) * (1 + c) - 1) := by
      field_simp
    have hpos : (0 : Rat) ≤ sig * (10 ^ k)⁻¹ := by positivity
    rw [this, abs_mul, abs_of_nonneg hpos, div_eq_mul_one_div _ ((2 : Rat) ^ 51)]
    exact mul_le_mul_of_nonneg_left (over_error ha hb hc) hpos

theorem read_near {n : Numeral} (h : n.Valid) (hd : digitsValue (n.whole ++ n.frac.getD []) < 2 ^ 64)
    (h1 : -290 ≤ n.power - ((n.frac.getD []).length : Int)) (h2 : n.power - ((n.frac.getD []).length : Int) ≤ 290) :
    ∃ r, Verif.JsonFloat.read n.text = some r ∧ |r - n.value| ≤ |n.value| / 2 ^ 51 := by
  obtain ⟨r, hr, he⟩ := fromParts_near (sig := digitsValue (n.whole ++ n.frac.getD [])) h1 h2
  rw [read_text h, fromDigits_small _ hd, hr]
  refine ⟨_, rfl, ?_⟩
  rw [value_eq]
  have hpos : (0 : Rat) ≤ (digitsValue (n.whole ++ n.frac.getD []) : Rat) * 10 ^ (n.power - ((n.frac.getD []).length : Int)) :=
    mul_nonneg (Nat.cast_nonneg _) (zpow_nonneg (by norm_num) _)
  cases n.neg
  · simpa [abs_of_nonneg hpos] using he
  · simp only [if_true, neg_mul, one_mul, abs_neg, abs_of_nonneg hpos]
    rw [← abs_neg] at he
    convert he using 2
    ring

/-! ## Small numbers -/

/-- A bound for the relative error of a division by a power of ten -/
def quotient : Rat := 1 / 2 ^ 52 + 1 / 2 ^ 74

theorem divide_step {f : Rat} (hf : 0 ≤ f) (k : Nat) :
    |rnd (f / rnd (10 ^ k)) - f / 10 ^ k| ≤ f / 10 ^ k * quotient + 1 / 2 ^ 1075 := by
  have hp1 : (1 : Rat) ≤ 10 ^ k := one_le_pow₀ (by norm_num)
  obtain ⟨b, hb, eb⟩ := rnd_rel (small _ hp1)
  have hv : 0 ≤ f / 10 ^ k := div_nonneg hf (by positivity)
  have hu : unit ≤ 1 / 2 := by unfold unit; norm_num
  have hb' := abs_le.1 hb
  have hpos : 0 < 1 + b := by linarith
  have hq : f / rnd (10 ^ k) = f / 10 ^ k / (1 + b) := by rw [eb, div_div]
  have hq0 : 0 ≤ f / 10 ^ k / (1 + b) := div_nonneg hv hpos.le
  have h1 := rnd_near (f / rnd (10 ^ k))
  rw [hq] at h1 ⊢
  rw [abs_of_nonneg hq0] at h1
  generalize f / 10 ^ k = v at *
  have h2 : |v / (1 + b) - v| ≤ v * (unit / (1 - unit)) := by
    have : v / (1 + b) - v = v * (-b / (1 + b)) := by field_simp; ring
    rw [this, abs_mul, abs_of_nonneg hv, abs_div, abs_neg, abs_of_pos hpos]
    exact mul_le_mul_of_nonneg_left (div_le_div₀ unit_pos.le hb (by linarith) (by linarith)) hv
  have h3 : v / (1 + b) ≤ v * (1 / (1 - unit)) := by
    rw [div_eq_mul_one_div]
    exact mul_le_mul_of_nonneg_left (one_div_le_one_div_of_le (by linarith) (by linarith)) hv
  have h4 : unit / (1 - unit) + 1 / (1 - unit) / 2 ^ 53 ≤ quotient := by unfold unit quotient; norm_num
  have h5 := mul_le_mul_of_nonneg_left h4 hv
  have h6 : |rnd (v / (1 + b)) - v| ≤ |rnd (v / (1 + b)) - v / (1 + b)| + |v / (1 + b) - v| := abs_sub_le _ _ _
  have h7 : v / (1 + b) / 2 ^ 53 ≤ v * (1 / (1 - unit)) / 2 ^ 53 := div_le_div_of_nonneg_right h3 (by positivity)
  have h8 : v * (1 / (1 - unit)) / 2 ^ 53 = v * (1 / (1 - unit) / 2 ^ 53) := by ring
  rw [mul_add] at h5
  linarith

theorem divide_zero (k : Nat) : divide 0 k = 0 := by
  unfold divide
  split
  · rw [zero_div, rnd_zero]
  · rfl

theorem halves {x : Rat} (h : 0 < x) : 1 / x = 2 * (1 / (x * 2)) := by field_simp

theorem least_half : (1 : Rat) / 2 ^ 1074 = 2 * (1 / 2 ^ 1075) := by
  rw [show (2 : Rat) ^ 1075 = 2 ^ 1074 * 2 from pow_succ 2 1074]
  exact halves (by positivity)

theorem pow_split {j k : Nat} (h : j ≤ k) : (10 : Rat) ^ k = 10 ^ j * 10 ^ (k - j) := by rw [← pow_add, Nat.add_sub_cancel' h]

theorem divide_twice {f s P J : Rat} (hP : 0 < P) (hJ : 0 < J) : f / J - s / (P * J) = (f - s / P) / J := by field_simp

theorem divide_back {s P J q t : Rat} (hP : 0 < P) (hJ : 0 < J) : (s / (P * J) * q + t) * J = s / P * q + t * J := by field_simp

/-- What is less than half of the least double is rounded to zero. -/
theorem rnd_tiny {x : Rat} (h0 : 0 ≤ x) (h : x < 1 / 2 ^ 1075) : rnd x = 0 := by
  have hd : IsDouble 0 := ⟨0, 0, by norm_num, by norm_num, by simp⟩
  have h1 := rnd_nearest (x := x) hd
  rw [zero_sub, abs_neg, abs_of_nonneg h0] at h1
  have hn := rnd_nonneg h0
  by_contra hne
  -- the doubles are whole multiples of the least
  obtain ⟨m, e, _, he, hm⟩ := rnd_isDouble x
  have hpos : 0 < rnd x := lt_of_le_of_ne hn (Ne.symm hne)
  have h2p : (0 : Rat) < 2 ^ e := zpow_pos (by norm_num) _
  have hmp : 1 ≤ m := by
    rw [hm] at hpos
    have : (0 : Rat) < m := by
      rcases lt_trichotomy (0 : Rat) m with h | h | h
      · exact h
      · rw [← h, zero_mul] at hpos; exact absurd hpos (lt_irrefl _)
      · exact absurd hpos (not_lt.2 (mul_nonpos_of_nonpos_of_nonneg h.le h2p.le))
    have : (0 : Int) < m := by exact_mod_cast this
    omega
  have h3 : (1 : Rat) / 2 ^ 1074 ≤ rnd x := by
    rw [hm]
    have h4 : (2 : Rat) ^ (-1074 : Int) ≤ 2 ^ e := zpow_le_zpow_right₀ (by norm_num) he
    have h5 : (1 : Rat) / 2 ^ 1074 = 2 ^ (-1074 : Int) := by rw [zpow_neg, one_div]; rfl
    rw [h5]
    calc (2 : Rat) ^ (-1074 : Int) ≤ 2 ^ e := h4
      _ = 1 * 2 ^ e := (one_mul _).symm
      _ ≤ m * 2 ^ e := mul_le_mul_of_nonneg_right (by exact_mod_cast hmp) h2p.le
  have h6 := (abs_le.1 h1).2
  have h7 := least_half
  generalize (1 : Rat) / 2 ^ 1075 = t at *
  generalize (1 : Rat) / 2 ^ 1074 = u at *
  linarith

set_option exponentiation.threshold 3000 in
theorem fromParts_small {sig : Nat} {k : Nat} (hs : sig < 2 ^ 64) (hk : 0 < k) :
    ∃ r, fromParts sig (-(k : Int)) = some r ∧ |r - sig / 10 ^ k| ≤ sig / 10 ^ k / 2 ^ 50 + 1 / 2 ^ 1074 := by
  refine ⟨divide (rnd sig) k, ?_, ?_⟩
  · unfold fromParts
    rw [if_neg (by omega)]
    simp
  by_cases h0 : sig = 0
  · subst h0
    rw [Nat.cast_zero, rnd_zero, divide_zero]
    simp
  have hs1 : (1 : Rat) ≤ sig := by exact_mod_cast Nat.one_le_iff_ne_zero.2 h0
  obtain ⟨a, ha, ea⟩ := rnd_rel (small _ hs1)
  have ps := one_le_rnd hs1
  have ha' := abs_le.1 ha
  have hu : unit ≤ 1 / 2 := by unfold unit; norm_num
  have hv : (0 : Rat) ≤ sig / 10 ^ k := by positivity
  -- the error of the first rounding
  have hfv : rnd sig / 10 ^ k = sig / 10 ^ k * (1 + a) := by rw [ea]; ring
  have hfe : |rnd sig / 10 ^ k - sig / 10 ^ k| ≤ sig / 10 ^ k * unit := by
    have : rnd sig / 10 ^ k - (sig : Rat) / 10 ^ k = sig / 10 ^ k * a := by rw [ea]; ring
    rw [this, abs_mul, abs_of_nonneg hv]
    exact mul_le_mul_of_nonneg_left ha hv
  have hfu : rnd sig / 10 ^ k ≤ sig / 10 ^ k * (1 + unit) := by
    rw [hfv]; exact mul_le_mul_of_nonneg_left (by linarith) hv
  have tp : (0 : Rat) < 1 / 2 ^ 1075 := by positivity
  have qp : (0 : Rat) < quotient := by unfold quotient; positivity
  rw [least_half]
  by_cases h1 : k ≤ 308
  · unfold divide
    rw [if_pos h1]
    have h2 := divide_step (le_trans zero_le_one ps) k
    generalize hr : rnd (rnd sig / rnd (10 ^ k)) = r at *
    generalize rnd sig / 10 ^ k = w at *
    generalize (sig : Rat) / 10 ^ k = v at *
    generalize (1 : Rat) / 2 ^ 1075 = t at *
    have h3 : |r - v| ≤ |r - w| + |w - v| := abs_sub_le _ _ _
    have h4 : w * quotient ≤ v * ((1 + unit) * quotient) := by
      rw [← mul_assoc]; exact mul_le_mul_of_nonneg_right hfu qp.le
    have h5 : (1 + unit) * quotient + unit ≤ 1 / 2 ^ 50 := by unfold unit quotient; norm_num
    have h6 := mul_le_mul_of_nonneg_left h5 hv
    rw [mul_add] at h6
    have h7 : v / 2 ^ 50 = v * (1 / 2 ^ 50) := by ring
    rw [h7]
    linarith
  have hne : rnd sig ≠ 0 := by intro h; rw [h] at ps; linarith
  have hsu : rnd sig ≤ 2 ^ 65 := by
    have h1 : (sig : Rat) ≤ 2 ^ 64 := by exact_mod_cast hs.le
    rw [ea]
    calc (sig : Rat) * (1 + a) ≤ 2 ^ 64 * 2 := mul_le_mul h1 (by linarith) (by linarith) (by positivity)
      _ = 2 ^ 65 := by norm_num
  have g1 := divide_step (le_trans zero_le_one ps) 308
  have hf1 : 0 ≤ rnd (rnd sig / rnd (10 ^ 308)) :=
    rnd_nonneg (div_nonneg (le_trans zero_le_one ps) (rnd_nonneg (by positivity)))
  unfold divide
  rw [if_neg h1, if_neg hne]
  generalize hf1e : rnd (rnd sig / rnd (10 ^ 308)) = f1 at *
  by_cases h2 : k - 308 ≤ 308
  · unfold divide
    rw [if_pos h2]
    have g2 := divide_step hf1 (k - 308)
    generalize hr : rnd (f1 / rnd (10 ^ (k - 308))) = r at *
    have hk10 : (10 : Rat) ^ k = 10 ^ 308 * 10 ^ (k - 308) := pow_split (by omega)
    have hj : (10 : Rat) ≤ 10 ^ (k - 308) := by
      calc (10 : Rat) = 10 ^ 1 := by norm_num
        _ ≤ 10 ^ (k - 308) := pow_le_pow_right₀ (by norm_num) (by omega)
    have hjp : (0 : Rat) < 10 ^ (k - 308) := by positivity
    have g3 : |f1 / 10 ^ (k - 308) - rnd sig / 10 ^ k| ≤ rnd sig / 10 ^ k * quotient + 1 / 2 ^ 1075 / 10 := by
      have e1 : f1 / 10 ^ (k - 308) - rnd sig / 10 ^ k = (f1 - rnd sig / 10 ^ 308) / 10 ^ (k - 308) := by
        rw [hk10]; exact divide_twice (by positivity) hjp
      rw [e1, abs_div, abs_of_pos hjp, div_le_iff₀ hjp]
      have e2 : (rnd sig / 10 ^ k * quotient + 1 / 2 ^ 1075 / 10) * 10 ^ (k - 308) =
          rnd sig / 10 ^ 308 * quotient + 1 / 2 ^ 1075 / 10 * 10 ^ (k - 308) := by
        rw [hk10]; exact divide_back (by positivity) hjp
      rw [e2]
      have : (1 : Rat) / 2 ^ 1075 ≤ 1 / 2 ^ 1075 / 10 * 10 ^ (k - 308) := by
        have := mul_le_mul_of_nonneg_left hj (show (0 : Rat) ≤ 1 / 2 ^ 1075 / 10 by positivity)
        linarith
      linarith
    generalize f1 / 10 ^ (k - 308) = u at *
    generalize rnd sig / 10 ^ k = w at *
    generalize (sig : Rat) / 10 ^ k = v at *
    generalize (1 : Rat) / 2 ^ 1075 = t at *
    have h3 : |r - v| ≤ |r - u| + |u - v| := abs_sub_le _ _ _
    have h3' : |u - v| ≤ |u - w| + |w - v| := abs_sub_le _ _ _
    have hw : w * quotient ≤ v * ((1 + unit) * quotient) := by
      rw [← mul_assoc]; exact mul_le_mul_of_nonneg_right hfu qp.le
    have hu1 : u ≤ v * ((1 + unit) * (1 + quotient)) + t / 10 := by
      have := (abs_le.1 g3).2
      have h5 := mul_le_mul_of_nonneg_right hfu (show (0 : Rat) ≤ 1 + quotient by linarith)
      have h6 : v * ((1 + unit) * (1 + quotient)) = v * (1 + unit) * (1 + quotient) := by ring
      rw [h6]
      have h7 : w * (1 + quotient) = w + w * quotient := by ring
      linarith
    have huq : u * quotient ≤ v * ((1 + unit) * (1 + quotient) * quotient) + t / 10 * quotient := by
      have := mul_le_mul_of_nonneg_right hu1 qp.le
      have h6 : (v * ((1 + unit) * (1 + quotient)) + t / 10) * quotient = v * ((1 + unit) * (1 + quotient) * quotient) + t / 10 * quotient := by ring
      linarith
    have hq1 : quotient ≤ 1 := by unfold quotient; norm_num
    have htq : t / 10 * quotient ≤ t / 10 := mul_le_of_le_one_right (by positivity) hq1
    have h5 : (1 + unit) * (1 + quotient) * quotient + (1 + unit) * quotient + unit ≤ 1 / 2 ^ 50 := by unfold unit quotient; norm_num
    have h6 := mul_le_mul_of_nonneg_left h5 hv
    rw [mul_add, mul_add] at h6
    have h7 : v / 2 ^ 50 = v * (1 / 2 ^ 50) := by ring
    rw [h7]
    linarith
  · -- so small that nothing is left
    have hz : divide f1 (k - 308) = 0 := by
      unfold divide
      rw [if_neg h2]
      split
      · rfl
      · have : rnd (f1 / rnd (10 ^ 308)) = 0 := by
          have hq1 : quotient ≤ 1 := by unfold quotient; norm_num
          have e1 : rnd sig / 10 ^ 308 ≤ 2 ^ 65 / 10 ^ 308 := div_le_div_of_nonneg_right hsu (by positivity)
          have e0 : 0 ≤ rnd sig / 10 ^ 308 := div_nonneg (le_trans zero_le_one ps) (by positivity)
          have e2 : f1 ≤ 2 ^ 65 / 10 ^ 308 + 2 ^ 65 / 10 ^ 308 + 1 / 2 ^ 1075 := by
            have := (abs_le.1 g1).2
            have := mul_le_of_le_one_right e0 hq1
            linarith
          obtain ⟨b, hb, eb⟩ := rnd_rel (small ((10 : Rat) ^ 308) (one_le_pow₀ (by norm_num)))
          have hb' := abs_le.1 hb
          have e3 : (10 : Rat) ^ 308 / 2 ≤ rnd (10 ^ 308) := by
            rw [eb]
            have := mul_le_mul_of_nonneg_left (show (1 / 2 : Rat) ≤ 1 + b by linarith) (show (0 : Rat) ≤ 10 ^ 308 by positivity)
            linarith
          refine rnd_tiny (div_nonneg hf1 (rnd_nonneg (by positivity))) ?_
          have e4 : f1 / rnd (10 ^ 308) ≤ (2 ^ 65 / 10 ^ 308 + 2 ^ 65 / 10 ^ 308 + 1 / 2 ^ 1075) / (10 ^ 308 / 2) :=
            div_le_div₀ (by positivity) e2 (by positivity) e3
          exact lt_of_le_of_lt e4 (by norm_num)
        rw [this, divide_zero]
    rw [hz, zero_sub, abs_neg, abs_of_nonneg hv]
    have e1 : (sig : Rat) / 10 ^ k ≤ 2 ^ 64 / 10 ^ 616 :=
      div_le_div₀ (by positivity) (by exact_mod_cast hs.le) (by positivity) (pow_le_pow_right₀ (by norm_num) (by omega))
    have e2 : (2 : Rat) ^ 64 / 10 ^ 616 ≤ 2 * (1 / 2 ^ 1075) := by norm_num
    have e3 : 0 ≤ (sig : Rat) / 10 ^ k / 2 ^ 50 := by positivity
    linarith

theorem read_small {n : Numeral} (h : n.Valid) (hd : digitsValue (n.whole ++ n.frac.getD []) < 2 ^ 64)
    (h1 : n.power - ((n.frac.getD []).length : Int) < 0) :
    ∃ r, Verif.JsonFloat.read n.text = some r ∧ |r - n.value| ≤ |n.value| / 2 ^ 50 + 1 / 2 ^ 1074 := by
  obtain ⟨k, hk⟩ := Int.eq_ofNat_of_zero_le (a := -(n.power - ((n.frac.getD []).length : Int))) (by omega)
  have hk' : n.power - ((n.frac.getD []).length : Int) = -(k : Int) := by omega
  obtain ⟨r, hr, he⟩ := fromParts_small (k := k) hd (by omega)
  rw [read_text h, fromDigits_small _ hd, hk', hr]
  refine ⟨_, rfl, ?_⟩
  rw [value_eq, hk', zpow_neg, zpow_natCast, ← div_eq_mul_inv]
  have hpos : (0 : Rat) ≤ (digitsValue (n.whole ++ n.frac.getD []) : Rat) / 10 ^ k := by positivity
  cases n.neg
  · simpa [abs_of_nonneg hpos] using he
  · simp only [if_true, neg_mul, one_mul, abs_neg, abs_of_nonneg hpos]
    rw [← abs_neg] at he
    convert he using 2
    ring

/-! ## Evaluation -/

theorem rnd_place {x : Rat} {m e : Int} (he : -1074 ≤ e) (h1 : 2 ^ (e + 52) ≤ x) (h2 : x < 2 ^ (e + 53))
    (h : roundEven (x / 2 ^ e) = m) : rnd x = m * 2 ^ e := by
  have hx : 0 < x := lt_of_lt_of_le (zpow_pos (by norm_num) _) h1
  have hl : Int.log 2 |x| = e + 52 := by
    rw [abs_of_pos hx]
    apply le_antisymm
    · have := (Int.lt_zpow_iff_log_lt (b := 2) (by norm_num) hx (x := e + 53)).1 (by exact_mod_cast h2)
      omega
    · exact (Int.zpow_le_iff_le_log (b := 2) (by norm_num) hx).1 (by exact_mod_cast h1)
  have hp : place x = e := by unfold place; rw [hl]; omega
  unfold rnd
  rw [hp, h]

/-- A number between `m - 1/2` and `m + 1/2` units is rounded to `m` units. -/
theorem rnd_eval {x : Rat} (m : Nat) (e : Int) (he : -1074 ≤ e) (h1 : 2 ^ (e + 52) ≤ x) (h2 : x < 2 ^ (e + 53))
    (h : |(m : Rat) - x / 2 ^ e| < 1 / 2) : rnd x = m * 2 ^ e := by
  rw [rnd_place (m := m) he h1 h2 (roundEven_unique (by exact_mod_cast h))]
  simp

end Verif.Proofs.JsonFloat
