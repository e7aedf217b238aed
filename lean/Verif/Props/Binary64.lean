import Verif.Proofs.Binary64
import Verif.Props.Dms
import Verif.Props.Quantize
/-!
# The arithmetic of doubles

`Spec/Binary64` says what a double is and what rounding is in IEEE 754.  The rounding of the model is this one, and it is within the
error bound that the theorems on coordinates assume (`Rounding`).
-/

namespace Verif.Props
open Verif.Model Verif.Spec.Binary64

/-- **C41, rounding.**  The result of `rnd` is what IEEE 754 prescribes: the nearest double, and of two nearest ones the one whose last
bit is 0. -/
theorem C41_ieee_rounding (x : Rat) : IsRounded x (Binary64.rnd x) := Binary64.rnd_rounded x

/-- **C41, rounding.**  There is only one such number. -/
theorem C41_ieee_unique {x r : Rat} (h : IsRounded x r) : r = Binary64.rnd x := Binary64.rounded_unique h (Binary64.rnd_rounded x)

/-- The arithmetic of doubles, `{:.3}` with ties to even. -/
def binary64 : Rounding where
  rnd := Binary64.rnd
  near x _ := Binary64.rnd_near x
  nat _ h := Binary64.rnd_nat h
  nonneg _ h := Binary64.rnd_nonneg h
  milli x := (Binary64.roundEven (1000 * x)).toNat
  milli_near x h := by
    have h1 := Binary64.roundEven_near (1000 * x)
    have h2 := abs_le.1 h1
    have h3 : (-1 : Rat) < Binary64.roundEven (1000 * x) := by linarith
    have h4 : (-1 : Int) < Binary64.roundEven (1000 * x) := by exact_mod_cast h3
    have h5 : (((Binary64.roundEven (1000 * x)).toNat : Int) : Rat) = (Binary64.roundEven (1000 * x) : Rat) := by
      rw [Int.toNat_of_nonneg (by omega)]
    rw [Int.cast_natCast] at h5
    rw [h5, abs_sub_comm]
    exact h1

/-- C41 for doubles -/
example : binary64.fmt (binary64.fromDms .pos 48 21 (binary64.rnd ((13456 : Nat) / 1000))) true = c!"N048.21.13.456" :=
  C41_dms_text binary64 .pos true (by decide) (by decide) (by decide)

/-- One third is not a double, so it is rounded. -/
example : binary64.rnd (1 / 3) ≠ 1 / 3 := by
  intro h
  obtain ⟨m, e, _, _, h1⟩ := Binary64.rnd_isDouble (1 / 3)
  rw [show Binary64.rnd (1 / 3) = 1 / 3 from h] at h1
  rcases Int.le_total 0 e with he | he
  · obtain ⟨k, rfl⟩ := Int.eq_ofNat_of_zero_le he
    have : (1 : Int) = 3 * (m * 2 ^ k) := by
      have : (1 : Rat) = 3 * (m * 2 ^ k) := by rw [← zpow_natCast, ← h1]; norm_num
      exact_mod_cast this
    omega
  · obtain ⟨k, hk⟩ := Int.eq_ofNat_of_zero_le (Int.neg_nonneg.2 he)
    have : (2 : Int) ^ k = 3 * m := by
      have : (2 : Rat) ^ k = 3 * m := by
        have : (m : Rat) = 1 / 3 * 2 ^ k := by
          rw [h1, mul_assoc, ← zpow_natCast, ← hk, ← zpow_add₀ (by norm_num)]
          simp
        rw [this]
        ring
      exact_mod_cast this
    have h2 : ∀ k : Nat, (2 : Int) ^ k % 3 ≠ 0 := by
      intro k
      induction k with
      | zero => decide
      | succ k ih => rw [pow_succ]; omega
    exact h2 k (by omega)

end Verif.Props
