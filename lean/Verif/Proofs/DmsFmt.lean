import Mathlib.Tactic.Linarith
import Mathlib.Tactic.NormNum
import Mathlib.Tactic.Positivity
import Mathlib.Tactic.FieldSimp
import Verif.Model.DmsFmt
import Verif.Spec.Dms
/-!
# Rounding errors of coordinates
-/

namespace Verif.Model.Rounding
open Verif.Dms Verif.Spec.Dms
variable (R : Rounding)

/-- The rounding error of numbers up to a bound. -/
theorem rnd_err {x : Rat} (b : Rat) (hx : |x| ≤ b) (h1 : 1 / 1000 ≤ b) (h2 : b ≤ 1000000) : |R.rnd x - x| ≤ b * (2 / 10 ^ 16) := by
  have h3 : |x| ≤ 2 ^ 1000 := le_trans hx (le_trans h2 (le_trans (by norm_num : (1000000 : Rat) ≤ 2 ^ 20) (pow_le_pow_right₀ (by norm_num) (by norm_num))))
  have h4 := R.near x h3
  have h5 : (1 : Rat) / 2 ^ 1075 ≤ 1 / 10 ^ 20 := by
    refine one_div_le_one_div_of_le (by norm_num) (le_trans (by norm_num : (10 : Rat) ^ 20 ≤ 2 ^ 80) (pow_le_pow_right₀ (by norm_num) (by norm_num)))
  generalize (1 : Rat) / 2 ^ 1075 = tiny at h4 h5
  have h6 : |x| / 2 ^ 53 ≤ b / 2 ^ 53 := by
    have : (0 : Rat) < 2 ^ 53 := by norm_num
    exact div_le_div_of_nonneg_right hx this.le
  have h7 : b / 2 ^ 53 + 1 / 10 ^ 20 ≤ b * (2 / 10 ^ 16) := by
    rw [div_eq_mul_inv b]
    norm_num
    linarith
  linarith

theorem rnd_zero : R.rnd 0 = 0 := by
  have := R.nat 0 (by norm_num)
  simpa using this

theorem floor_of {x : Rat} {n : Nat} (h1 : (n : Rat) ≤ x) (h2 : x < n + 1) : x.floor = n := by
  have : ⌊x⌋ = (n : Int) := Int.floor_eq_iff.2 ⟨by simpa using h1, by simpa using h2⟩
  exact this

theorem milli_of {x : Rat} {k : Nat} (h0 : 0 ≤ x) (h : |1000 * x - k| < 1 / 2) : R.milli x = k := by
  have h1 := R.milli_near x h0
  rw [abs_le] at h1
  rw [abs_lt] at h
  have h2 : (R.milli x : Rat) < k + 1 := by linarith
  have h3 : (k : Rat) < R.milli x + 1 := by linarith
  have h4 : R.milli x < k + 1 := by exact_mod_cast h2
  have h5 : k < R.milli x + 1 := by exact_mod_cast h3
  omega

/-- The value of a coordinate with rounding errors. -/
theorem fromDms_near' {sign : Sign} {d m : Nat} {q : Rat} (hd : d ≤ 65535) (hm : m ≤ 59) (k0 : 0 ≤ q) (hk' : q ≤ 60) (hq : q = 0 ∨ 1 / 1000 ≤ q) :
    |(R.fromDms sign d m (R.rnd q)).mag - (d + m / 60 + q / 3600)| ≤ 3 / 10 ^ 11 ∧
      (d : Rat) ≤ (R.fromDms sign d m (R.rnd q)).mag := by
  have hd' : (d : Rat) ≤ 65535 := by exact_mod_cast hd
  have hm' : (m : Rat) ≤ 59 := by exact_mod_cast hm
  have d0 : (0 : Rat) ≤ d := by positivity
  have m0 : (0 : Rat) ≤ m := by positivity
  have ed : R.rnd d = d := R.nat d (by omega)
  have em : R.rnd m = m := R.nat m (by omega)
  show |R.rnd (R.rnd (R.rnd d + R.rnd (R.rnd m / 60)) + R.rnd (R.rnd q / 3600)) - _| ≤ _ ∧
    (d : Rat) ≤ R.rnd (R.rnd (R.rnd d + R.rnd (R.rnd m / 60)) + R.rnd (R.rnd q / 3600))
  rw [ed, em]
  have a1 := R.rnd_err (x := (m : Rat) / 60) 1 (by rw [abs_le]; constructor <;> linarith) (by norm_num) (by norm_num)
  have p1 := R.nonneg ((m : Rat) / 60) (by positivity)
  generalize hq1 : R.rnd ((m : Rat) / 60) = q1 at *
  rw [abs_le] at a1
  have a2 := R.rnd_err (x := (d : Rat) + q1) 65537 (by rw [abs_le]; constructor <;> linarith) (by norm_num) (by norm_num)
  generalize hq2 : R.rnd ((d : Rat) + q1) = q2 at *
  rw [abs_le] at a2
  have a3 := R.rnd_err (x := q) 60 (by rw [abs_le]; constructor <;> linarith) (by norm_num) (by norm_num)
  have p3 := R.nonneg q k0
  generalize hq3 : R.rnd q = q3 at *
  rw [abs_le] at a3
  have a4 := R.rnd_err (x := q3 / 3600) 1 (by rw [abs_le]; constructor <;> linarith) (by norm_num) (by norm_num)
  generalize hq4 : R.rnd (q3 / 3600) = q4 at *
  rw [abs_le] at a4
  have a5 := R.rnd_err (x := q2 + q4) 65540 (by rw [abs_le]; constructor <;> linarith) (by norm_num) (by norm_num)
  generalize hv : R.rnd (q2 + q4) = v at *
  rw [abs_le] at a5
  refine ⟨?_, ?_⟩
  · rw [abs_le]
    constructor <;> linarith
  · rcases hq with rfl | h
    · by_cases hz : m = 0
      · subst hz
        have e1 : q1 = 0 := by rw [← hq1]; simpa using R.rnd_zero
        have e2 : q2 = d := by rw [← hq2, e1, add_zero]; exact ed
        have e3 : q3 = 0 := by rw [← hq3]; simpa using R.rnd_zero
        have e4 : q4 = 0 := by rw [← hq4, e3]; simpa using R.rnd_zero
        rw [← hv, e2, e4, add_zero, ed]
      · have : (1 : Rat) ≤ m := by exact_mod_cast Nat.one_le_iff_ne_zero.2 hz
        linarith
    · linarith

/-- The same for thousandths of a second. -/
theorem fromDms_near {sign : Sign} {d m k : Nat} (hd : d ≤ 65535) (hm : m ≤ 59) (hk : k ≤ 59999) :
    |(R.fromDms sign d m (R.rnd (k / 1000))).mag - (d + m / 60 + k / 3600000)| ≤ 3 / 10 ^ 11 ∧
      (d : Rat) ≤ (R.fromDms sign d m (R.rnd (k / 1000))).mag := by
  have hk' : (k : Rat) ≤ 59999 := by exact_mod_cast hk
  have k0 : (0 : Rat) ≤ k := by positivity
  have h := R.fromDms_near' (sign := sign) (d := d) (m := m) (q := (k : Rat) / 1000) hd hm (by positivity) (by linarith) (by
    by_cases h : k = 0
    · left; subst h; simp
    · right
      have : (1 : Rat) ≤ k := by exact_mod_cast Nat.one_le_iff_ne_zero.2 h
      linarith)
  rw [div_div] at h
  norm_num at h ⊢
  exact h

/-- What is printed for a coordinate near degrees, minutes and thousandths of a second. -/
theorem parts_near {x : Double} {lat : Bool} {d m k : Nat} (hd : d ≤ 65535) (hm : m ≤ 59) (hk : k ≤ 59999)
    (h1 : |x.mag - (d + m / 60 + k / 3600000)| ≤ 3 / 10 ^ 11) (h2 : (d : Rat) ≤ x.mag) :
    R.fmt x lat = hemisphere lat x.neg :: (padZero 3 (showRadix 10 (min 255 d)) ++ '.' :: (padZero 2 (showRadix 10 m) ++ '.' ::
      padZero 6 (showRadix 10 (k / 1000) ++ '.' :: padZero 3 (showRadix 10 (k % 1000))))) := by
  have hd' : (d : Rat) ≤ 65535 := by exact_mod_cast hd
  have hm' : (m : Rat) ≤ 59 := by exact_mod_cast hm
  have hk' : (k : Rat) ≤ 59999 := by exact_mod_cast hk
  have m0 : (0 : Rat) ≤ m := by positivity
  have k0 : (0 : Rat) ≤ k := by positivity
  rw [abs_le] at h1
  have f1 : x.mag.floor = (d : Int) := floor_of h2 (by linarith)
  have g1 : asU8 x.mag = min 255 d := by unfold asU8; rw [f1]; rfl
  have g2 : fract x.mag = x.mag - d := by unfold fract; rw [f1]; rfl
  have a1 := R.rnd_err (x := (x.mag - d) * 60) 60 (by rw [abs_le]; constructor <;> linarith) (by norm_num) (by norm_num)
  have p1 := R.nonneg ((x.mag - d) * 60) (by linarith)
  -- the threshold
  have at' := R.rnd_err (x := 1 / 1000000) (1 / 1000) (by rw [abs_le]; constructor <;> norm_num) (by norm_num) (by norm_num)
  generalize ht : R.rnd (1 / 1000000) = t at *
  rw [abs_le] at at'
  have hdir : (match lat, x.neg with | true, false => 'N' | true, true => 'S' | false, false => 'E' | false, true => 'W') = hemisphere lat x.neg := by
    cases lat <;> cases x.neg <;> rfl
  have main : ∃ mm ss carry, asU8 (R.rnd ((x.mag - d) * 60)) = mm ∧ R.rnd (fract (R.rnd ((x.mag - d) * 60)) * 60) = ss ∧
      decide (|R.rnd (ss - 60)| < t) = carry ∧ mm + carry.toNat = m ∧ R.milli (if carry then 0 else ss) = k := by
    generalize hM : R.rnd ((x.mag - d) * 60) = M at *
    rw [abs_le] at a1
    have fl : ∀ n : Nat, n ≤ 255 → (n : Rat) ≤ M → M < n + 1 → asU8 M = n ∧ fract M = M - n := by
      intro n hn l1 l2
      have f2 := floor_of l1 l2
      unfold asU8 fract
      rw [f2]
      exact ⟨by show min 255 n = n; omega, rfl⟩
    by_cases hlow : (m : Rat) ≤ M
    · obtain ⟨e1, e2⟩ := fl m (by omega) hlow (by linarith)
      have a2 := R.rnd_err (x := (M - m) * 60) 60 (by rw [abs_le]; constructor <;> linarith) (by norm_num) (by norm_num)
      have p2 := R.nonneg ((M - m) * 60) (by linarith)
      generalize hS : R.rnd ((M - m) * 60) = S at *
      rw [abs_le] at a2
      have a3 := R.rnd_err (x := S - 60) 61 (by rw [abs_le]; constructor <;> linarith) (by norm_num) (by norm_num)
      generalize hC : R.rnd (S - 60) = C at *
      rw [abs_le] at a3
      refine ⟨m, S, false, e1, by rw [e2]; exact hS, ?_, by simp, ?_⟩
      · rw [hC, decide_eq_false_iff_not, not_lt, abs_of_neg (by linarith)]
        linarith
      · refine R.milli_of p2 ?_
        show |1000 * S - k| < 1 / 2
        rw [abs_lt]
        constructor <;> linarith
    · have hlow : M < m := not_le.1 hlow
      have hk0 : k = 0 := by
        by_contra hne
        have : (1 : Rat) ≤ k := by exact_mod_cast Nat.one_le_iff_ne_zero.2 hne
        linarith
      subst hk0
      have hm1 : 1 ≤ m := by
        by_contra hne
        have : m = 0 := by omega
        subst this
        have : M < 0 := by simpa using hlow
        linarith
      obtain ⟨n, rfl⟩ : ∃ n, m = n + 1 := ⟨m - 1, by omega⟩
      push_cast at hlow h1 hm' m0
      obtain ⟨e1, e2⟩ := fl n (by omega) (by linarith) (by linarith)
      have a2 := R.rnd_err (x := (M - n) * 60) 60 (by rw [abs_le]; constructor <;> linarith) (by norm_num) (by norm_num)
      generalize hS : R.rnd ((M - n) * 60) = S at *
      rw [abs_le] at a2
      have a3 := R.rnd_err (x := S - 60) 1 (by rw [abs_le]; constructor <;> linarith) (by norm_num) (by norm_num)
      generalize hC : R.rnd (S - 60) = C at *
      rw [abs_le] at a3
      refine ⟨n, S, true, e1, by rw [e2]; exact hS, ?_, rfl, ?_⟩
      · rw [hC, decide_eq_true_eq, abs_lt]
        constructor <;> linarith
      · refine R.milli_of (le_refl _) ?_
        norm_num
  obtain ⟨mm, ss, carry, e1, e2, e3, e4, e5⟩ := main
  unfold fmt decimalToDms fmtSec
  simp only [g1, g2, ht, e1, e2, e3, e4, e5]
  rw [← hdir]
  rfl

theorem pad3 {n : Nat} (h : n < 1000) : padZero 3 (showRadix 10 n) = three n := by
  have : ∀ n : Fin 1000, padZero 3 (showRadix 10 n.val) = three n.val := by decide +kernel
  exact this ⟨n, h⟩

theorem pad2 {n : Nat} (h : n < 100) : padZero 2 (showRadix 10 n) = two n := by
  have : ∀ n : Fin 100, padZero 2 (showRadix 10 n.val) = two n.val := by decide +kernel
  exact this ⟨n, h⟩

theorem pad6 {n : Nat} {s : Str} (h : n < 100) (hs : s.length = 4) : padZero 6 (showRadix 10 n ++ s) = two n ++ s := by
  rw [← pad2 h]
  unfold padZero
  rw [← List.append_assoc, List.length_append, hs]
  have : 6 - ((showRadix 10 n).length + 4) = 2 - (showRadix 10 n).length := by omega
  rw [this]

/-- The text for a coordinate near degrees, minutes and thousandths of a second. -/
theorem fmt_near {x : Double} {lat : Bool} {d m k : Nat} (hd : d ≤ 65535) (hm : m ≤ 59) (hk : k ≤ 59999)
    (h1 : |x.mag - (d + m / 60 + k / 3600000)| ≤ 3 / 10 ^ 11) (h2 : (d : Rat) ≤ x.mag) :
    R.fmt x lat = text (hemisphere lat x.neg) (min 255 d) m k := by
  rw [R.parts_near hd hm hk h1 h2, pad3 (by omega), pad2 (by omega), pad6 (by omega) (by rw [pad3 (by omega)]; rfl), pad3 (by omega)]
  rfl

/-- Degrees, minutes and seconds of a coordinate whose seconds are away from the ends. -/
theorem split_near {x : Double} {d m : Nat} {q : Rat} (hm : m ≤ 59) (k0 : 1 / 1000 ≤ q) (hk' : q ≤ 60 - 1 / 2000000)
    (h1 : |x.mag - (d + m / 60 + q / 3600)| ≤ 3 / 10 ^ 11) (h2 : (d : Rat) ≤ x.mag) :
    asU8 x.mag = min 255 d ∧ asU8 (R.rnd (fract x.mag * 60)) = m ∧ |R.rnd (fract (R.rnd (fract x.mag * 60)) * 60) - q| ≤ 2 / 10 ^ 7 ∧
      0 ≤ R.rnd (fract (R.rnd (fract x.mag * 60)) * 60) := by
  have hm' : (m : Rat) ≤ 59 := by exact_mod_cast hm
  have m0 : (0 : Rat) ≤ m := by positivity
  rw [abs_le] at h1
  have f1 : x.mag.floor = (d : Int) := floor_of h2 (by linarith)
  have g1 : asU8 x.mag = min 255 d := by unfold asU8; rw [f1]; rfl
  have g2 : fract x.mag = x.mag - d := by unfold fract; rw [f1]; rfl
  rw [g2]
  have a1 := R.rnd_err (x := (x.mag - d) * 60) 60 (by rw [abs_le]; constructor <;> linarith) (by norm_num) (by norm_num)
  generalize hM : R.rnd ((x.mag - d) * 60) = M at *
  rw [abs_le] at a1
  have f2 : M.floor = (m : Int) := floor_of (by linarith) (by linarith)
  have g3 : asU8 M = m := by unfold asU8; rw [f2]; show min 255 m = m; omega
  have g4 : fract M = M - m := by unfold fract; rw [f2]; rfl
  rw [g4]
  have a2 := R.rnd_err (x := (M - m) * 60) 60 (by rw [abs_le]; constructor <;> linarith) (by norm_num) (by norm_num)
  have p2 := R.nonneg ((M - m) * 60) (by linarith)
  generalize hS : R.rnd ((M - m) * 60) = S at *
  rw [abs_le] at a2
  refine ⟨g1, g3, ?_, p2⟩
  rw [abs_le]
  constructor <;> linarith

/-- The threshold of the carry, with its rounding error. -/
theorem threshold : |R.rnd (1 / 1000000) - 1 / 1000000| ≤ 1 / 1000 * (2 / 10 ^ 16) :=
  R.rnd_err (x := 1 / 1000000) (1 / 1000) (by rw [abs_le]; constructor <;> norm_num) (by norm_num) (by norm_num)

/-- Printing from the parts. -/
theorem fmt_parts {x : Double} {lat : Bool} {d m k : Nat} {s : Rat} (carry : Bool) (hd : d ≤ 255) (hm : m + carry.toNat < 100) (hk : k < 100000)
    (e0 : asU8 x.mag = d) (e1 : asU8 (R.rnd (fract x.mag * 60)) = m) (e2 : R.rnd (fract (R.rnd (fract x.mag * 60)) * 60) = s)
    (e3 : decide (|R.rnd (s - 60)| < R.rnd (1 / 1000000)) = carry) (e4 : R.milli (if carry then 0 else s) = k) :
    R.fmt x lat = text (hemisphere lat x.neg) d (m + carry.toNat) k := by
  have hdir : (match lat, x.neg with | true, false => 'N' | true, true => 'S' | false, false => 'E' | false, true => 'W') = hemisphere lat x.neg := by
    cases lat <;> cases x.neg <;> rfl
  unfold fmt decimalToDms fmtSec
  simp only [e0, e1, e2, e3, e4]
  rw [pad3 (by omega), pad2 hm, pad6 (by omega) (by rw [pad3 (by omega)]; rfl), pad3 (by omega)]
  show _ = hemisphere lat x.neg :: _
  rw [← hdir]
  rfl

end Verif.Model.Rounding
