import Mathlib.Tactic.Linarith
import Mathlib.Tactic.Ring
import Mathlib.Tactic.FieldSimp
import Mathlib.Tactic.Positivity
import Verif.Spec.Binary64
import Verif.Model.Binary64
/-!
# Lemmas on the rounding of doubles
-/

namespace Verif.Model.Binary64
open Verif.Spec.Binary64

theorem roundEven_near (x : Rat) : |(roundEven x : Rat) - x| ≤ 1 / 2 := by
  have h1 := Int.floor_le x
  have h2 := Int.lt_floor_add_one x
  unfold roundEven
  split
  · rw [abs_le]; constructor <;> linarith
  · split
    · push_cast; rw [abs_le]; constructor <;> linarith
    · split
      · rw [abs_le]; constructor <;> linarith
      · push_cast; rw [abs_le]; constructor <;> linarith

theorem roundEven_int (n : Int) : roundEven (n : Rat) = n := by
  unfold roundEven
  rw [Int.floor_intCast, if_pos]
  norm_num

/-- An integer nearer than 1/2 is the one. -/
theorem roundEven_unique {x : Rat} {n : Int} (h : |(n : Rat) - x| < 1 / 2) : roundEven x = n := by
  have h1 := roundEven_near x
  have h2 : |((roundEven x - n : Int) : Rat)| < 1 := by
    push_cast
    have := abs_sub_le (roundEven x : Rat) x n
    rw [abs_sub_comm x] at this
    linarith
  have h3 : |roundEven x - n| < 1 := by exact_mod_cast h2
  have := Int.abs_lt_one_iff.1 h3
  omega

theorem roundEven_nearest (x : Rat) (n : Int) : |(roundEven x : Rat) - x| ≤ |(n : Rat) - x| := by
  by_cases h : |(n : Rat) - x| < 1 / 2
  · rw [roundEven_unique h]
  · exact (roundEven_near x).trans (not_lt.1 h)

/-- If another integer is equally near, the one is even. -/
theorem roundEven_tie {x : Rat} {n : Int} (h : |(roundEven x : Rat) - x| = |(n : Rat) - x|) (hn : n ≠ roundEven x) : roundEven x % 2 = 0 := by
  have h1 := Int.floor_le x
  have h2 := Int.lt_floor_add_one x
  have hh : ¬ |(n : Rat) - x| < 1 / 2 := fun hh => hn (roundEven_unique hh).symm
  rw [← h] at hh
  revert hh
  unfold roundEven
  split
  · intro hh
    refine (hh ?_).elim
    rw [abs_lt]; constructor <;> linarith
  · split
    · intro hh
      refine (hh ?_).elim
      push_cast; rw [abs_lt]; constructor <;> linarith
    · split
      · intro _; assumption
      · intro _; omega

theorem roundEven_neg (x : Rat) : roundEven (-x) = -roundEven x := by
  by_cases hx : ((⌊x⌋ : Int) : Rat) = x
  · rw [← hx, ← Int.cast_neg, roundEven_int, roundEven_int]
  · have h1 := lt_of_le_of_ne (Int.floor_le x) hx
    have h2 := Int.lt_floor_add_one x
    have hf : ⌊-x⌋ = -⌊x⌋ - 1 := by
      rw [Int.floor_eq_iff]
      push_cast
      constructor <;> linarith
    unfold roundEven
    rw [hf]
    push_cast
    by_cases a : x - ⌊x⌋ < 1 / 2
    · rw [if_pos a, if_neg (by linarith), if_pos (by linarith)]
      omega
    · by_cases b : 1 / 2 < x - ⌊x⌋
      · rw [if_neg a, if_pos b, if_pos (by linarith)]
        omega
      · rw [if_neg a, if_neg b, if_neg (by linarith), if_neg (by linarith)]
        split <;> split <;> omega

theorem pow_pos' (e : Int) : (0 : Rat) < 2 ^ e := zpow_pos (by norm_num) e

theorem rnd_zero : rnd 0 = 0 := by
  unfold rnd
  rw [zero_div]
  have := roundEven_int 0
  rw [Int.cast_zero] at this
  rw [this]
  simp

theorem place_ge (x : Rat) : -1074 ≤ place x := le_max_left _ _

/-- `x` has less than 53 bits in front of its last place. -/
theorem scaled_lt (x : Rat) : |x / 2 ^ place x| < 2 ^ 53 := by
  rw [abs_div, abs_of_pos (pow_pos' _), div_lt_iff₀ (pow_pos' _)]
  refine (Int.lt_zpow_succ_log_self (R := Rat) (b := 2) (by norm_num) |x|).trans_le ?_
  have h : Int.log 2 |x| - 52 ≤ place x := le_max_right _ _
  calc ((2 : Nat) : Rat) ^ (Int.log 2 |x| + 1) ≤ (2 : Rat) ^ (53 + place x) := zpow_le_zpow_right₀ (by norm_num) (by omega)
    _ = 2 ^ 53 * 2 ^ place x := by rw [zpow_add₀ (by norm_num)]; norm_num

/-- `x` has 53 bits unless the last place is the least possible. -/
theorem scaled_ge {x : Rat} (h0 : x ≠ 0) (h : place x ≠ -1074) : 2 ^ 52 ≤ |x / 2 ^ place x| := by
  rw [abs_div, abs_of_pos (pow_pos' _), le_div_iff₀ (pow_pos' _)]
  have hp : place x = Int.log 2 |x| - 52 := by unfold place at h ⊢; omega
  have := Int.zpow_log_le_self (R := Rat) (b := 2) (by norm_num) (abs_pos.2 h0)
  refine le_trans (le_of_eq ?_) this
  rw [hp]
  have : Int.log 2 |x| = 52 + (Int.log 2 |x| - 52) := by omega
  conv => rhs; rw [this]
  rw [Nat.cast_ofNat, zpow_add₀ (by norm_num)]
  norm_num

theorem rnd_sub (x : Rat) (q : Rat) : |q * 2 ^ place x - x| = |q - x / 2 ^ place x| * 2 ^ place x := by
  have h := pow_pos' (place x)
  have : q * 2 ^ place x - x = (q - x / 2 ^ place x) * 2 ^ place x := by field_simp
  rw [this, abs_mul, abs_of_pos h]

theorem significand_le (x : Rat) : |roundEven (x / 2 ^ place x)| ≤ 2 ^ 53 := by
  have h1 := scaled_lt x
  generalize x / 2 ^ place x = y at *
  have h2 := abs_lt.1 h1
  have h3 := abs_le.1 (roundEven_near y)
  have hl : (-(2 ^ 53) - 1 : Rat) < (roundEven y : Rat) := by linarith
  have hr : (roundEven y : Rat) < 2 ^ 53 + 1 := by linarith
  have hl' : (-(2 ^ 53) - 1 : Int) < roundEven y := by exact_mod_cast hl
  have hr' : roundEven y < (2 ^ 53 + 1 : Int) := by exact_mod_cast hr
  rw [abs_le]
  constructor <;> omega

theorem significand_ge {x : Rat} (h0 : x ≠ 0) (h : place x ≠ -1074) : 2 ^ 52 ≤ |roundEven (x / 2 ^ place x)| := by
  have h1 := scaled_ge h0 h
  generalize x / 2 ^ place x = y at *
  have h3 := abs_le.1 (roundEven_near y)
  rcases le_abs.1 h1 with h2 | h2
  · have : (2 ^ 52 - 1 : Rat) < (roundEven y : Rat) := by linarith
    have : (2 ^ 52 - 1 : Int) < roundEven y := by exact_mod_cast this
    rw [le_abs]; omega
  · have : (roundEven y : Rat) < -(2 ^ 52) + 1 := by linarith
    have : roundEven y < -(2 ^ 52) + 1 := by exact_mod_cast this
    rw [le_abs]; omega

/-- The rounded number, written in full. -/
theorem rnd_normalised (x : Rat) (h0 : x ≠ 0) : ∃ m e : Int, Normalised m e ∧ rnd x = m * 2 ^ e ∧ (roundEven (x / 2 ^ place x) % 2 = 0 → m % 2 = 0) := by
  have h1 := significand_le x
  have hp := place_ge x
  by_cases he : |roundEven (x / 2 ^ place x)| = 2 ^ 53
  · refine ⟨roundEven (x / 2 ^ place x) / 2, place x + 1, ⟨?_, by omega, .inl ?_⟩, ?_, ?_⟩
    · rcases abs_eq (by norm_num : (0 : Int) ≤ 2 ^ 53) |>.1 he with h | h <;> rw [h] <;> norm_num
    · rcases abs_eq (by norm_num : (0 : Int) ≤ 2 ^ 53) |>.1 he with h | h <;> rw [h] <;> norm_num
    · unfold rnd
      rw [zpow_add₀ (by norm_num)]
      rcases abs_eq (by norm_num : (0 : Int) ≤ 2 ^ 53) |>.1 he with h | h <;> rw [h] <;> norm_num <;> ring
    · intro _
      rcases abs_eq (by norm_num : (0 : Int) ≤ 2 ^ 53) |>.1 he with h | h <;> rw [h] <;> norm_num
  · refine ⟨roundEven (x / 2 ^ place x), place x, ⟨lt_of_le_of_ne h1 he, hp, ?_⟩, rfl, id⟩
    by_cases h : place x = -1074
    · exact .inr h
    · exact .inl (significand_ge h0 h)

theorem rnd_isDouble (x : Rat) : IsDouble (rnd x) := by
  by_cases h0 : x = 0
  · exact ⟨0, 0, by norm_num, by norm_num, by rw [h0, rnd_zero]; simp⟩
  · obtain ⟨m, e, h, h', _⟩ := rnd_normalised x h0
    exact ⟨m, e, h.1, h.2.1, h'⟩

/-- Of the doubles only multiples of the last place can compete, and the least number of this size. -/
theorem rnd_compete {x q : Rat} (hq : IsDouble q) :
    ∃ n : Int, |(n : Rat) * 2 ^ place x - x| ≤ |q - x| ∧ (q = n * 2 ^ place x ∨ |(n : Rat) * 2 ^ place x - x| < |q - x|) := by
  by_cases h0 : x = 0
  · subst h0
    refine ⟨0, by simp, ?_⟩
    by_cases hz : q = 0
    · exact .inl (by simp [hz])
    · exact .inr (by simpa using hz)
  obtain ⟨m, e, hm, he, rfl⟩ := hq
  by_cases h : place x ≤ e
  · refine ⟨m * 2 ^ (e - place x).toNat, ?_, .inl ?_⟩
    all_goals
      have : (((m * 2 ^ (e - place x).toNat : Int) : Rat)) * 2 ^ place x = m * 2 ^ e := by
        push_cast
        rw [mul_assoc, ← zpow_natCast, ← zpow_add₀ (by norm_num)]
        congr 2
        omega
      rw [this]
  · have hp : place x ≠ -1074 := by omega
    have hs := scaled_ge h0 hp
    rw [abs_div, abs_of_pos (pow_pos' _), le_div_iff₀ (pow_pos' _)] at hs
    have hq : |(m : Rat) * 2 ^ e| < 2 ^ 52 * 2 ^ place x := by
      rw [abs_mul, abs_of_pos (pow_pos' _)]
      have h1 : (|(m : Rat)|) < 2 ^ 53 := by exact_mod_cast hm
      calc |(m : Rat)| * 2 ^ e < 2 ^ 53 * 2 ^ e := mul_lt_mul_of_pos_right h1 (pow_pos' _)
        _ = 2 ^ 52 * 2 ^ (e + 1) := by rw [zpow_add₀ (by norm_num)]; ring
        _ ≤ 2 ^ 52 * 2 ^ place x := mul_le_mul_of_nonneg_left (zpow_le_zpow_right₀ (by norm_num) (by omega)) (by norm_num)
    have hq' := abs_lt.1 hq
    rcases le_abs.1 hs with h1 | h1
    · have : |((2 ^ 52 : Int) : Rat) * 2 ^ place x - x| < |(m : Rat) * 2 ^ e - x| := by
        push_cast
        rw [abs_of_nonpos (by linarith), abs_of_neg (by linarith)]
        linarith
      exact ⟨2 ^ 52, this.le, .inr this⟩
    · have : |((-(2 ^ 52) : Int) : Rat) * 2 ^ place x - x| < |(m : Rat) * 2 ^ e - x| := by
        push_cast
        rw [abs_of_nonneg (by linarith), abs_of_pos (by linarith)]
        linarith
      exact ⟨-(2 ^ 52), this.le, .inr this⟩

theorem rnd_grid (x : Rat) (n : Int) : |rnd x - x| ≤ |(n : Rat) * 2 ^ place x - x| := by
  unfold rnd
  rw [rnd_sub, rnd_sub]
  exact mul_le_mul_of_nonneg_right (roundEven_nearest _ _) (pow_pos' _).le

theorem rnd_nearest {x q : Rat} (hq : IsDouble q) : |rnd x - x| ≤ |q - x| := by
  obtain ⟨n, h, _⟩ := rnd_compete (x := x) hq
  exact (rnd_grid x n).trans h

theorem rnd_rounded (x : Rat) : IsRounded x (rnd x) := by
  refine ⟨rnd_isDouble x, fun q hq => rnd_nearest hq, fun q hq he hne => ?_⟩
  obtain ⟨n, h, h'⟩ := rnd_compete (x := x) hq
  rcases h' with h' | h'
  · have h0 : x ≠ 0 := by
      rintro rfl
      rw [rnd_zero] at he hne
      simp only [sub_zero, abs_zero] at he
      exact hne (abs_eq_zero.1 he.symm)
    obtain ⟨m, e, hn, h1, h2⟩ := rnd_normalised x h0
    refine ⟨m, e, hn, h1, h2 ?_⟩
    subst h'
    unfold rnd at he
    rw [rnd_sub, rnd_sub] at he
    refine roundEven_tie (mul_right_cancel₀ (pow_pos' _).ne' he) ?_
    rintro rfl
    exact hne rfl
  · have := rnd_grid x n
    linarith

theorem rnd_double {q : Rat} (hq : IsDouble q) : rnd q = q := by
  have := rnd_nearest (x := q) hq
  rw [sub_self, abs_zero] at this
  have := abs_eq_zero.1 (le_antisymm this (abs_nonneg _))
  linarith

theorem rnd_near (x : Rat) : |rnd x - x| ≤ |x| / 2 ^ 53 + 1 / 2 ^ 1075 := by
  by_cases hx : x = 0
  · rw [hx, rnd_zero, sub_self, abs_zero, zero_div, zero_add]
    exact one_div_nonneg.2 (pow_nonneg (by norm_num) _)
  have h1 : |rnd x - x| ≤ 1 / 2 * 2 ^ place x := by
    unfold rnd
    rw [rnd_sub]
    exact mul_le_mul_of_nonneg_right (roundEven_near _) (pow_pos' _).le
  refine h1.trans ?_
  by_cases h : place x = -1074
  · rw [h]
    have : (1 / 2 * 2 ^ (-1074 : Int) : Rat) = 1 / 2 ^ 1075 := by
      rw [zpow_neg, show ((2 : Rat) ^ (1074 : Int)) = 2 ^ (1074 : Nat) from zpow_natCast _ _, one_div, one_div, ← mul_inv, ← pow_succ']
    rw [this]
    have := div_nonneg (abs_nonneg x) (by positivity : (0 : Rat) ≤ 2 ^ 53)
    linarith
  · by_cases h0 : x = 0
    · exact absurd h0 hx
    · have := scaled_ge h0 h
      rw [abs_div, abs_of_pos (pow_pos' _), le_div_iff₀ (pow_pos' _)] at this
      have hp : (0 : Rat) ≤ 1 / 2 ^ 1075 := by positivity
      have : (1 / 2 * 2 ^ place x : Rat) ≤ |x| / 2 ^ 53 := by
        rw [le_div_iff₀ (by norm_num)]
        linarith
      linarith

theorem rnd_nat {n : Nat} (h : n ≤ 2 ^ 53) : rnd n = n := by
  refine rnd_double ?_
  rcases Nat.lt_or_eq_of_le h with h | h
  · exact ⟨n, 0, by rw [abs_of_nonneg (by omega)]; exact_mod_cast h, by norm_num, by simp⟩
  · exact ⟨2 ^ 52, 1, by norm_num, by norm_num, by rw [h]; norm_num⟩

theorem rnd_mono {x y : Rat} (h : x ≤ y) : rnd x ≤ rnd y := by
  by_contra hn
  have hn := not_le.1 hn
  have h1 := rnd_nearest (x := x) (rnd_isDouble y)
  have h2 := rnd_nearest (x := y) (rnd_isDouble x)
  -- otherwise the results are equally near to both, and `x = y`
  have hxy : x ≠ y := by
    rintro rfl
    exact lt_irrefl _ hn
  have hlt := lt_of_le_of_ne h hxy
  rcases le_total (rnd y) x with a | a
  · rcases le_total (rnd x) x with b | b
    · rw [abs_of_nonpos (by linarith), abs_of_nonpos (by linarith)] at h1 h2
      linarith
    · rw [abs_of_nonneg (by linarith), abs_of_nonpos (by linarith)] at h1
      rcases le_total (rnd x) y with c | c
      · rw [abs_of_nonpos (by linarith), abs_of_nonpos (by linarith)] at h2
        linarith
      · rw [abs_of_nonpos (by linarith), abs_of_nonneg (by linarith)] at h2
        linarith
  · rw [abs_of_nonneg (by linarith), abs_of_nonneg (by linarith)] at h1
    linarith

theorem rnd_neg (x : Rat) : rnd (-x) = -rnd x := by
  have hp : place (-x) = place x := by unfold place; rw [abs_neg]
  unfold rnd
  rw [hp, neg_div]
  rw [roundEven_neg]
  push_cast
  ring

theorem rnd_nonneg {x : Rat} (h : 0 ≤ x) : 0 ≤ rnd x := by
  have := rnd_mono h
  rwa [rnd_zero] at this

theorem isDouble_neg {q : Rat} (h : IsDouble q) : IsDouble (-q) := by
  obtain ⟨m, e, hm, he, rfl⟩ := h
  exact ⟨-m, e, by rwa [abs_neg], he, by push_cast; ring⟩

/-- Of two neighbouring doubles one is odd. -/
theorem neighbours_odd {r r' : Rat} (h0 : 0 ≤ r) (hlt : r < r') (hn : ∀ q, IsDouble q → ¬ (r < q ∧ q < r')) {m e m' e' : Int}
    (hm : |m| < 2 ^ 53) (he : -1074 ≤ e) (hr : r = m * 2 ^ e) (hm' : |m'| < 2 ^ 53) (he' : -1074 ≤ e') (hr' : r' = m' * 2 ^ e')
    (hev : m % 2 = 0) (hev' : m' % 2 = 0) : False := by
  have h1 : 0 ≤ m := by
    rw [hr] at h0
    have : (0 : Rat) ≤ m := nonneg_of_mul_nonneg_left h0 (pow_pos' e)
    exact_mod_cast this
  have h1' : 0 < m' := by
    have : (0 : Rat) < m' * 2 ^ e' := by rw [← hr']; linarith
    have : (0 : Rat) < m' := (mul_pos_iff_of_pos_right (pow_pos' e')).1 this
    exact_mod_cast this
  rw [abs_of_nonneg h1] at hm
  rw [abs_of_pos h1'] at hm'
  have hu : r' ≤ (m + 1 : Int) * 2 ^ e := by
    by_contra hc
    refine hn _ ⟨m + 1, e, by rw [abs_of_nonneg (by omega)]; omega, he, rfl⟩ ⟨?_, not_le.1 hc⟩
    rw [hr]
    push_cast
    nlinarith [pow_pos' e]
  have hl : (m' - 1 : Int) * 2 ^ e' ≤ r := by
    by_contra hc
    refine hn _ ⟨m' - 1, e', by rw [abs_of_nonneg (by omega)]; omega, he', rfl⟩ ⟨not_le.1 hc, ?_⟩
    rw [hr']
    push_cast
    nlinarith [pow_pos' e']
  rcases Int.le_total e e' with h | h
  · obtain ⟨k, hk⟩ := Int.eq_ofNat_of_zero_le (Int.sub_nonneg.2 h)
    have e1 : r' = ((m' * 2 ^ k : Int) : Rat) * 2 ^ e := by
      rw [hr', show e' = k + e by omega, zpow_add₀ (by norm_num), zpow_natCast]
      push_cast
      ring
    rw [e1] at hu hlt
    rw [hr] at hlt
    have a1 : (m : Rat) < ((m' * 2 ^ k : Int) : Rat) := lt_of_mul_lt_mul_right hlt (pow_pos' e).le
    have a2 : ((m' * 2 ^ k : Int) : Rat) ≤ ((m + 1 : Int) : Rat) := le_of_mul_le_mul_right hu (pow_pos' e)
    have b1 : m < m' * 2 ^ k := by exact_mod_cast a1
    have b2 : m' * 2 ^ k ≤ m + 1 := by exact_mod_cast a2
    have b3 : m' * 2 ^ k % 2 = 0 := by rw [Int.mul_emod, hev']; simp
    omega
  · obtain ⟨k, hk⟩ := Int.eq_ofNat_of_zero_le (Int.sub_nonneg.2 h)
    have e1 : r = ((m * 2 ^ k : Int) : Rat) * 2 ^ e' := by
      rw [hr, show e = k + e' by omega, zpow_add₀ (by norm_num), zpow_natCast]
      push_cast
      ring
    rw [e1] at hl hlt
    rw [hr'] at hlt
    have a1 : ((m * 2 ^ k : Int) : Rat) < m' := lt_of_mul_lt_mul_right hlt (pow_pos' e').le
    have a2 : ((m' - 1 : Int) : Rat) ≤ ((m * 2 ^ k : Int) : Rat) := le_of_mul_le_mul_right hl (pow_pos' e')
    have b1 : m * 2 ^ k < m' := by exact_mod_cast a1
    have b2 : m' - 1 ≤ m * 2 ^ k := by exact_mod_cast a2
    have b3 : m * 2 ^ k % 2 = 0 := by rw [Int.mul_emod, hev]; simp
    omega

theorem rounded_le {x r r' : Rat} (h : IsRounded x r) (h' : IsRounded x r') : ¬ r < r' := by
  intro hlt
  obtain ⟨d, hn, ht⟩ := h
  obtain ⟨d', hn', ht'⟩ := h'
  have he : |r - x| = |r' - x| := le_antisymm (hn _ d') (hn' _ d)
  have hx : r ≤ x ∧ x ≤ r' := by
    rcases le_total r x with a | a
    · refine ⟨a, ?_⟩
      by_contra hc
      rw [abs_of_nonpos (by linarith), abs_of_nonpos (by linarith)] at he
      linarith
    · rw [abs_of_nonneg (by linarith), abs_of_nonneg (by linarith)] at he
      linarith
  have hbetween : ∀ q, IsDouble q → ¬ (r < q ∧ q < r') := by
    rintro q hq ⟨h1, h2⟩
    have a := hn _ hq
    have b := hn' _ hq
    rw [abs_of_nonpos (by linarith : r - x ≤ 0)] at a
    rw [abs_of_nonneg (by linarith : 0 ≤ r' - x)] at b
    rcases le_total q x with c | c
    · rw [abs_of_nonpos (by linarith)] at a
      linarith
    · rw [abs_of_nonneg (by linarith)] at b
      linarith
  obtain ⟨m, e, hm, hr, hev⟩ := ht _ d' he hlt.ne'
  obtain ⟨m', e', hm', hr', hev'⟩ := ht' _ d he.symm hlt.ne
  by_cases h0 : 0 ≤ r
  · exact neighbours_odd h0 hlt hbetween hm.1 hm.2.1 hr hm'.1 hm'.2.1 hr' hev hev'
  · have h0' : r' ≤ 0 := by
      by_contra hc
      exact hbetween 0 ⟨0, 0, by norm_num, by norm_num, by simp⟩ ⟨not_le.1 h0, not_le.1 hc⟩
    refine neighbours_odd (r := -r') (r' := -r) (by linarith) (by linarith) (fun q hq hb => ?_) (m := -m') (e := e') (m' := -m) (e' := e)
      (by rw [abs_neg]; exact hm'.1) hm'.2.1 (by rw [hr']; push_cast; ring) (by rw [abs_neg]; exact hm.1) hm.2.1 (by rw [hr]; push_cast; ring)
      (by omega) (by omega)
    exact hbetween (-q) (isDouble_neg hq) ⟨by linarith [hb.2], by linarith [hb.1]⟩

theorem rounded_unique {x r r' : Rat} (h : IsRounded x r) (h' : IsRounded x r') : r = r' :=
  le_antisymm (not_lt.1 (rounded_le h' h)) (not_lt.1 (rounded_le h h'))

end Verif.Model.Binary64
