import Verif.Proofs.DmsFmt
/-!
# C41: the text of coordinates

`Rounding` is any arithmetic whose results are within the error bound of doubles.  `text` is the specification of the text,
`Verif.Spec.Dms`.
-/

namespace Verif.Props
open Verif.Model Verif.Model.Rounding Verif.Dms Verif.Spec.Dms

/-- The hemisphere is the sign. -/
def hemi (isLatitude : Bool) (sign : Sign) : Char := hemisphere isLatitude (sign == .neg)

/-- **C41.**  A coordinate built from a sign, whole degrees, whole minutes and thousandths of a second prints as exactly these degrees,
minutes and thousandths, whatever the rounding of the intermediate results; also for zero and at whole minutes and degrees, and above
255 degrees the degrees are printed as 255. -/
theorem C41_dms_text (R : Rounding) (sign : Sign) (lat : Bool) {deg min milli : Nat} (hd : deg ≤ 65535) (hm : min ≤ 59) (hk : milli ≤ 59999) :
    R.fmt (R.fromDms sign deg min (R.rnd (milli / 1000))) lat = text (hemi lat sign) (if deg ≤ 255 then deg else 255) min milli := by
  obtain ⟨h1, h2⟩ := R.fromDms_near (sign := sign) hd hm hk
  rw [R.fmt_near hd hm hk h1 h2]
  have : Min.min 255 deg = if deg ≤ 255 then deg else 255 := by split <;> omega
  rw [this]
  rfl

/-- **C41.**  The same for every coordinate that is that near to it: printing tolerates an error of 3·10⁻¹¹ degrees. -/
theorem C41_tolerance (R : Rounding) (x : Double) (lat : Bool) {deg min milli : Nat} (hd : deg ≤ 255) (hm : min ≤ 59) (hk : milli ≤ 59999)
    (near : |x.mag - (deg + min / 60 + milli / 3600000)| ≤ 3 / 10 ^ 11) (low : (deg : Rat) ≤ x.mag) :
    R.fmt x lat = text (hemisphere lat x.neg) deg min milli := by
  rw [R.fmt_near (by omega) hm hk near low]
  have : Min.min 255 deg = deg := by omega
  rw [this]

/-- **C41.**  Finer seconds can round up to sixty: with 59.9999 seconds the text has seconds `60.000`, for every rounding. -/
theorem C41_sixty_seconds (R : Rounding) (sign : Sign) (lat : Bool) {deg min : Nat} (hd : deg ≤ 255) (hm : min ≤ 59) :
    R.fmt (R.fromDms sign deg min (R.rnd (599999 / 10000))) lat = text (hemi lat sign) deg min 60000 := by
  obtain ⟨h1, h2⟩ := R.fromDms_near' (sign := sign) (d := deg) (m := min) (q := 599999 / 10000) (by omega) hm (by norm_num) (by norm_num) (Or.inr (by norm_num))
  obtain ⟨e0, e1, e2, p⟩ := R.split_near hm (by norm_num) (by norm_num) h1 h2
  have ht := R.threshold
  generalize hS : R.rnd (fract (R.rnd (fract (R.fromDms sign deg min (R.rnd (599999 / 10000))).mag * 60)) * 60) = S at *
  rw [abs_le] at e2 ht
  have a3 := R.rnd_err (x := S - 60) 1 (by rw [abs_le]; constructor <;> linarith) (by norm_num) (by norm_num)
  rw [abs_le] at a3
  refine (R.fmt_parts false hd (by show min + 0 < 100; omega) (by omega) (e0.trans (by omega)) e1 hS ?_ ?_).trans rfl
  · rw [decide_eq_false_iff_not, not_lt, abs_of_neg (by linarith)]
    linarith
  · refine R.milli_of p ?_
    show |1000 * S - ((60000 : Nat) : Rat)| < 1 / 2
    push_cast
    rw [abs_lt]
    constructor <;> linarith

/-- **C41.**  The carry into the minutes does not go on into the degrees: with 59 minutes and 59.9999995 seconds the text has minutes
`60`, for every rounding. -/
theorem C41_sixty_minutes (R : Rounding) (sign : Sign) (lat : Bool) {deg : Nat} (hd : deg ≤ 255) :
    R.fmt (R.fromDms sign deg 59 (R.rnd (60 - 1 / 2000000))) lat = text (hemi lat sign) deg 60 0 := by
  obtain ⟨h1, h2⟩ := R.fromDms_near' (sign := sign) (d := deg) (m := 59) (q := 60 - 1 / 2000000) (by omega) (by omega) (by norm_num) (by norm_num) (Or.inr (by norm_num))
  obtain ⟨e0, e1, e2, p⟩ := R.split_near (by omega) (by norm_num) (by norm_num) h1 h2
  have ht := R.threshold
  generalize hS : R.rnd (fract (R.rnd (fract (R.fromDms sign deg 59 (R.rnd (60 - 1 / 2000000))).mag * 60)) * 60) = S at *
  rw [abs_le] at e2 ht
  have a3 := R.rnd_err (x := S - 60) 1 (by rw [abs_le]; constructor <;> linarith) (by norm_num) (by norm_num)
  rw [abs_le] at a3
  refine (R.fmt_parts true hd (by show 59 + 1 < 100; omega) (by omega) (e0.trans (by omega)) e1 hS ?_ ?_).trans rfl
  · rw [decide_eq_true_eq, abs_lt]
    constructor <;> linarith
  · refine R.milli_of (le_refl _) ?_
    norm_num

/-! ## Examples -/

/-- Exact arithmetic is within the error bound. -/
def exactRounding : Rounding where
  rnd x := x
  near x _ := by
    rw [sub_self, abs_zero]
    exact add_nonneg (div_nonneg (abs_nonneg x) (pow_nonneg (by norm_num) _)) (one_div_nonneg.2 (pow_nonneg (by norm_num) _))
  nat _ _ := rfl
  nonneg _ h := h
  milli x := (1000 * x + 1 / 2).floor.toNat
  milli_near x h := by
    have h0 : (0 : Rat) ≤ 1000 * x + 1 / 2 := by linarith
    have h1 : 0 ≤ ⌊1000 * x + 1 / 2⌋ := Int.floor_nonneg.2 h0
    have h2 := Int.floor_le (1000 * x + 1 / 2)
    have h3 := Int.lt_floor_add_one (1000 * x + 1 / 2)
    have h4 : (((1000 * x + 1 / 2).floor.toNat : Nat) : Rat) = ((⌊1000 * x + 1 / 2⌋ : Int) : Rat) := by
      have : (((1000 * x + 1 / 2).floor.toNat : Nat) : Int) = ⌊1000 * x + 1 / 2⌋ := Int.toNat_of_nonneg h1
      exact_mod_cast congrArg (fun z : Int => (z : Rat)) this
    rw [h4, abs_le]
    constructor <;> linarith

example (R : Rounding) : R.fmt (R.fromDms .pos 48 21 (R.rnd ((13456 : Nat) / 1000))) true = c!"N048.21.13.456" :=
  C41_dms_text R .pos true (by decide) (by decide) (by decide)

example (R : Rounding) : R.fmt (R.fromDms .neg 300 0 (R.rnd ((0 : Nat) / 1000))) false = c!"W255.00.00.000" :=
  C41_dms_text R .neg false (by decide) (by decide) (by decide)

example (R : Rounding) : R.fmt (R.fromDms .pos 11 47 (R.rnd (599999 / 10000))) false = c!"E011.47.60.000" :=
  C41_sixty_seconds R .pos false (by decide) (by decide)

example (R : Rounding) : R.fmt (R.fromDms .pos 0 59 (R.rnd (60 - 1 / 2000000))) true = c!"N000.60.00.000" :=
  C41_sixty_minutes R .pos true (by decide)

example : exactRounding.fmt (exactRounding.fromDms .pos 48 21 ((13456 : Nat) / 1000)) true = c!"N048.21.13.456" :=
  C41_dms_text exactRounding .pos true (by decide) (by decide) (by decide)

end Verif.Props
