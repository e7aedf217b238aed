import Verif.Model.Double
import Verif.Props.Dms
import Verif.Base.Sep
import Verif.Base.ShowNat
import Verif.Spec.SctDouble
import Verif.Spec.Ese
/-!
# Printed angles are read back
-/

namespace Verif.Model.Rounding
open Verif.Dms Verif.Spec.Dms
open Verif.Spec.Ese (DmsText)

variable (R : Rounding)

/-- The parts of the text of an angle. -/
def dmsText (lat : Bool) (x : R.Num) : DmsText :=
  let d : Double := x
  let minutes := R.rnd (fract d.mag * 60)
  let seconds := R.rnd (fract minutes * 60)
  let carry := decide (|R.rnd (seconds - 60)| < R.rnd (1 / 1000000))
  ⟨hemisphere lat d.neg, padZero 3 (showRadix 10 (asU8 d.mag)), padZero 2 (showRadix 10 (asU8 minutes + carry.toNat)),
    R.fmtSec (if carry then 0 else seconds)⟩

theorem dmsText_text (lat : Bool) (x : R.Num) : (R.dmsText lat x).text = R.fmt x lat := by
  obtain ⟨neg, mag⟩ := x
  cases lat <;> cases neg <;> rfl

theorem radixChar_digit {d : Nat} (h : d < 10) : isAsciiDigit (radixChar d) = true := by
  have : ∀ d : Fin 10, isAsciiDigit (radixChar d.val) = true := by decide
  exact this ⟨d, h⟩

theorem showRadix_digits (n : Nat) : IsDigits (showRadix 10 n) := by
  refine ⟨showRadix_ne_nil _ _, ?_⟩
  have : ∀ fuel n, ∀ c ∈ showRadixAux 10 fuel n, isAsciiDigit c = true := by
    intro fuel
    induction fuel with
    | zero =>
      intro n c hc
      rw [List.mem_singleton.1 hc]
      exact radixChar_digit (by omega)
    | succ fuel ih =>
      intro n c hc
      unfold showRadixAux at hc
      split at hc
      · next h =>
        rw [List.mem_singleton.1 hc]
        exact radixChar_digit h
      · rcases List.mem_append.1 hc with hc | hc
        · exact ih _ c hc
        · rw [List.mem_singleton.1 hc]
          exact radixChar_digit (by omega)
  exact this n n

theorem padZero_digits (w : Nat) {s : Str} (h : IsDigits s) : IsDigits (padZero w s) := by
  refine ⟨by simp [padZero, h.1], fun c hc => ?_⟩
  rcases List.mem_append.1 hc with hc | hc
  · rw [List.eq_of_mem_replicate hc]; rfl
  · exact h.2 c hc

theorem padded_decimal (n w : Nat) {a b : Str} (ha : IsDigits a) (hb : IsDigits b) : IsDecimal (padZero n (a ++ '.' :: padZero w b)) := by
  unfold padZero
  generalize n - _ = k
  refine ⟨[], List.replicate k '0' ++ a, '.' :: padZero w b, ?_, Or.inl rfl, ?_, Or.inr ⟨_, rfl, padZero_digits w hb⟩⟩
  · rw [List.nil_append, List.append_assoc]
    rfl
  · intro c hc
    rcases List.mem_append.1 hc with hc | hc
    · rw [List.eq_of_mem_replicate hc]; rfl
    · exact ha.2 c hc

theorem fmtSec_decimal (q : Rat) : IsDecimal (R.fmtSec q) := padded_decimal _ _ (showRadix_digits _) (showRadix_digits _)

theorem dmsText_valid (lat : Bool) (x : R.Num) : (R.dmsText lat x).Valid := by
  refine ⟨?_, padZero_digits 3 (showRadix_digits _), padZero_digits 2 (showRadix_digits _), R.fmtSec_decimal _⟩
  show hemisphere lat (Double.neg x) ∈ _
  cases lat <;> cases Double.neg x <;> decide

theorem digitsValue_pad {w n : Nat} : digitsValue (padZero w (showRadix 10 n)) = n := by
  have h1 := digitsIn_padZero (radix := 10) (by omega) (by omega) w n
  rw [digitsIn_digits (padZero_digits w (showRadix_digits n)).2] at h1
  injection h1

theorem asU8_le (x : Rat) : asU8 x ≤ 255 := by
  unfold asU8
  omega

theorem fract_bounds (x : Rat) : 0 ≤ fract x ∧ fract x < 1 := by
  unfold fract
  have h1 := Int.floor_le x
  have h2 := Int.lt_floor_add_one x
  have e : (x.floor : Rat) = ((⌊x⌋ : Int) : Rat) := rfl
  rw [e]
  constructor <;> linarith

/-- There are at most 60 minutes. -/
theorem minutes_le (x : Rat) : asU8 (R.rnd (fract x * 60)) ≤ 60 := by
  obtain ⟨h1, h2⟩ := fract_bounds x
  have a := R.rnd_err (x := fract x * 60) 60 (by rw [abs_le]; constructor <;> linarith) (by norm_num) (by norm_num)
  rw [abs_le] at a
  have : R.rnd (fract x * 60) < 61 := by linarith [a.2]
  have : (R.rnd (fract x * 60)).floor < 61 := by
    have := Int.floor_lt.2 (show R.rnd (fract x * 60) < ((61 : Int) : Rat) by exact_mod_cast this)
    exact this
  unfold asU8
  omega

theorem dmsText_fits (lat : Bool) (x : R.Num) : (R.dmsText lat x).Fits := by
  refine ⟨?_, ?_⟩
  · show digitsValue (padZero 3 (showRadix 10 (asU8 _))) < _
    rw [digitsValue_pad]
    have := asU8_le (Double.mag x)
    omega
  · show digitsValue (padZero 2 (showRadix 10 (asU8 _ + Bool.toNat _))) < _
    rw [digitsValue_pad]
    have := R.minutes_le (Double.mag x)
    have := Bool.toNat_le (decide (|R.rnd (R.rnd (fract (R.rnd (fract (Double.mag x) * 60)) * 60) - 60)| < R.rnd (1 / 1000000)))
    omega

/-! ## Reading -/

theorem digit_toNat {n : Nat} (h : n < 10) : (digit n).toNat = 48 + n := digitChar_toNat h

theorem digit_digit {n : Nat} (h : n < 10) : isAsciiDigit (digit n) = true := digitChar_digit h

theorem digitsValue_two {n : Nat} (h : n < 100) : digitsValue (two n) = n := by
  simp only [digitsValue, two, List.foldl_cons, List.foldl_nil, digit_toNat (show n / 10 % 10 < 10 by omega), digit_toNat (show n % 10 < 10 by omega)]
  omega

theorem digitsValue_three {n : Nat} (h : n < 1000) : digitsValue (three n) = n := by
  simp only [digitsValue, three, List.foldl_cons, List.foldl_nil, digit_toNat (show n / 10 % 10 < 10 by omega), digit_toNat (show n % 10 < 10 by omega),
    digit_toNat (show n / 100 % 10 < 10 by omega)]
  omega

theorem digit_ne_dot {n : Nat} (h : n < 10) : digit n ≠ '.' := by
  intro e
  have := digit_digit h
  rw [e] at this
  exact absurd this (by decide)

theorem two_no_dot (n : Nat) : '.' ∉ two n := by
  simp only [two, List.mem_cons, List.not_mem_nil, or_false, not_or]
  exact ⟨(digit_ne_dot (by omega)).symm, (digit_ne_dot (by omega)).symm⟩

theorem three_no_dot (n : Nat) : '.' ∉ three n := by
  simp only [three, List.mem_cons, List.not_mem_nil, or_false, not_or]
  exact ⟨(digit_ne_dot (by omega)).symm, (digit_ne_dot (by omega)).symm, (digit_ne_dot (by omega)).symm⟩

theorem digits_no_dot {s : Str} (h : IsDigits s) : '.' ∉ s := fun hm => absurd (h.2 _ hm) (by decide)

/-- Seconds with thousandths are read exactly. -/
theorem decimalValue_sec {k : Nat} (h : k ≤ 99999) : decimalValue (two (k / 1000) ++ '.' :: three (k % 1000)) = k / 1000 := by
  have e1 : (two (k / 1000) ++ '.' :: three (k % 1000)).takeWhile (· ≠ '.') = two (k / 1000) := by
    rw [List.takeWhile_append_of_pos]
    · simp
    · intro c hc
      have : c ≠ '.' := fun e => two_no_dot _ (e ▸ hc)
      simpa using this
  have e2 : (two (k / 1000) ++ '.' :: three (k % 1000)).dropWhile (· ≠ '.') = '.' :: three (k % 1000) := by
    rw [List.dropWhile_append_of_pos]
    · simp
    · intro c hc
      have : c ≠ '.' := fun e => two_no_dot _ (e ▸ hc)
      simpa using this
  unfold decimalValue
  simp only [e1, e2]
  rw [digitsValue_two (by omega)]
  show ((k / 1000 : Nat) : Rat) + (digitsValue (three (k % 1000)) : Rat) / 10 ^ 3 = _
  rw [digitsValue_three (by omega)]
  have : (k : Rat) = ((k / 1000 : Nat) : Rat) * 1000 + ((k % 1000 : Nat) : Rat) := by
    exact_mod_cast (by omega : k = k / 1000 * 1000 + k % 1000)
  rw [this]
  ring

theorem ofText_sec {k : Nat} (h : k ≤ 99999) : R.ofText (two (k / 1000) ++ '.' :: three (k % 1000)) = (⟨false, R.rnd (k / 1000)⟩ : Double) := by
  rw [← decimalValue_sec h]
  have hd := digit_digit (show k / 1000 / 10 % 10 < 10 by omega)
  have key : ∀ (c : Char) (l : Str), isAsciiDigit c = true → R.ofText (c :: l) = (⟨false, R.rnd (decimalValue (c :: l))⟩ : Double) := by
    intro c l hc
    have n1 : c ≠ '-' := fun e => absurd hc (by rw [e]; decide)
    have n2 : c ≠ '+' := fun e => absurd hc (by rw [e]; decide)
    unfold ofText
    simp [n1, n2, beq_eq_false_iff_ne.2 n1]
    rfl
  exact key _ _ hd

theorem fromDegMinSec_eq (sign : Sign) (deg min : Nat) {q : Rat} (hq : 0 ≤ q) :
    R.fromDegMinSec ⟨sign, deg, min, (⟨false, q⟩ : Double)⟩ = R.fromDms sign deg min q := by
  have h0 : 0 ≤ R.rnd (R.rnd (R.rnd deg + R.rnd (R.rnd min / 60)) + R.rnd (q / 3600)) := by
    have h1 : 0 ≤ R.rnd (deg : Rat) := R.nonneg _ (by positivity)
    have h2 : 0 ≤ R.rnd (min : Rat) := R.nonneg _ (by positivity)
    have h3 : 0 ≤ R.rnd (R.rnd (min : Rat) / 60) := R.nonneg _ (by positivity)
    have h4 : 0 ≤ R.rnd (q / 3600) := R.nonneg _ (by positivity)
    have h5 : 0 ≤ R.rnd (R.rnd (deg : Rat) + R.rnd (R.rnd min / 60)) := R.nonneg _ (by positivity)
    exact R.nonneg _ (by positivity)
  unfold fromDegMinSec fromDms
  simp only [Bool.false_eq_true, if_false]
  rw [abs_of_nonneg h0, decide_eq_false (by linarith)]
  cases sign <;> rfl

/-- The parts of a text are determined by the text. -/
theorem text_parts {d : DmsText} (hd : d.Valid) {h : Char} {a b s : Str} (ha : '.' ∉ a) (hb : '.' ∉ b)
    (e : d.text = h :: (a ++ '.' :: (b ++ '.' :: s))) : d = ⟨h, a, b, s⟩ := by
  obtain ⟨h', a', b', s'⟩ := d
  unfold DmsText.text at e
  injection e with e1 e2
  obtain ⟨e3, e4⟩ := sep_inj (digits_no_dot hd.2.1) ha e2
  obtain ⟨e5, e6⟩ := sep_inj (digits_no_dot hd.2.2.1) hb e4
  simp only at e1 e3 e5 e6
  rw [e1, e3, e5, e6]

/-- Reading the text of whole thousandths of a second. -/
theorem value_of_text {d : DmsText} (hd : d.Valid) {lat : Bool} {sign : Sign} {deg min milli : Nat} (h1 : deg < 1000) (h2 : min < 100) (h3 : milli ≤ 99999)
    (e : d.text = text (hemisphere lat (sign == .neg)) deg min milli) :
    d.value R.ofText = R.fromDms sign deg min (R.rnd (milli / 1000)) := by
  rw [text_parts hd (three_no_dot _) (two_no_dot _) e]
  show R.fromDegMinSec ⟨_, digitsValue (three deg), digitsValue (two min), R.ofText _⟩ = _
  rw [digitsValue_three h1, digitsValue_two h2, R.ofText_sec h3, R.fromDegMinSec_eq _ _ _ (R.nonneg _ (by positivity))]
  congr 1
  unfold DmsText.sign
  cases lat <;> cases sign <;> rfl

/-- An angle of whole thousandths of a second is read back. -/
theorem value_whole (lat : Bool) {x : R.Num} (h : Spec.SctWrite.Whole R x) : (R.dmsText lat x).value R.ofText = x := by
  obtain ⟨sign, deg, min, milli, h1, h2, h3, _, rfl⟩ := h
  refine R.value_of_text (lat := lat) (R.dmsText_valid lat _) (by omega) (by omega) (by omega) ?_
  have := Props.C41_dms_text R sign lat (deg := deg) (min := min) (milli := milli) (by omega) h2 h3
  rw [if_pos h1] at this
  exact (R.dmsText_text lat _).trans this

/-! ## Other angles -/

/-- The error of reading. -/
theorem fromDms_err {sign : Sign} {d m : Nat} {q : Rat} (hd : d ≤ 255) (hm : m ≤ 61) (k0 : 0 ≤ q) (hk' : q ≤ 61) :
    |(R.fromDms sign d m (R.rnd q)).mag - (d + m / 60 + q / 3600)| ≤ 1 / 10 ^ 12 := by
  have hd' : (d : Rat) ≤ 255 := by exact_mod_cast hd
  have hm' : (m : Rat) ≤ 61 := by exact_mod_cast hm
  have d0 : (0 : Rat) ≤ d := by positivity
  have m0 : (0 : Rat) ≤ m := by positivity
  have ed : R.rnd d = d := R.nat d (by omega)
  have em : R.rnd m = m := R.nat m (by omega)
  show |R.rnd (R.rnd (R.rnd d + R.rnd (R.rnd m / 60)) + R.rnd (R.rnd q / 3600)) - _| ≤ _
  rw [ed, em]
  have a1 := R.rnd_err (x := (m : Rat) / 60) 2 (by rw [abs_le]; constructor <;> linarith) (by norm_num) (by norm_num)
  generalize hq1 : R.rnd ((m : Rat) / 60) = q1 at *
  rw [abs_le] at a1
  have a2 := R.rnd_err (x := (d : Rat) + q1) 260 (by rw [abs_le]; constructor <;> linarith) (by norm_num) (by norm_num)
  generalize hq2 : R.rnd ((d : Rat) + q1) = q2 at *
  rw [abs_le] at a2
  have a3 := R.rnd_err (x := q) 61 (by rw [abs_le]; constructor <;> linarith) (by norm_num) (by norm_num)
  have p3 := R.nonneg q k0
  generalize hq3 : R.rnd q = q3 at *
  rw [abs_le] at a3
  have a4 := R.rnd_err (x := q3 / 3600) 1 (by rw [abs_le]; constructor <;> linarith) (by norm_num) (by norm_num)
  generalize hq4 : R.rnd (q3 / 3600) = q4 at *
  rw [abs_le] at a4
  have a5 := R.rnd_err (x := q2 + q4) 270 (by rw [abs_le]; constructor <;> linarith) (by norm_num) (by norm_num)
  generalize hv : R.rnd (q2 + q4) = v at *
  rw [abs_le] at a5
  rw [abs_le]
  constructor <;> linarith

/-- The parts that are read. -/
theorem value_parts (lat : Bool) (x : R.Num) {sec : Rat}
    (hs : (R.dmsText lat x).sec = R.fmtSec sec) (h : R.milli sec ≤ 99999) :
    (R.dmsText lat x).value R.ofText = R.fromDms (if Double.neg x then .neg else .pos) (digitsValue (R.dmsText lat x).deg)
      (digitsValue (R.dmsText lat x).min) (R.rnd (R.milli sec / 1000)) := by
  show R.fromDegMinSec ⟨(R.dmsText lat x).sign, _, _, R.ofText (R.dmsText lat x).sec⟩ = _
  rw [hs, fmtSec, pad3 (by omega), pad6 (by omega) rfl, R.ofText_sec h, R.fromDegMinSec_eq _ _ _ (R.nonneg _ (by positivity))]
  congr 1
  obtain ⟨neg, mag⟩ := x
  cases lat <;> cases neg <;> rfl

/-- An angle is read back with an error of half a thousandth of a second, apart from rounding. -/
theorem value_near (lat : Bool) (x : R.Num) (h0 : 0 ≤ Double.mag x) (h1 : Double.mag x ≤ 255) :
    |Spec.SctWrite.value (R := R) ((R.dmsText lat x).value R.ofText) - Spec.SctWrite.value x| ≤ 1 / 7200000 + 1 / 10 ^ 9 := by
  obtain ⟨neg, mag⟩ := x
  simp only at h0 h1
  have hd0 := Int.floor_le mag
  have hd1 := Int.lt_floor_add_one mag
  have hdn : 0 ≤ ⌊mag⌋ := Int.floor_nonneg.2 h0
  obtain ⟨d, hd⟩ := Int.eq_ofNat_of_zero_le hdn
  have efl : mag.floor = (d : Int) := hd
  rw [hd] at hd0 hd1
  simp only [Int.cast_natCast] at hd0 hd1
  have hd255 : d ≤ 255 := by
    have : (d : Rat) ≤ 255 := by linarith
    exact_mod_cast this
  have ed : asU8 mag = d := by unfold asU8; rw [efl]; simp; omega
  have ef : fract mag = mag - d := by unfold fract; rw [efl]; simp
  have a1 := R.rnd_err (x := (mag - d) * 60) 60 (by rw [abs_le]; constructor <;> linarith) (by norm_num) (by norm_num)
  have p1 := R.nonneg ((mag - d) * 60) (by nlinarith)
  generalize hq1 : R.rnd ((mag - d) * 60) = q1 at *
  rw [abs_le] at a1
  have hm0 := Int.floor_le q1
  have hm1 := Int.lt_floor_add_one q1
  obtain ⟨m, hm⟩ := Int.eq_ofNat_of_zero_le (Int.floor_nonneg.2 p1)
  have emf : q1.floor = (m : Int) := hm
  rw [hm] at hm0 hm1
  simp only [Int.cast_natCast] at hm0 hm1
  have hm60 : m ≤ 60 := by
    have : (m : Rat) < 61 := by linarith
    have : m < 61 := by exact_mod_cast this
    omega
  have em : asU8 q1 = m := by unfold asU8; rw [emf]; simp; omega
  have eg : fract q1 = q1 - m := by unfold fract; rw [emf]; simp
  have a2 := R.rnd_err (x := (q1 - m) * 60) 60 (by rw [abs_le]; constructor <;> linarith) (by norm_num) (by norm_num)
  have p2 := R.nonneg ((q1 - m) * 60) (by nlinarith)
  generalize hq2 : R.rnd ((q1 - m) * 60) = q2 at *
  rw [abs_le] at a2
  have m0 : (0 : Rat) ≤ m := by positivity
  have key : ∀ (b : Bool) (sec : Rat) (k : Nat), R.milli sec = k → k ≤ 60001 →
      (R.dmsText lat (⟨neg, mag⟩ : Double)).deg = padZero 3 (showRadix 10 d) →
      (R.dmsText lat (⟨neg, mag⟩ : Double)).min = padZero 2 (showRadix 10 (m + b.toNat)) →
      (R.dmsText lat (⟨neg, mag⟩ : Double)).sec = R.fmtSec sec →
      |((d : Rat) + ((m + b.toNat : Nat) : Rat) / 60 + (k : Rat) / 1000 / 3600) - mag| ≤ 1 / 7200000 + 1 / 10 ^ 10 →
      |Spec.SctWrite.value (R := R) ((R.dmsText lat (⟨neg, mag⟩ : Double)).value R.ofText) - Spec.SctWrite.value (R := R) (⟨neg, mag⟩ : Double)| ≤ 1 / 7200000 + 1 / 10 ^ 9 := by
    intro b sec k ek hk t1 t2 t3 hb
    have hkr : (k : Rat) ≤ 60001 := by exact_mod_cast hk
    have k0 : (0 : Rat) ≤ k := by positivity
    have e := R.fromDms_err (sign := if neg then .neg else .pos) (d := d) (m := m + b.toNat) (q := (k : Rat) / 1000) hd255
      (by have := Bool.toNat_le b; omega) (by positivity) (by linarith)
    have ev := R.value_parts lat (⟨neg, mag⟩ : Double) t3 (by omega)
    rw [t1, t2, digitsValue_pad, digitsValue_pad, ek] at ev
    have ev' : Spec.SctWrite.value (R := R) ((R.dmsText lat (⟨neg, mag⟩ : Double)).value R.ofText) =
        Spec.SctWrite.value (R := R) (R.fromDms (if neg then .neg else .pos) d (m + b.toNat) (R.rnd (k / 1000))) := congrArg _ ev
    rw [ev']
    have hn : (R.fromDms (if neg then .neg else .pos) d (m + b.toNat) (R.rnd (k / 1000))).neg = neg := by cases neg <;> rfl
    unfold Spec.SctWrite.value
    simp only
    rw [hn]
    rw [abs_le] at e hb
    rw [abs_le]
    cases neg
    · simp only [Bool.false_eq_true, if_false] at e ⊢
      constructor <;> linarith
    · simp only [if_true] at e ⊢
      constructor <;> linarith
  have hdt : R.dmsText lat (⟨neg, mag⟩ : Double) = ⟨hemisphere lat neg, padZero 3 (showRadix 10 d),
      padZero 2 (showRadix 10 (m + (decide (|R.rnd (q2 - 60)| < R.rnd (1 / 1000000))).toNat)),
      R.fmtSec (if decide (|R.rnd (q2 - 60)| < R.rnd (1 / 1000000)) then 0 else q2)⟩ := by
    unfold dmsText
    simp only [ed, ef, hq1, em, eg, hq2]
  by_cases hc : |R.rnd (q2 - 60)| < R.rnd (1 / 1000000)
  · rw [decide_eq_true hc] at hdt
    have a3 := R.rnd_err (x := q2 - 60) 61 (by rw [abs_le]; constructor <;> linarith) (by norm_num) (by norm_num)
    have a4 := R.rnd_err (x := (1 : Rat) / 1000000) (1 / 1000) (by rw [abs_le]; norm_num) (by norm_num) (by norm_num)
    rw [abs_lt] at hc
    rw [abs_le] at a3 a4
    refine key true 0 0 (R.milli_of (le_refl _) (by norm_num)) (by omega) (by rw [hdt]) (by rw [hdt]) (by rw [hdt]; rfl) ?_
    push_cast
    simp only [Bool.toNat_true, Nat.cast_one, zero_div, add_zero]
    rw [abs_le]
    constructor <;> linarith
  · rw [decide_eq_false hc] at hdt
    have hk := R.milli_near q2 p2
    rw [abs_le] at hk
    have hk1 : R.milli q2 ≤ 60001 := by
      have : (R.milli q2 : Rat) ≤ 60001 := by linarith
      exact_mod_cast this
    refine key false q2 (R.milli q2) rfl hk1 (by rw [hdt]) (by rw [hdt]) (by rw [hdt]; rfl) ?_
    simp only [Bool.toNat_false, Nat.add_zero]
    rw [abs_le]
    constructor <;> linarith

end Verif.Model.Rounding
