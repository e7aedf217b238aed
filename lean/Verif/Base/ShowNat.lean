import Verif.Base.Unicode
/-!
# Decimal numerals

`format!("{n}")` of a natural number.
-/

namespace Verif

/-- The decimal digit `d < 10`. -/
def digitChar (d : Nat) : Char := Char.ofNat (48 + d)

/-- The digits of `n`, with at most `fuel + 1` digits. -/
def showNatAux : Nat → Nat → Str
  | 0, n => [digitChar (n % 10)]
  | fuel + 1, n => if n < 10 then [digitChar n] else showNatAux fuel (n / 10) ++ [digitChar (n % 10)]

/-- `format!("{n}")` -/
def showNat (n : Nat) : Str := showNatAux n n

theorem digitChar_toNat {d : Nat} (h : d < 10) : (digitChar d).toNat = 48 + d := by
  have : d = 0 ∨ d = 1 ∨ d = 2 ∨ d = 3 ∨ d = 4 ∨ d = 5 ∨ d = 6 ∨ d = 7 ∨ d = 8 ∨ d = 9 := by omega
  rcases this with h | h | h | h | h | h | h | h | h | h <;> subst h <;> rfl

theorem digitChar_digit {d : Nat} (h : d < 10) : isAsciiDigit (digitChar d) = true := by
  unfold isAsciiDigit
  rw [digitChar_toNat h]
  have h1 : '0'.toNat = 48 := rfl
  have h2 : '9'.toNat = 57 := rfl
  simp only [h1, h2, Bool.and_eq_true, decide_eq_true_eq]
  omega

theorem digitsValue_append_one (s : Str) (c : Char) :
    digitsValue (s ++ [c]) = 10 * digitsValue s + (c.toNat - 48) := by
  simp [digitsValue, List.foldl_append]

theorem showNatAux_value (fuel n : Nat) (h : n ≤ fuel) : digitsValue (showNatAux fuel n) = n := by
  induction fuel generalizing n with
  | zero =>
    have : n = 0 := by omega
    subst this
    rfl
  | succ fuel ih =>
    unfold showNatAux
    split
    · next h10 =>
      simp only [digitsValue, List.foldl_cons, List.foldl_nil, digitChar_toNat h10]; omega
    · rw [digitsValue_append_one, ih _ (by omega), digitChar_toNat (by omega)]
      omega

@[simp] theorem digitsValue_showNat (n : Nat) : digitsValue (showNat n) = n :=
  showNatAux_value n n (Nat.le_refl _)

theorem showNat_inj {m n : Nat} (h : showNat m = showNat n) : m = n := by
  rw [← digitsValue_showNat m, h, digitsValue_showNat]

theorem showNatAux_digits (fuel n : Nat) : ∀ c ∈ showNatAux fuel n, isAsciiDigit c = true := by
  induction fuel generalizing n with
  | zero =>
    intro c hc
    simp only [showNatAux, List.mem_cons, List.not_mem_nil, or_false] at hc
    subst hc
    exact digitChar_digit (by omega)
  | succ fuel ih =>
    intro c hc
    unfold showNatAux at hc
    split at hc
    · next h10 =>
      simp only [List.mem_cons, List.not_mem_nil, or_false] at hc
      subst hc; exact digitChar_digit h10
    · rcases List.mem_append.1 hc with h | h
      · exact ih _ c h
      · simp only [List.mem_cons, List.not_mem_nil, or_false] at h
        subst h; exact digitChar_digit (by omega)

theorem showNat_digits (n : Nat) : ∀ c ∈ showNat n, isAsciiDigit c = true := showNatAux_digits n n

theorem showNatAux_ne_nil (fuel n : Nat) : showNatAux fuel n ≠ [] := by
  cases fuel with
  | zero => simp [showNatAux]
  | succ f => unfold showNatAux; split <;> simp

theorem showNatAux_head {fuel n : Nat} (h : n ≤ fuel) : (showNatAux fuel n).head? = some '0' → n = 0 := by
  induction fuel generalizing n with
  | zero => exact fun _ => by omega
  | succ fuel ih =>
    unfold showNatAux
    split
    · next h10 =>
      intro h0
      have : (digitChar n).toNat = '0'.toNat := congrArg Char.toNat (Option.some.inj h0)
      rw [digitChar_toNat h10] at this
      have h48 : '0'.toNat = 48 := rfl
      omega
    · next h10 =>
      intro h0
      have hne := showNatAux_ne_nil fuel (n / 10)
      cases hs : showNatAux fuel (n / 10) with
      | nil => exact absurd hs hne
      | cons c s =>
        rw [hs] at h0
        have := ih (n := n / 10) (by omega) (by rw [hs]; exact h0)
        omega

/-- There is no leading zero. -/
theorem showNat_head (n : Nat) (h : (showNat n).head? = some '0') : showNat n = ['0'] := by
  obtain rfl := showNatAux_head (Nat.le_refl n) h
  rfl

theorem showNat_ne_nil (n : Nat) : showNat n ≠ [] := showNatAux_ne_nil n n

end Verif
