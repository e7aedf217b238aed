import Verif.Proofs.JsonText
/-! # Lemmas about written JSON -/

namespace Verif.Proofs.JsonText
open Verif.Json (J)
open Verif.JsonText Verif.Spec.JsonText

theorem showRadixAux_length (fuel n k : Nat) (hk : n < 16 ^ (k + 1)) : (showRadixAux 16 fuel n).length ≤ k + 1 := by
  induction fuel generalizing n k with
  | zero => simp [showRadixAux]
  | succ fuel ih =>
    unfold showRadixAux
    split
    · simp
    · next h =>
      cases k with
      | zero => simp at hk; omega
      | succ k =>
        have := ih (n / 16) k (by rw [Nat.div_lt_iff_lt_mul (by omega)]; rw [Nat.pow_succ] at hk; omega)
        simp
        omega

theorem hex_pad {n : Nat} (h : n < 16 ^ 4) : Hex (padZero 4 (showRadix 16 n)) n := by
  refine ⟨?_, digitsIn_padZero (by omega) (by omega) _ _⟩
  have := showRadixAux_length n n 3 (by simpa using h)
  simp only [padZero, showRadix, List.length_append, List.length_replicate]
  omega

theorem char_of_toNat {c : Char} {n : Nat} (h : c.toNat = n) : c = Char.ofNat n := by
  rw [← h, Char.ofNat_toNat]

theorem writeChar_chars (c : Char) {t s : Str} (h : Chars t s) : Chars (writeChar c ++ t) (c :: s) := by
  unfold writeChar
  split
  · next hc => subst hc; exact .simple .quote h
  · next hq =>
    split
    · next hc => subst hc; exact .simple .backslash h
    · next hb =>
      split
      · next hc => rw [char_of_toNat hc]; exact .simple .backspace h
      · split
        · next hc => rw [char_of_toNat hc]; exact .simple .tabulator h
        · split
          · next hc => rw [char_of_toNat hc]; exact .simple .newLine h
          · split
            · next hc => rw [char_of_toNat hc]; exact .simple .formFeed h
            · split
              · next hc => rw [char_of_toNat hc]; exact .simple .carriageReturn h
              · split
                · next hc =>
                  have := Chars.unit (hex_pad (n := c.toNat) (by omega)) (by omega) h
                  rw [Char.ofNat_toNat] at this
                  simpa using this
                · next hc => exact .plain hq hb (by omega) h

theorem writeStr_chars (s : Str) : Chars (s.flatMap writeChar) s := by
  induction s with
  | nil => exact .nil
  | cons c s ih => simpa using writeChar_chars c ih

/-! ## Values -/

mutual
theorem write_val {fits : Rat → Bool} {num : Rat → Str} : ∀ (j : J) {d : Nat}, Within (Printed fits num) d j → Val fits d (write num j) j
  | .null, _, _ => by simp only [write]; exact .null
  | .bool true, _, _ => by simp only [write]; exact .true
  | .bool false, _, _ => by simp only [write]; exact .false
  | .num q, d, h => by
    simp only [Within] at h
    obtain ⟨hf, n, hv, ht, hq⟩ := h
    simp only [write]
    rw [← ht]
    subst hq
    exact .num hv hf
  | .str s, _, _ => by simp only [write]; exact .str (writeStr_chars s)
  | .arr [], 0, h => by simp [Within] at h
  | .arr [], d + 1, _ => by simp only [write]; exact .noItem ws_nil
  | .arr (j :: l), 0, h => by simp [Within] at h
  | .arr (j :: l), d + 1, h => by
    simp only [Within, WithinItems] at h
    obtain ⟨t, ht, hi⟩ := write_items l h.2 (write_val j h.1)
    simp only [write]
    rw [ht]
    exact .arr hi
  | .obj [], 0, h => by simp [Within] at h
  | .obj [], d + 1, _ => by simp only [write]; exact .noField ws_nil
  | .obj ((k, j) :: o), 0, h => by simp [Within] at h
  | .obj ((k, j) :: o), d + 1, h => by
    simp only [Within, WithinFields] at h
    obtain ⟨t, ht, hi⟩ := write_fields o h.2 k (write_val j h.1)
    simp only [write]
    rw [ht]
    exact .obj hi

theorem write_items {fits : Rat → Bool} {num : Rat → Str} : ∀ (l : List J) {d : Nat}, WithinItems (Printed fits num) d l →
    ∀ {t : Str} {j : J}, Val fits d t j → ∃ u, t ++ writeItems num l = u ++ [']'] ∧ Items fits d u (j :: l)
  | [], _, _, t, j, hv => by
    refine ⟨[] ++ (t ++ []), ?_, .one ws_nil hv ws_nil⟩
    simp [writeItems]
  | k :: l, d, h, t, j, hv => by
    simp only [WithinItems] at h
    obtain ⟨u, hu, hi⟩ := write_items l h.2 (write_val k h.1)
    refine ⟨[] ++ (t ++ ([] ++ ',' :: u)), ?_, .more ws_nil hv ws_nil hi⟩
    simp only [writeItems]
    rw [hu]
    simp

theorem write_fields {fits : Rat → Bool} {num : Rat → Str} : ∀ (o : List (Str × J)) {d : Nat}, WithinFields (Printed fits num) d o →
    ∀ (k : Str) {t : Str} {j : J}, Val fits d t j →
      ∃ u, writeStr k ++ ':' :: (t ++ writeFields num o) = u ++ ['}'] ∧ Members fits d u ((k, j) :: o)
  | [], _, _, k, t, j, hv => by
    refine ⟨[] ++ '"' :: (k.flatMap writeChar ++ '"' :: ([] ++ ':' :: ([] ++ (t ++ [])))), ?_,
      .one ws_nil (writeStr_chars k) ws_nil ws_nil hv ws_nil⟩
    simp [writeFields, writeStr]
  | (k', j') :: o, d, h, k, t, j, hv => by
    simp only [WithinFields] at h
    obtain ⟨u, hu, hi⟩ := write_fields o h.2 k' (write_val j' h.1)
    refine ⟨[] ++ '"' :: (k.flatMap writeChar ++ '"' :: ([] ++ ':' :: ([] ++ (t ++ ([] ++ ',' :: u))))), ?_,
      .more ws_nil (writeStr_chars k) ws_nil ws_nil hv ws_nil hi⟩
    simp only [writeFields]
    rw [hu]
    simp [writeStr]
end

end Verif.Proofs.JsonText
