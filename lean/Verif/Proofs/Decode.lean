import Verif.Model.Decode
/-!
# Lemmas on reading bytes as text
-/

namespace Verif.Decode
open Verif.Spec.Decode

theorem val_ofNat {n : Nat} (h : n < 256) : (Fin.ofNat 256 n).val = n := by
  show n % 256 = n
  omega

theorem char_cases (c : Char) : c.toNat < 0xD800 ∨ (0xDFFF < c.toNat ∧ c.toNat < 0x110000) := c.valid

theorem ofNat_toNat (c : Char) : Char.ofNat c.toNat = c := Char.ofNat_toNat c

theorem toNat_ofNat {n : Nat} (h : n < 0xD800 ∨ (0xDFFF < n ∧ n < 0x110000)) : (Char.ofNat n).toNat = n := by
  have h' : n.isValidChar := h
  unfold Char.ofNat
  rw [dif_pos h']
  show (UInt32.ofNatLT n _).toNat = n
  simp

theorem fin_eq {b : Byte} {n : Nat} (h : n = b.val) : Fin.ofNat 256 n = b := by
  apply Fin.ext
  rw [val_ofNat (by omega)]
  exact h

theorem next_two {a b : Byte} (l : List Byte) (ha : 0xC2 ≤ a.val ∧ a.val ≤ 0xDF) (hb : 0x80 ≤ b.val ∧ b.val ≤ 0xBF) :
    next (a :: b :: l) = some (chr ((a.val - 0xC0) * 64 + (b.val - 0x80)), l) := by
  unfold next
  simp only
  rw [if_neg (by omega), if_pos (by omega)]
  rw [if_pos (by simp [cont]; omega)]

theorem next_three {a b c : Byte} (l : List Byte) (ha : 0xE0 ≤ a.val ∧ a.val ≤ 0xEF) (hb : 0x80 ≤ b.val ∧ b.val ≤ 0xBF)
    (hc : 0x80 ≤ c.val ∧ c.val ≤ 0xBF) (h1 : a.val = 0xE0 → 0xA0 ≤ b.val) (h2 : a.val = 0xED → b.val ≤ 0x9F) :
    next (a :: b :: c :: l) = some (chr ((a.val - 0xE0) * 4096 + (b.val - 0x80) * 64 + (c.val - 0x80)), l) := by
  unfold next
  simp only
  rw [if_neg (by omega), if_neg (by omega), if_pos (by omega)]
  rw [if_pos]
  simp only [cont, Bool.and_eq_true, Bool.or_eq_true, decide_eq_true_eq]
  omega

theorem next_four {a b c d : Byte} (l : List Byte) (ha : 0xF0 ≤ a.val ∧ a.val ≤ 0xF4) (hb : 0x80 ≤ b.val ∧ b.val ≤ 0xBF)
    (hc : 0x80 ≤ c.val ∧ c.val ≤ 0xBF) (hd : 0x80 ≤ d.val ∧ d.val ≤ 0xBF) (h1 : a.val = 0xF0 → 0x90 ≤ b.val)
    (h2 : a.val = 0xF4 → b.val ≤ 0x8F) :
    next (a :: b :: c :: d :: l) =
      some (chr ((a.val - 0xF0) * 262144 + (b.val - 0x80) * 4096 + (c.val - 0x80) * 64 + (d.val - 0x80)), l) := by
  unfold next
  simp only
  rw [if_neg (by omega), if_neg (by omega), if_neg (by omega), if_pos (by omega)]
  rw [if_pos]
  simp only [cont, Bool.and_eq_true, Bool.or_eq_true, decide_eq_true_eq]
  omega

/-- The first character of encoded text is read. -/
theorem next_encode (c : Char) (l : List Byte) : next (encode c ++ l) = some (c, l) := by
  have hc := char_cases c
  have hk : chr c.toNat = c := ofNat_toNat c
  unfold encode
  generalize c.toNat = n at hc hk ⊢
  simp only
  by_cases h1 : n < 0x80
  · rw [if_pos h1]
    have ea := val_ofNat (n := n) (by omega)
    generalize Fin.ofNat 256 n = a at ea ⊢
    show next (a :: l) = _
    unfold next
    simp only
    rw [if_pos (by omega), ea, hk]
  · rw [if_neg h1]
    by_cases h2 : n < 0x800
    · rw [if_pos h2]
      have ea := val_ofNat (n := 0xC0 + n / 64) (by omega)
      have eb := val_ofNat (n := 0x80 + n % 64) (by omega)
      generalize Fin.ofNat 256 (0xC0 + n / 64) = a at ea ⊢
      generalize Fin.ofNat 256 (0x80 + n % 64) = b at eb ⊢
      show next (a :: b :: l) = _
      rw [next_two l (by omega) (by omega), ea, eb,
        show (0xC0 + n / 64 - 0xC0) * 64 + (0x80 + n % 64 - 0x80) = n by omega, hk]
    · rw [if_neg h2]
      by_cases h3 : n < 0x10000
      · rw [if_pos h3]
        have ea := val_ofNat (n := 0xE0 + n / 4096) (by omega)
        have eb := val_ofNat (n := 0x80 + n / 64 % 64) (by omega)
        have ec := val_ofNat (n := 0x80 + n % 64) (by omega)
        generalize Fin.ofNat 256 (0xE0 + n / 4096) = a at ea ⊢
        generalize Fin.ofNat 256 (0x80 + n / 64 % 64) = b at eb ⊢
        generalize Fin.ofNat 256 (0x80 + n % 64) = d at ec ⊢
        show next (a :: b :: d :: l) = _
        rw [next_three l (by omega) (by omega) (by omega) (by omega) (by omega), ea, eb, ec,
          show (0xE0 + n / 4096 - 0xE0) * 4096 + (0x80 + n / 64 % 64 - 0x80) * 64 + (0x80 + n % 64 - 0x80) = n by omega, hk]
      · rw [if_neg h3]
        have ea := val_ofNat (n := 0xF0 + n / 262144) (by omega)
        have eb := val_ofNat (n := 0x80 + n / 4096 % 64) (by omega)
        have ec := val_ofNat (n := 0x80 + n / 64 % 64) (by omega)
        have ed := val_ofNat (n := 0x80 + n % 64) (by omega)
        generalize Fin.ofNat 256 (0xF0 + n / 262144) = a at ea ⊢
        generalize Fin.ofNat 256 (0x80 + n / 4096 % 64) = b at eb ⊢
        generalize Fin.ofNat 256 (0x80 + n / 64 % 64) = d at ec ⊢
        generalize Fin.ofNat 256 (0x80 + n % 64) = e at ed ⊢
        show next (a :: b :: d :: e :: l) = _
        rw [next_four l (by omega) (by omega) (by omega) (by omega) (by omega) (by omega), ea, eb, ec, ed,
          show (0xF0 + n / 262144 - 0xF0) * 262144 + (0x80 + n / 4096 % 64 - 0x80) * 4096 + (0x80 + n / 64 % 64 - 0x80) * 64 +
            (0x80 + n % 64 - 0x80) = n by omega, hk]

/-- What is read is encoded in the bytes read. -/
theorem next_sound {bs l : List Byte} {c : Char} (h : next bs = some (c, l)) : bs = encode c ++ l := by
  cases bs with
  | nil => cases h
  | cons a t =>
    have ha := a.isLt
    unfold next at h
    simp only at h
    by_cases h1 : a.val < 0x80
    · rw [if_pos h1] at h
      cases h
      unfold encode chr
      simp only
      rw [toNat_ofNat (by omega), if_pos h1, fin_eq rfl]
      rfl
    · rw [if_neg h1] at h
      by_cases h2 : 0xC2 ≤ a.val ∧ a.val ≤ 0xDF
      · rw [if_pos h2] at h
        cases t with
        | nil => cases h
        | cons b t =>
          simp only at h
          split at h
          · rename_i hb
            obtain ⟨rfl, rfl⟩ := Prod.mk.inj (Option.some.inj h)
            simp only [cont, Bool.and_eq_true, decide_eq_true_eq] at hb
            unfold encode chr
            simp only
            rw [toNat_ofNat (by omega), if_neg (by omega), if_pos (by omega), fin_eq (b := a) (by omega), fin_eq (b := b) (by omega)]
            rfl
          · cases h
      · rw [if_neg h2] at h
        by_cases h3 : 0xE0 ≤ a.val ∧ a.val ≤ 0xEF
        · rw [if_pos h3] at h
          match t, h with
          | b :: d :: t, h =>
            simp only at h
            split at h
            · rename_i hb
              obtain ⟨rfl, rfl⟩ := Prod.mk.inj (Option.some.inj h)
              simp only [cont, Bool.and_eq_true, Bool.or_eq_true, decide_eq_true_eq] at hb
              unfold encode chr
              simp only
              rw [toNat_ofNat (by omega), if_neg (by omega), if_neg (by omega), if_pos (by omega), fin_eq (b := a) (by omega), fin_eq (b := b) (by omega),
                fin_eq (b := d) (by omega)]
              rfl
            · cases h
        · rw [if_neg h3] at h
          by_cases h4 : 0xF0 ≤ a.val ∧ a.val ≤ 0xF4
          · rw [if_pos h4] at h
            match t, h with
            | b :: d :: e :: t, h =>
              simp only at h
              split at h
              · rename_i hb
                obtain ⟨rfl, rfl⟩ := Prod.mk.inj (Option.some.inj h)
                simp only [cont, Bool.and_eq_true, Bool.or_eq_true, decide_eq_true_eq] at hb
                unfold encode chr
                simp only
                rw [toNat_ofNat (by omega), if_neg (by omega), if_neg (by omega), if_neg (by omega), fin_eq (b := a) (by omega),
                  fin_eq (b := b) (by omega), fin_eq (b := d) (by omega), fin_eq (b := e) (by omega)]
                rfl
              · cases h
          · rw [if_neg h4] at h
            cases h

theorem encode_ne (c : Char) : encode c ≠ [] := by
  unfold encode
  simp only
  split
  · simp
  · split
    · simp
    · split <;> simp

theorem decodeUpTo_encode : ∀ (n : Nat) (s : Str), s.length ≤ n → decodeUpTo n (s.flatMap encode) = some s
  | n, [], _ => by cases n <;> rfl
  | 0, _ :: _, h => by simp at h
  | n + 1, c :: s, h => by
    rw [List.flatMap_cons]
    have hn := next_encode c (s.flatMap encode)
    cases e : encode c ++ s.flatMap encode with
    | nil => exact absurd (List.append_eq_nil_iff.1 e).1 (encode_ne c)
    | cons x t =>
      rw [e] at hn
      show (match next (x :: t) with | some (c, l) => (decodeUpTo n l).map (c :: ·) | none => none) = _
      rw [hn]
      show (decodeUpTo n (s.flatMap encode)).map (c :: ·) = _
      rw [decodeUpTo_encode n s (by simpa using h)]
      rfl

theorem decodeUpTo_sound : ∀ (n : Nat) (bs : List Byte) (s : Str), decodeUpTo n bs = some s → bs = s.flatMap encode
  | n, [], s, h => by
    cases n <;> cases h <;> rfl
  | 0, _ :: _, _, h => by cases h
  | n + 1, x :: t, s, h => by
    have h : (match next (x :: t) with | some (c, l) => (decodeUpTo n l).map (c :: ·) | none => none) = some s := h
    cases e : next (x :: t) with
    | none => rw [e] at h; cases h
    | some p =>
      obtain ⟨c, l⟩ := p
      rw [e] at h
      obtain ⟨s', h1, rfl⟩ := Option.map_eq_some_iff.1 h
      rw [next_sound e, decodeUpTo_sound n l s' h1]
      rfl

theorem length_flatMap_encode (s : Str) : s.length ≤ (s.flatMap encode).length := by
  induction s with
  | nil => simp
  | cons c s ih =>
    rw [List.flatMap_cons, List.length_append, List.length_cons]
    have := List.length_pos_iff.2 (encode_ne c)
    omega

/-- Decoding is the inverse of encoding. -/
theorem fromUtf8_iff {bytes : List Byte} {s : Str} : fromUtf8 bytes = some s ↔ bytes = s.flatMap encode := by
  constructor
  · exact decodeUpTo_sound _ _ _
  · rintro rfl
    exact decodeUpTo_encode _ _ (length_flatMap_encode s)

end Verif.Decode
