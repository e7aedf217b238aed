import Verif.Model.JsonText
import Verif.Spec.JsonText
import Verif.Proofs.Decode
/-! # Lemmas about the text of JSON -/

namespace Verif.Proofs.JsonText
open Verif.Json (J) 
open Verif.JsonText Verif.Spec.JsonText Verif.Spec

/-! ## White space -/

theorem isWs_iff (c : Char) : isWs c = true ↔ (c = ' ' ∨ c = '\n' ∨ c = '\t' ∨ c = '\r') := by
  simp [isWs, or_assoc]

theorem ws_takeWhile (s : Str) : Ws (s.takeWhile isWs) := by
  intro c hc
  have := List.all_takeWhile (p := isWs) (l := s)
  exact (isWs_iff c).1 ((List.all_eq_true.1 this) c hc)

theorem skip_split (s : Str) : ∃ w, Ws w ∧ s = w ++ skipWs s :=
  ⟨s.takeWhile isWs, ws_takeWhile s, (List.takeWhile_append_dropWhile (p := isWs) (l := s)).symm⟩

theorem skip_ws {w : Str} (h : Ws w) (s : Str) : skipWs (w ++ s) = skipWs s := by
  induction w with
  | nil => rfl
  | cons c w ih =>
    have hc : isWs c = true := (isWs_iff c).2 (h c (by simp))
    show List.dropWhile isWs (c :: (w ++ s)) = _
    rw [List.dropWhile_cons_of_pos hc]
    exact ih fun d hd => h d (by simp [hd])

theorem skip_cons {c : Char} (h : isWs c = false) (s : Str) : skipWs (c :: s) = c :: s := by
  show List.dropWhile isWs (c :: s) = _
  rw [List.dropWhile_cons_of_neg (by simp [h])]

theorem ws_nil : Ws [] := by intro c hc; cases hc

/-! ## Strings -/

theorem hex4_sound {s r : Str} {n : Nat} (h : hex4 s = some (n, r)) : ∃ x, Hex x n ∧ s = x ++ r := by
  match s, h with
  | a :: b :: c :: d :: s, h =>
    simp only [hex4, Option.map_eq_some_iff] at h
    obtain ⟨m, hm, he⟩ := h
    cases he
    exact ⟨[a, b, c, d], ⟨rfl, hm⟩, rfl⟩

theorem hex4_complete {x : Str} {n : Nat} (h : Hex x n) (r : Str) : hex4 (x ++ r) = some (n, r) := by
  obtain ⟨hl, hd⟩ := h
  match x, hl with
  | [a, b, c, d], _ => simp [hex4, hd]

theorem simpleEscape_iff (e c : Char) : simpleEscape e = some c ↔ Simple e c := by
  constructor
  · intro h
    simp only [simpleEscape] at h
    repeat' (split at h)
    all_goals (first | (cases h; subst_vars; constructor) | cases h)
  · intro h; cases h <;> decide

theorem simple_ne_u {e c : Char} (h : Simple e c) : e ≠ 'u' := by cases h <;> decide

theorem escape_sound {s r : Str} {c : Char} (h : escape s = some (c, r)) :
    (∃ e, Simple e c ∧ s = e :: r) ∨
    (∃ x n, Hex x n ∧ (n < 0xD800 ∨ 0xDFFF < n) ∧ c = Char.ofNat n ∧ s = 'u' :: (x ++ r)) ∨
    ∃ x y n m, Hex x (0xD800 + n) ∧ n < 0x400 ∧ Hex y (0xDC00 + m) ∧ m < 0x400 ∧ c = Char.ofNat (0x10000 + n * 0x400 + m) ∧
      s = 'u' :: (x ++ '\\' :: 'u' :: (y ++ r)) := by
  match s with
  | e :: s =>
    simp only [escape] at h
    split at h
    · next hu =>
      subst hu
      unfold unicodeEscape at h
      split at h
      · cases h
      · next n s1 hx0 =>
        obtain ⟨x, hx, hs1⟩ := hex4_sound hx0
        subst hs1
        split at h
        · cases h
        · next hlow =>
          split at h
          · next hhigh =>
            split at h
            · next a b s2 =>
              split at h
              · next hab =>
                obtain ⟨rfl, rfl⟩ := hab
                split at h
                · cases h
                · next m s3 hy0 =>
                  obtain ⟨y, hy, hs2⟩ := hex4_sound hy0
                  subst hs2
                  split at h
                  · next hm =>
                    simp only [Option.some.injEq, Prod.mk.injEq] at h
                    obtain ⟨hc, hr⟩ := h
                    subst hr
                    refine .inr (.inr ⟨x, y, n - 0xD800, m - 0xDC00, ?_, by omega, ?_, by omega, hc.symm, rfl⟩)
                    · rwa [show 0xD800 + (n - 0xD800) = n by omega]
                    · rwa [show 0xDC00 + (m - 0xDC00) = m by omega]
                  · cases h
              · cases h
            · cases h
          · next hno =>
            cases h
            exact .inr (.inl ⟨x, n, hx, by clear hx; omega, rfl, rfl⟩)
    · simp only [Option.map_eq_some_iff] at h
      obtain ⟨d, hd, he⟩ := h
      cases he
      exact .inl ⟨e, (simpleEscape_iff _ _).1 hd, rfl⟩

theorem chars_sound (n : Nat) {s r v : Str} (h : chars n s = some (v, r)) : ∃ t, s = t ++ '"' :: r ∧ Chars t v := by
  induction n generalizing s v with
  | zero => cases h
  | succ n ih =>
    match s with
    | [] => cases h
    | c :: s =>
      simp only [chars] at h
      split at h
      · next hc => cases h; subst hc; exact ⟨[], rfl, .nil⟩
      · next hq =>
        split at h
        · next hb =>
          subst hb
          split at h
          · cases h
          · next d s1 he =>
            simp only [Option.map_eq_some_iff] at h
            obtain ⟨q, hq, hv⟩ := h
            cases hv
            obtain ⟨t, rfl, ht⟩ := ih hq
            rcases escape_sound he with ⟨e, hs, rfl⟩ | ⟨x, m, hx, hm, rfl, rfl⟩ | ⟨x, y, m, k, hx, hm, hy, hk, rfl, rfl⟩
            · exact ⟨'\\' :: e :: t, rfl, .simple hs ht⟩
            · exact ⟨'\\' :: 'u' :: (x ++ t), by simp, .unit hx hm ht⟩
            · exact ⟨'\\' :: 'u' :: (x ++ '\\' :: 'u' :: (y ++ t)), by simp, .pair hx hm hy hk ht⟩
        · next hb =>
          split at h
          · cases h
          · next hlt =>
            simp only [Option.map_eq_some_iff] at h
            obtain ⟨q, hq', hv⟩ := h
            cases hv
            obtain ⟨t, rfl, ht⟩ := ih hq'
            exact ⟨c :: t, rfl, .plain hq hb (by omega) ht⟩

theorem chars_complete {t v : Str} (h : Chars t v) (r : Str) (n : Nat) (hn : t.length < n) :
    chars n (t ++ '"' :: r) = some (v, r) := by
  induction h generalizing n with
  | nil =>
    cases n with
    | zero => cases hn
    | succ n => simp [chars]
  | @plain c t s hq hb hc _ ih =>
    cases n with
    | zero => cases hn
    | succ n =>
      have := ih n (by simp at hn; omega)
      have h32 : ¬ c.toNat < 32 := by omega
      simp [chars, hq, hb, h32, this]
  | @simple e c t s hs _ ih =>
    cases n with
    | zero => cases hn
    | succ n =>
      have := ih n (by simp at hn; omega)
      have h1 : escape (e :: (t ++ '"' :: r)) = some (c, t ++ '"' :: r) := by
        simp [escape, simple_ne_u hs, (simpleEscape_iff _ _).2 hs]
      simp [chars, h1, this]
  | @unit x k t s hx hk _ ih =>
    cases n with
    | zero => cases hn
    | succ n =>
      have := ih n (by simp at hn; omega)
      have h1 : escape ('u' :: (x ++ (t ++ '"' :: r))) = some (Char.ofNat k, t ++ '"' :: r) := by
        simp only [escape, ↓reduceIte, unicodeEscape, hex4_complete hx]
        rw [if_neg (by omega), if_neg (by omega)]
      simp [chars, h1, this]
  | @pair x y k m t s hx hk hy hm _ ih =>
    cases n with
    | zero => cases hn
    | succ n =>
      have := ih n (by simp at hn; omega)
      have h1 : escape ('u' :: (x ++ '\\' :: 'u' :: (y ++ (t ++ '"' :: r)))) =
          some (Char.ofNat (0x10000 + k * 0x400 + m), t ++ '"' :: r) := by
        simp only [escape, ↓reduceIte, unicodeEscape, hex4_complete hx, hex4_complete hy, and_self]
        rw [if_neg (by omega), if_pos (by omega), if_pos (by omega)]
        rw [show 0xD800 + k - 0xD800 = k by omega, show 0xDC00 + m - 0xDC00 = m by omega]
      simp [chars, h1, this]

theorem string_sound {s r v : Str} (h : string s = some (v, r)) : ∃ t, s = '"' :: (t ++ '"' :: r) ∧ Chars t v := by
  match s with
  | [] => cases h
  | c :: s =>
    simp only [string] at h
    split at h
    · next hc =>
      subst hc
      obtain ⟨t, rfl, ht⟩ := chars_sound _ h
      exact ⟨t, rfl, ht⟩
    · cases h

theorem string_complete {t v : Str} (h : Chars t v) (r : Str) : string ('"' :: (t ++ '"' :: r)) = some (v, r) := by
  simp only [string, ↓reduceIte]
  exact chars_complete h r _ (by simp; omega)

/-! ## Numbers -/

/-- What may stand behind a number -/
def Stops (r : Str) : Prop := ∀ c, r.head? = some c → isNumChar c = false

theorem digits_split {d : Str} (hd : ∀ c ∈ d, isAsciiDigit c = true) {r : Str} (hr : ∀ c, r.head? = some c → isAsciiDigit c = false) :
    (d ++ r).takeWhile isAsciiDigit = d ∧ (d ++ r).dropWhile isAsciiDigit = r := by
  induction d with
  | nil =>
    cases r with
    | nil => exact ⟨rfl, rfl⟩
    | cons c r =>
      have := hr c rfl
      simp [this]
  | cons c d ih =>
    have hc := hd c (by simp)
    have := ih fun x hx => hd x (by simp [hx])
    simp [hc, this]

theorem numchars_split {d : Str} (hd : ∀ c ∈ d, isNumChar c = true) {r : Str} (hr : Stops r) :
    (d ++ r).takeWhile isNumChar = d ∧ (d ++ r).dropWhile isNumChar = r := by
  induction d with
  | nil =>
    cases r with
    | nil => exact ⟨rfl, rfl⟩
    | cons c r =>
      have := hr c rfl
      simp [this]
  | cons c d ih =>
    have hc := hd c (by simp)
    have := ih fun x hx => hd x (by simp [hx])
    simp [hc, this]

theorem numeral_iff (s : Str) : isNumeral s = true ↔ s ≠ [] ∧ ∀ c ∈ s, isAsciiDigit c = true := by
  simp [isNumeral, List.all_eq_true]

theorem takeWhile_digits (s : Str) : ∀ c ∈ s.takeWhile isAsciiDigit, isAsciiDigit c = true :=
  List.all_eq_true.1 (List.all_takeWhile (p := isAsciiDigit) (l := s))

/-- The exponent as a text -/
def expText : Option (Char × Option Char × Str) → Str
  | some (e, s, d) => e :: (s.toList ++ d)
  | none => []

/-- and as a number -/
def expValue : Option (Char × Option Char × Str) → Int
  | some (_, s, d) => if s = some '-' then -(digitsValue d : Int) else digitsValue d
  | none => 0

/-- The exponent is correct. -/
def ExpOk (x : Option (Char × Option Char × Str)) : Prop :=
  ∀ e s d, x = some (e, s, d) → (e = 'e' ∨ e = 'E') ∧ (s = none ∨ s = some '+' ∨ s = some '-') ∧ isNumeral d = true

theorem exponent_sound {s : Str} {i : Int} (h : exponent s = some i) : ∃ x, ExpOk x ∧ expText x = s ∧ expValue x = i := by
  match s with
  | [] => cases h; exact ⟨none, by intro e s d h; (cases h), rfl, rfl⟩
  | c :: s =>
    simp only [exponent] at h
    split at h
    · next hc =>
      match s with
      | [] => cases h
      | a :: s =>
        simp only [exponentValue] at h
        split at h
        · next ha =>
          subst ha
          split at h
          · next hn =>
            cases h
            refine ⟨some (c, some '-', s), ?_, rfl, rfl⟩
            intro e t d hx; cases hx; exact ⟨hc, by simp, hn⟩
          · cases h
        · split at h
          · next ha =>
            subst ha
            split at h
            · next hn =>
              cases h
              refine ⟨some (c, some '+', s), ?_, rfl, rfl⟩
              intro e t d hx; cases hx; exact ⟨hc, by simp, hn⟩
            · cases h
          · split at h
            · next hn =>
              cases h
              refine ⟨some (c, none, a :: s), ?_, rfl, rfl⟩
              intro e t d hx; cases hx; exact ⟨hc, by simp, hn⟩
            · cases h
    · cases h

theorem exponent_complete {x : Option (Char × Option Char × Str)} (h : ExpOk x) : exponent (expText x) = some (expValue x) := by
  match x, h with
  | none, _ => rfl
  | some (e, s, d), h =>
    obtain ⟨he, hs, hd⟩ := h e s d rfl
    simp only [expText, exponent, he, ↓reduceIte, expValue]
    rcases hs with rfl | rfl | rfl
    · have hd' := (numeral_iff d).1 hd
      match d, hd, hd' with
      | c :: d, hd, hd' =>
        have hc := hd'.2 c (by simp)
        have h1 : c ≠ '-' := by intro hh; subst hh; revert hc; decide
        have h2 : c ≠ '+' := by intro hh; subst hh; revert hc; decide
        simp [exponentValue, h1, h2, hd]
    · simp [exponentValue, hd]
    · simp [exponentValue, hd]

/-- The digits behind the dot as a text -/
def fracText : Option Str → Str
  | some f => '.' :: f
  | none => []

theorem fraction_sound {s f r : Str} (h : fraction s = some (f, r)) :
    ∃ x : Option Str, (∀ g, x = some g → isNumeral g = true) ∧ x.getD [] = f ∧ s = fracText x ++ r := by
  match s with
  | [] => cases h; exact ⟨none, by intro g h; (cases h), rfl, rfl⟩
  | c :: s =>
    simp only [fraction] at h
    split at h
    · next hc =>
      subst hc
      split at h
      · cases h
      · next hne =>
        cases h
        refine ⟨some (s.takeWhile isAsciiDigit), ?_, rfl, ?_⟩
        · intro g hg; cases hg
          exact (numeral_iff _).2 ⟨by simpa [List.isEmpty_iff] using hne, takeWhile_digits s⟩
        · simp [fracText, List.takeWhile_append_dropWhile]
    · cases h; exact ⟨none, by intro g h; (cases h), rfl, rfl⟩

theorem fraction_complete {x : Option Str} (hx : ∀ g, x = some g → isNumeral g = true) {r : Str}
    (hr : ∀ c, r.head? = some c → isAsciiDigit c = false ∧ c ≠ '.') : fraction (fracText x ++ r) = some (x.getD [], r) := by
  match x, hx with
  | none, _ =>
    cases r with
    | nil => rfl
    | cons c r => simp [fracText, fraction, (hr c rfl).2]
  | some g, hx =>
    have hg := (numeral_iff g).1 (hx g rfl)
    have := digits_split hg.2 (fun c hc => (hr c hc).1)
    simp [fracText, fraction, this.1, this.2, hg.1]

theorem text_eq (n : Numeral) : n.text = (if n.neg then ['-'] else []) ++ (n.whole ++ (fracText n.frac ++ expText n.exp)) := by
  obtain ⟨neg, whole, frac, exp⟩ := n
  cases frac <;> rcases exp with _ | ⟨e, s, d⟩ <;> simp [Numeral.text, fracText, expText]

theorem power_eq (n : Numeral) : n.power = expValue n.exp := by
  obtain ⟨neg, whole, frac, exp⟩ := n
  rcases exp with _ | ⟨e, s, d⟩ <;> rfl

theorem expText_head {x : Option (Char × Option Char × Str)} (h : ExpOk x) (c : Char) (hc : (expText x).head? = some c) :
    isAsciiDigit c = false ∧ c ≠ '.' := by
  match x, h with
  | none, _ => cases hc
  | some (e, s, d), h =>
    have hce : e = c := by simpa [expText] using hc
    subst hce
    rcases (h e s d rfl).1 with hh | hh <;> rw [hh] <;> decide

theorem fracText_head {x : Option Str} {r : Str} (hr : ∀ c, r.head? = some c → isAsciiDigit c = false) (c : Char)
    (hc : (fracText x ++ r).head? = some c) : isAsciiDigit c = false := by
  cases x with
  | none => exact hr c hc
  | some g => cases hc; decide

theorem whole_iff {w : Str} (h : isNumeral w = true) :
    (w.head? = some '0' → w = ['0']) ↔ ¬ (w.isEmpty = true ∨ (w.head? = some '0' ∧ 1 < w.length)) := by
  have := (numeral_iff w).1 h
  match w, this with
  | c :: w, _ =>
    constructor
    · intro h hh
      rcases hh with hh | ⟨h0, hl⟩
      · cases hh
      · have := h h0
        rw [this] at hl
        simp at hl
    · intro h h0
      cases w with
      | nil => cases h0; rfl
      | cons d w => exact absurd (.inr ⟨h0, by simp⟩) h

theorem unsigned_sound {s : Str} {q : Rat} (h : unsigned s = some q) :
    ∃ n : Numeral, n.neg = false ∧ n.Valid ∧ n.text = s ∧ n.value = q := by
  simp only [unsigned] at h
  split at h
  · cases h
  · next hw =>
    have hnum : isNumeral (s.takeWhile isAsciiDigit) = true := by
      refine (numeral_iff _).2 ⟨fun he => hw (.inl (by rw [he]; rfl)), takeWhile_digits s⟩
    split at h
    · cases h
    · next frac s1 hf =>
      obtain ⟨x, hx, hxf, hs⟩ := fraction_sound hf
      simp only [Option.map_eq_some_iff] at h
      obtain ⟨e, he, hq⟩ := h
      obtain ⟨y, hy, hyt, hyv⟩ := exponent_sound he
      refine ⟨⟨false, s.takeWhile isAsciiDigit, x, y⟩, rfl, ⟨hnum, (whole_iff hnum).2 hw, hx, hy⟩, ?_, ?_⟩
      · rw [text_eq]
        simp only [Bool.false_eq_true, ↓reduceIte, List.nil_append]
        rw [hyt, ← hs, List.takeWhile_append_dropWhile]
      · simp only [Numeral.value, power_eq, Bool.false_eq_true, ↓reduceIte, hyv, hxf]
        exact hq

theorem unsigned_complete {n : Numeral} (h : n.Valid) :
    unsigned (n.whole ++ (fracText n.frac ++ expText n.exp)) =
      some ((digitsValue (n.whole ++ n.frac.getD []) : Rat) * (10 : Rat) ^ (n.power - ((n.frac.getD []).length : Int))) := by
  obtain ⟨hw, h0, hf, he⟩ := h
  have hw' := (numeral_iff _).1 hw
  have hs := digits_split hw'.2 (r := fracText n.frac ++ expText n.exp)
    (fun c hc => fracText_head (fun c hc => (expText_head he c hc).1) c hc)
  simp only [unsigned, hs.1, hs.2]
  rw [if_neg ((whole_iff hw).1 h0), fraction_complete hf (expText_head he)]
  simp only [exponent_complete he, power_eq, Option.map_some]

theorem whole_head {n : Numeral} (h : n.Valid) : ∃ c w, n.whole = c :: w ∧ isAsciiDigit c = true := by
  have hw' := (numeral_iff _).1 h.1
  match hn : n.whole, hw' with
  | c :: w, hw' => exact ⟨c, w, rfl, hw'.2 c (by simp)⟩

theorem number_sound {s : Str} {q : Rat} (h : number s = some q) : ∃ n : Numeral, n.Valid ∧ n.text = s ∧ n.value = q := by
  match s with
  | [] => cases h
  | c :: s =>
    simp only [number] at h
    split at h
    · next hc =>
      subst hc
      simp only [Option.map_eq_some_iff] at h
      obtain ⟨p, hp, rfl⟩ := h
      obtain ⟨n, hneg, hv, ht, hval⟩ := unsigned_sound hp
      refine ⟨{ n with neg := true }, hv, ?_, ?_⟩
      · rw [text_eq] at ht ⊢
        simp only [hneg, Bool.false_eq_true, ↓reduceIte, List.nil_append] at ht
        simp [ht]
      · simp only [Numeral.value, hneg, Bool.false_eq_true, ↓reduceIte] at hval
        simp only [Numeral.value, ↓reduceIte]
        rw [← hval]
        rfl
    · obtain ⟨n, _, hv, ht, hval⟩ := unsigned_sound h
      exact ⟨n, hv, ht, hval⟩

theorem number_complete {n : Numeral} (h : n.Valid) : number n.text = some n.value := by
  rw [text_eq]
  cases hneg : n.neg with
  | true =>
    simp [number, unsigned_complete h, Numeral.value, hneg]
  | false =>
    obtain ⟨c, w, hw, hc⟩ := whole_head h
    have hm : c ≠ '-' := by intro hh; subst hh; revert hc; decide
    have := unsigned_complete h
    simp only [Bool.false_eq_true, ↓reduceIte, List.nil_append, Numeral.value, hneg]
    rw [hw] at this ⊢
    simp only [List.cons_append, number, hm, ↓reduceIte]
    exact this

theorem numeral_numchars {d : Str} (h : isNumeral d = true) : ∀ c ∈ d, isNumChar c = true := by
  intro c hc
  simp [isNumChar, ((numeral_iff d).1 h).2 c hc]

theorem text_numchars {n : Numeral} (h : n.Valid) : ∀ c ∈ n.text, isNumChar c = true := by
  obtain ⟨hw, h0, hf, he⟩ := h
  rw [text_eq]
  intro c hc
  simp only [List.mem_append] at hc
  rcases hc with hc | hc | hc | hc
  · split at hc
    · simp only [List.mem_singleton] at hc; subst hc; decide
    · cases hc
  · exact numeral_numchars hw c hc
  · cases hx : n.frac with
    | none => rw [hx] at hc; cases hc
    | some g =>
      rw [hx] at hc
      rcases List.mem_cons.1 hc with rfl | hc
      · decide
      · exact numeral_numchars (hf g hx) c hc
  · rcases hx : n.exp with _ | ⟨e, s, d⟩
    · rw [hx] at hc; cases hc
    · rw [hx] at hc
      obtain ⟨h1, h2, h3⟩ := he e s d hx
      rcases List.mem_cons.1 hc with rfl | hc
      · rcases h1 with rfl | rfl <;> decide
      · rcases List.mem_append.1 hc with hc | hc
        · rcases h2 with rfl | rfl | rfl
          · cases hc
          · simp at hc; subst hc; decide
          · simp at hc; subst hc; decide
        · exact numeral_numchars h3 c hc

theorem numberThen_complete {fits : Rat → Bool} {n : Numeral} (h : n.Valid) (hfit : fits n.value = true) {r : Str} (hr : Stops r) :
    numberThen fits (n.text ++ r) = some (.num n.value, r) := by
  have := numchars_split (text_numchars h) hr
  simp [numberThen, this.1, this.2, number_complete h, hfit]

theorem numberThen_sound {fits : Rat → Bool} {s r : Str} {j : J} (h : numberThen fits s = some (j, r)) :
    ∃ n : Numeral, n.Valid ∧ fits n.value = true ∧ j = .num n.value ∧ s = n.text ++ r := by
  simp only [numberThen] at h
  split at h
  · cases h
  · next q hq =>
    obtain ⟨n, hv, ht, rfl⟩ := number_sound hq
    split at h
    · next hf =>
      cases h
      exact ⟨n, hv, hf, rfl, by rw [ht, List.takeWhile_append_dropWhile]⟩
    · cases h

theorem word_sound {w s r : Str} {j k : J} (h : word w k s = some (j, r)) : j = k ∧ s = w ++ r := by
  simp only [word] at h
  split at h
  · next hp =>
    obtain ⟨t, rfl⟩ := hp
    cases h
    exact ⟨rfl, by simp⟩
  · cases h

theorem word_complete (w r : Str) (j : J) : word w j (w ++ r) = some (j, r) := by
  simp [word]

/-! ## Values -/

theorem sound (fits : Rat → Bool) (n : Nat) :
    (∀ d s j r, value fits n d s = some (j, r) → ∃ t, s = t ++ r ∧ Val fits d t j) ∧
    (∀ d s l r, items fits n d s = some (l, r) → ∃ t, s = t ++ ']' :: r ∧ Items fits d t l) ∧
    (∀ d s o r, fields fits n d s = some (o, r) → ∃ t, s = t ++ '}' :: r ∧ Members fits d t o) := by
  induction n with
  | zero =>
    refine ⟨?_, ?_, ?_⟩
    · intro d s j r h; simp [value] at h
    · intro d s j r h; simp [items] at h
    · intro d s j r h; simp [fields] at h
  | succ n ih =>
    obtain ⟨ihv, ihi, ihf⟩ := ih
    refine ⟨?_, ?_, ?_⟩
    · intro d s j r h
      match s with
      | [] => simp [value] at h
      | c :: s =>
        unfold value at h
        split at h
        · next hc =>
          simp only [Option.map_eq_some_iff] at h
          obtain ⟨⟨v, r'⟩, hp, he⟩ := h
          cases he
          obtain ⟨t, ht, hv⟩ := string_sound hp
          exact ⟨'"' :: (t ++ ['"']), by rw [ht]; simp, .str hv⟩
        · split at h
          · next hc =>
            subst hc
            split at h
            · cases h
            · next d =>
              obtain ⟨w, hw, hs⟩ := skip_split s
              split at h
              · next hh =>
                cases h
                refine ⟨'[' :: (w ++ [']']), ?_, .noItem hw⟩
                cases hk : skipWs s with
                | nil => rw [hk] at hh; cases hh
                | cons a l =>
                  rw [hk] at hh; cases hh
                  rw [hk] at hs
                  simp [hs]
              · simp only [Option.map_eq_some_iff] at h
                obtain ⟨⟨l, r'⟩, hp, he⟩ := h
                cases he
                obtain ⟨t, ht, hi⟩ := ihi _ _ _ _ hp
                refine ⟨'[' :: ((w ++ t) ++ [']']), ?_, .arr ?_⟩
                · rw [hs, ht]; simp
                · cases hi with
                  | @one d a t b j ha hv hb =>
                    rw [← List.append_assoc]
                    exact .one (fun c hc => (List.mem_append.1 hc).elim (hw c) (ha c)) hv hb
                  | @more d a t b u j l ha hv hb hi =>
                    rw [← List.append_assoc]
                    exact .more (fun c hc => (List.mem_append.1 hc).elim (hw c) (ha c)) hv hb hi
          · split at h
            · next hc =>
              subst hc
              split at h
              · cases h
              · next d =>
                obtain ⟨w, hw, hs⟩ := skip_split s
                split at h
                · next hh =>
                  cases h
                  refine ⟨'{' :: (w ++ ['}']), ?_, .noField hw⟩
                  cases hk : skipWs s with
                  | nil => rw [hk] at hh; cases hh
                  | cons a l =>
                    rw [hk] at hh; cases hh
                    rw [hk] at hs
                    simp [hs]
                · simp only [Option.map_eq_some_iff] at h
                  obtain ⟨⟨l, r'⟩, hp, he⟩ := h
                  cases he
                  obtain ⟨t, ht, hi⟩ := ihf _ _ _ _ hp
                  refine ⟨'{' :: ((w ++ t) ++ ['}']), ?_, .obj ?_⟩
                  · rw [hs, ht]; simp
                  · cases hi with
                    | one ha hx hb hc hv he =>
                      rw [← List.append_assoc]
                      exact .one (fun c hc => (List.mem_append.1 hc).elim (hw c) (ha c)) hx hb hc hv he
                    | more ha hx hb hc hv he hm =>
                      rw [← List.append_assoc]
                      exact .more (fun c hc => (List.mem_append.1 hc).elim (hw c) (ha c)) hx hb hc hv he hm
            · split at h
              · obtain ⟨m, hv, hf, rfl, hs⟩ := numberThen_sound h
                exact ⟨m.text, hs, .num hv hf⟩
              · split at h
                · obtain ⟨rfl, hs⟩ := word_sound h
                  exact ⟨_, hs, .null⟩
                · split at h
                  · obtain ⟨rfl, hs⟩ := word_sound h
                    exact ⟨_, hs, .true⟩
                  · split at h
                    · obtain ⟨rfl, hs⟩ := word_sound h
                      exact ⟨_, hs, .false⟩
                    · cases h
    · intro d s l r h
      unfold items at h
      split at h
      · cases h
      · next j s1 hv0 =>
        obtain ⟨t, hs0, hv⟩ := ihv _ _ _ _ hv0
        subst hs0
        obtain ⟨b, hb, hs⟩ := skip_split s1
        split at h
        · cases h
        · next c s2 hk =>
          rw [hk] at hs
          split at h
          · next hc =>
            subst hc
            simp only [Option.map_eq_some_iff] at h
            obtain ⟨⟨l', r'⟩, hp, he⟩ := h
            cases he
            obtain ⟨u, hu, hi⟩ := ihi _ _ _ _ hp
            obtain ⟨a, ha, hs2⟩ := skip_split s2
            refine ⟨[] ++ (t ++ (b ++ ',' :: (a ++ u))), ?_, .more ws_nil hv hb ?_⟩
            · rw [hs, hs2, hu]; simp
            · cases hi with
              | one ha' hv' hb' =>
                rw [← List.append_assoc]
                exact .one (fun c hc => (List.mem_append.1 hc).elim (ha c) (ha' c)) hv' hb'
              | more ha' hv' hb' hi' =>
                rw [← List.append_assoc]
                exact .more (fun c hc => (List.mem_append.1 hc).elim (ha c) (ha' c)) hv' hb' hi'
          · split at h
            · next hc =>
              subst hc
              cases h
              exact ⟨[] ++ (t ++ b), by rw [hs]; simp, .one ws_nil hv hb⟩
            · cases h
    · intro d s o r h
      unfold fields at h
      split at h
      · cases h
      · next k s0 hk =>
        obtain ⟨x, rfl, hx⟩ := string_sound hk
        obtain ⟨b, hb, hs0⟩ := skip_split s0
        split at h
        · cases h
        · next c s1 hk1 =>
          rw [hk1] at hs0
          split at h
          · next hc =>
            subst hc
            obtain ⟨c, hc, hs1⟩ := skip_split s1
            split at h
            · cases h
            · next j s2 hv =>
              obtain ⟨t, hs1', hv⟩ := ihv _ _ _ _ hv
              rw [hs1'] at hs1
              obtain ⟨e, he, hs2⟩ := skip_split s2
              split at h
              · cases h
              · next c' s3 hk2 =>
                rw [hk2] at hs2
                split at h
                · next hc' =>
                  subst hc'
                  simp only [Option.map_eq_some_iff] at h
                  obtain ⟨⟨l', r'⟩, hp, heq⟩ := h
                  cases heq
                  obtain ⟨u, hu, hi⟩ := ihf _ _ _ _ hp
                  obtain ⟨a, ha, hs3⟩ := skip_split s3
                  refine ⟨[] ++ '"' :: (x ++ '"' :: (b ++ ':' :: (c ++ (t ++ (e ++ ',' :: (a ++ u)))))), ?_,
                    .more ws_nil hx hb hc hv he ?_⟩
                  · rw [hs0, hs1, hs2, hs3, hu]; simp
                  · cases hi with
                    | one ha' h2 h3 h4 h5 h6 =>
                      rw [← List.append_assoc]
                      exact .one (fun c hc => (List.mem_append.1 hc).elim (ha c) (ha' c)) h2 h3 h4 h5 h6
                    | more ha' h2 h3 h4 h5 h6 h7 =>
                      rw [← List.append_assoc]
                      exact .more (fun c hc => (List.mem_append.1 hc).elim (ha c) (ha' c)) h2 h3 h4 h5 h6 h7
                · split at h
                  · next hc' =>
                    subst hc'
                    cases h
                    exact ⟨[] ++ '"' :: (x ++ '"' :: (b ++ ':' :: (c ++ (t ++ e)))), by rw [hs0, hs1, hs2]; simp,
                      .one ws_nil hx hb hc hv he⟩
                  · cases h
          · cases h

/-- A value starts with a character that is neither white space nor the end of an array. -/
theorem val_head {fits : Rat → Bool} {d : Nat} {t : Str} {j : J} (h : Val fits d t j) :
    ∃ c u, t = c :: u ∧ isWs c = false ∧ c ≠ ']' := by
  cases h with
  | null => exact ⟨_, _, rfl, by decide, by decide⟩
  | true => exact ⟨_, _, rfl, by decide, by decide⟩
  | false => exact ⟨_, _, rfl, by decide, by decide⟩
  | @num _ n hv _ =>
    obtain ⟨c, w, hw, hc⟩ := whole_head hv
    rw [text_eq, hw]
    cases n.neg with
    | true => exact ⟨_, _, rfl, by decide, by decide⟩
    | false =>
      refine ⟨c, _, rfl, ?_, ?_⟩
      · cases hws : isWs c with
        | false => rfl
        | true =>
          rcases (isWs_iff c).1 hws with rfl | rfl | rfl | rfl <;> exact absurd hc (by decide)
      · intro hh; subst hh; exact absurd hc (by decide)
  | str _ => exact ⟨_, _, rfl, by decide, by decide⟩
  | noItem _ => exact ⟨_, _, rfl, by decide, by decide⟩
  | arr _ => exact ⟨_, _, rfl, by decide, by decide⟩
  | noField _ => exact ⟨_, _, rfl, by decide, by decide⟩
  | obj _ => exact ⟨_, _, rfl, by decide, by decide⟩

theorem skip_val {fits : Rat → Bool} {d : Nat} {a t r : Str} {j : J} (ha : Ws a) (h : Val fits d t j) :
    skipWs (a ++ (t ++ r)) = t ++ r := by
  obtain ⟨c, u, rfl, hc, _⟩ := val_head h
  rw [skip_ws ha]
  exact skip_cons hc _

theorem stops_ws {w : Str} (h : Ws w) {r : Str} (hr : Stops r) : Stops (w ++ r) := by
  cases w with
  | nil => exact hr
  | cons c w =>
    intro d hd
    cases hd
    rcases h c (by simp) with rfl | rfl | rfl | rfl <;> decide

theorem stops_cons {c : Char} (h : isNumChar c = false) (r : Str) : Stops (c :: r) := by
  intro d hd; cases hd; exact h

theorem items_head {fits : Rat → Bool} {d : Nat} {t : Str} {l : List J} (h : Items fits d t l) (r : Str) :
    (skipWs (t ++ r)).head? ≠ some ']' := by
  cases h with
  | @one _ a t b j ha hv hb =>
    have := skip_val (r := b ++ r) ha hv
    simp only [List.append_assoc]
    rw [this]
    obtain ⟨c, u, rfl, _, hc⟩ := val_head hv
    simpa using hc
  | @more _ a t b u j l ha hv hb hi =>
    have := skip_val (r := b ++ ',' :: (u ++ r)) ha hv
    simp only [List.append_assoc, List.cons_append]
    rw [this]
    obtain ⟨c, u, rfl, _, hc⟩ := val_head hv
    simpa using hc

theorem members_head {fits : Rat → Bool} {d : Nat} {t : Str} {l : List (Str × J)} (h : Members fits d t l) (r : Str) :
    (skipWs (t ++ r)).head? ≠ some '}' := by
  cases h with
  | one ha hx hb hc hv he =>
    simp only [List.append_assoc, List.cons_append]
    rw [skip_ws ha, skip_cons (by decide)]
    simp
  | more ha hx hb hc hv he hm =>
    simp only [List.append_assoc, List.cons_append]
    rw [skip_ws ha, skip_cons (by decide)]
    simp

mutual
theorem val_complete {fits : Rat → Bool} {d : Nat} {t : Str} {j : J} (h : Val fits d t j) (r : Str) (hr : Stops r) (n : Nat)
    (hn : 2 * t.length ≤ n) : value fits n d (t ++ r) = some (j, r) := by
  cases n with
  | zero =>
    obtain ⟨c, u, rfl, _⟩ := val_head h
    simp at hn
  | succ n =>
    cases h with
    | null => simpa [value, show isAsciiDigit 'n' = .false from rfl] using word_complete c!"null" r .null
    | true => simpa [value, show isAsciiDigit 't' = .false from rfl] using word_complete c!"true" r (.bool true)
    | false => simpa [value, show isAsciiDigit 'f' = .false from rfl] using word_complete c!"false" r (.bool false)
    | @num _ m hv hf =>
      have := numberThen_complete hv hf hr
      obtain ⟨c, w, hw, hc⟩ := whole_head hv
      obtain ⟨c, u, ht, hcc⟩ : ∃ c u, m.text = c :: u ∧ (c = '-' ∨ isAsciiDigit c = .true) := by
        rw [text_eq, hw]
        cases m.neg with
        | true => exact ⟨_, _, rfl, .inl rfl⟩
        | false => exact ⟨c, _, rfl, .inr hc⟩
      rw [ht] at this ⊢
      have h1 : c ≠ '"' := by rintro rfl; rcases hcc with h | h <;> revert h <;> decide
      have h2 : c ≠ '[' := by rintro rfl; rcases hcc with h | h <;> revert h <;> decide
      have h3 : c ≠ '{' := by rintro rfl; rcases hcc with h | h <;> revert h <;> decide
      simp only [List.cons_append, value, h1, h2, h3, hcc, ↓reduceIte]
      exact this
    | @str _ t s hc =>
      have := string_complete hc r
      simp only [List.cons_append, List.append_assoc, List.nil_append, value, ↓reduceIte, this, Option.map_some]
    | @noItem d w hw =>
      have : skipWs (w ++ ']' :: r) = ']' :: r := by rw [skip_ws hw, skip_cons (by decide)]
      simp [value, this]
    | @arr d t l hi =>
      have := items_complete hi r n (by simp at hn; omega)
      have hh := items_head hi (']' :: r)
      simp [value, this, hh]
    | @noField d w hw =>
      have : skipWs (w ++ '}' :: r) = '}' :: r := by rw [skip_ws hw, skip_cons (by decide)]
      simp [value, this]
    | @obj d t l hi =>
      have := members_complete hi r n (by simp at hn; omega)
      have hh := members_head hi ('}' :: r)
      simp [value, this, hh]

theorem items_complete {fits : Rat → Bool} {d : Nat} {t : Str} {l : List J} (h : Items fits d t l) (r : Str) (n : Nat)
    (hn : 2 * t.length + 1 ≤ n) : items fits n d (skipWs (t ++ ']' :: r)) = some (l, r) := by
  cases n with
  | zero => simp at hn
  | succ n =>
    cases h with
    | @one _ a t b j ha hv hb =>
      have h1 := skip_val (r := b ++ ']' :: r) ha hv
      have h2 := val_complete hv (b ++ ']' :: r) (stops_ws hb (stops_cons (by decide) _)) n (by simp at hn; omega)
      have h3 : skipWs (b ++ ']' :: r) = ']' :: r := by rw [skip_ws hb, skip_cons (by decide)]
      simp only [List.append_assoc]
      rw [h1]
      simp [items, h2, h3]
    | @more _ a t b u j l ha hv hb hi =>
      have h1 := skip_val (r := b ++ ',' :: (u ++ ']' :: r)) ha hv
      have h2 := val_complete hv (b ++ ',' :: (u ++ ']' :: r)) (stops_ws hb (stops_cons (by decide) _)) n (by simp at hn; omega)
      have h3 : skipWs (b ++ ',' :: (u ++ ']' :: r)) = ',' :: (u ++ ']' :: r) := by rw [skip_ws hb, skip_cons (by decide)]
      have h4 := items_complete hi r n (by simp at hn; omega)
      simp only [List.append_assoc, List.cons_append]
      rw [h1]
      simp [items, h2, h3, h4]

theorem members_complete {fits : Rat → Bool} {d : Nat} {t : Str} {l : List (Str × J)} (h : Members fits d t l) (r : Str) (n : Nat)
    (hn : 2 * t.length + 1 ≤ n) : fields fits n d (skipWs (t ++ '}' :: r)) = some (l, r) := by
  cases n with
  | zero => simp at hn
  | succ n =>
    cases h with
    | @one _ a x b c t e k j ha hx hb hc hv he =>
      have h1 : skipWs (a ++ '"' :: (x ++ '"' :: (b ++ ':' :: (c ++ (t ++ (e ++ '}' :: r)))))) =
        '"' :: (x ++ '"' :: (b ++ ':' :: (c ++ (t ++ (e ++ '}' :: r))))) := by rw [skip_ws ha, skip_cons (by decide)]
      have h2 := string_complete hx (b ++ ':' :: (c ++ (t ++ (e ++ '}' :: r))))
      have h3 : skipWs (b ++ ':' :: (c ++ (t ++ (e ++ '}' :: r)))) = ':' :: (c ++ (t ++ (e ++ '}' :: r))) := by
        rw [skip_ws hb, skip_cons (by decide)]
      have h4 := skip_val (r := e ++ '}' :: r) hc hv
      have h5 := val_complete hv (e ++ '}' :: r) (stops_ws he (stops_cons (by decide) _)) n (by simp at hn; omega)
      have h6 : skipWs (e ++ '}' :: r) = '}' :: r := by rw [skip_ws he, skip_cons (by decide)]
      simp only [List.append_assoc, List.cons_append]
      rw [h1]
      simp [fields, h2, h3, h4, h5, h6]
    | @more _ a x b c t e k u j o ha hx hb hc hv he hm =>
      have h1 : skipWs (a ++ '"' :: (x ++ '"' :: (b ++ ':' :: (c ++ (t ++ (e ++ ',' :: (u ++ '}' :: r))))))) =
        '"' :: (x ++ '"' :: (b ++ ':' :: (c ++ (t ++ (e ++ ',' :: (u ++ '}' :: r)))))) := by rw [skip_ws ha, skip_cons (by decide)]
      have h2 := string_complete hx (b ++ ':' :: (c ++ (t ++ (e ++ ',' :: (u ++ '}' :: r)))))
      have h3 : skipWs (b ++ ':' :: (c ++ (t ++ (e ++ ',' :: (u ++ '}' :: r))))) = ':' :: (c ++ (t ++ (e ++ ',' :: (u ++ '}' :: r)))) := by
        rw [skip_ws hb, skip_cons (by decide)]
      have h4 := skip_val (r := e ++ ',' :: (u ++ '}' :: r)) hc hv
      have h5 := val_complete hv (e ++ ',' :: (u ++ '}' :: r)) (stops_ws he (stops_cons (by decide) _)) n (by simp at hn; omega)
      have h6 : skipWs (e ++ ',' :: (u ++ '}' :: r)) = ',' :: (u ++ '}' :: r) := by rw [skip_ws he, skip_cons (by decide)]
      have h7 := members_complete hm r n (by simp at hn; omega)
      simp only [List.append_assoc, List.cons_append]
      rw [h1]
      simp [fields, h2, h3, h4, h5, h6, h7]
end

theorem skip_empty {s : Str} (h : (skipWs s).isEmpty = true) : Ws s := by
  obtain ⟨w, hw, hs⟩ := skip_split s
  rw [List.isEmpty_iff] at h
  rw [h, List.append_nil] at hs
  rw [hs]; exact hw

theorem read_sound {fits : Rat → Bool} {s : Str} {j : J} (h : JsonText.read fits s = some j) : Text fits 127 s j := by
  simp only [JsonText.read] at h
  split at h
  · cases h
  · next k r hv =>
    split at h
    · next he =>
      cases h
      obtain ⟨t, hs, hv⟩ := (sound fits _).1 _ _ _ _ hv
      obtain ⟨a, ha, hs'⟩ := skip_split s
      exact ⟨a, t, r, ha, skip_empty he, by rw [hs] at hs'; exact hs', hv⟩
    · cases h

theorem read_complete {fits : Rat → Bool} {s : Str} {j : J} (h : Text fits 127 s j) : JsonText.read fits s = some j := by
  obtain ⟨a, t, b, ha, hb, rfl, hv⟩ := h
  have hstop : Stops b := by
    have := stops_ws hb (r := []) (by intro c hc; cases hc)
    rwa [List.append_nil] at this
  have h1 := val_complete hv b hstop (2 * (a ++ (t ++ b)).length + 2) (by simp; omega)
  have h2 := skip_val (r := b) ha hv
  have h3 : skipWs b = [] := by
    have := skip_ws hb []
    rwa [List.append_nil] at this
  simp [JsonText.read, maxDepth, h2] at h1 ⊢
  rw [h1]
  simp [h3]

theorem readBytes_iff {fits : Rat → Bool} {bytes : List Decode.Byte} {j : J} :
    readBytes fits bytes = some j ↔ Document fits bytes j := by
  unfold readBytes Document
  rw [Option.bind_eq_some_iff]
  constructor
  · rintro ⟨s, h1, h2⟩
    exact ⟨s, Verif.Decode.fromUtf8_iff.1 h1, read_sound h2⟩
  · rintro ⟨s, h1, h2⟩
    exact ⟨s, Verif.Decode.fromUtf8_iff.2 h1, read_complete h2⟩

end Verif.Proofs.JsonText
