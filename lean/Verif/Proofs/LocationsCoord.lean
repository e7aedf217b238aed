import Verif.Spec.Locations
/-! # Coordinate and bearing/range waypoints (helper lemmas) -/

set_option linter.unusedSectionVars false

namespace Verif.Locations
open Spec FloatOps

variable {F : Type} [UnicodeTables] [FloatOps F]

theorem decimal_digit {c : Char} (h : isAsciiDigit c = true) : UnicodeTables.decimal c = true := by
  rw [UnicodeTables.decimal_ascii, h]
  simp only [isAsciiDigit, Bool.and_eq_true, decide_eq_true_eq] at h
  have : c.toNat ≤ 57 := h.2
  omega

theorem decimal_NS {c : Char} (h : c = 'N' ∨ c = 'S') : UnicodeTables.decimal c = false := by
  rcases h with rfl | rfl
  · rw [UnicodeTables.decimal_ascii _ (by decide)]; decide
  · rw [UnicodeTables.decimal_ascii _ (by decide)]; decide

theorem decimal_EW {c : Char} (h : c = 'E' ∨ c = 'W') : UnicodeTables.decimal c = false := by
  rcases h with rfl | rfl
  · rw [UnicodeTables.decimal_ascii _ (by decide)]; decide
  · rw [UnicodeTables.decimal_ascii _ (by decide)]; decide

theorem takeWhile_split {p : Char → Bool} {a b : Str} {c : Char} (ha : ∀ x ∈ a, p x = true)
    (hc : p c = false) : (a ++ c :: b).takeWhile p = a ∧ (a ++ c :: b).dropWhile p = c :: b := by
  induction a with
  | nil => simp [hc]
  | cons x a ih =>
    have hx := ha x List.mem_cons_self
    have := ih (fun y hy => ha y (List.mem_cons_of_mem _ hy))
    simp [hx, this]

theorem takeWhile_all {p : Char → Bool} (l : Str) : ∀ x ∈ l.takeWhile p, p x = true := by
  induction l with
  | nil => simp
  | cons a l ih =>
    by_cases h : p a = true
    · simp [h]
      simpa using ih
    · simp [h]

theorem coordCaptures_iff {d lat lng : Str} {ns we : Char} :
    coordCaptures d = some (lat, ns, lng, we) ↔
      (d = lat ++ [ns] ++ lng ++ [we] ∧ (∀ c ∈ lat, UnicodeTables.decimal c = true) ∧
        (∀ c ∈ lng, UnicodeTables.decimal c = true) ∧
        (1 ≤ lat.length ∧ lat.length ≤ 6) ∧ (ns = 'N' ∨ ns = 'S') ∧
        (2 ≤ lng.length ∧ lng.length ≤ 7) ∧ (we = 'E' ∨ we = 'W')) := by
  constructor
  · intro h
    unfold coordCaptures at h
    simp only at h
    split at h
    · next ns' rest hrest =>
      split at h
      · next we' hwe =>
        split at h
        · next hc =>
          simp only [Option.some.injEq, Prod.mk.injEq] at h
          obtain ⟨rfl, rfl, rfl, rfl⟩ := h
          obtain ⟨h1, h2, h3, h4, h5, h6⟩ := hc
          refine ⟨?_, takeWhile_all _, takeWhile_all _, ⟨h1, h2⟩, h3, ⟨h4, h5⟩, h6⟩
          have e1 := List.takeWhile_append_dropWhile (p := UnicodeTables.decimal) (l := d)
          have e2 := List.takeWhile_append_dropWhile (p := UnicodeTables.decimal) (l := rest)
          rw [hrest] at e1
          rw [hwe] at e2
          simp only [List.append_assoc, List.cons_append, List.nil_append]
          rw [e2, e1]
        · cases h
      · cases h
    · cases h
  · rintro ⟨rfl, h1, h2, h3, h4, h5, h6⟩
    have a1 := takeWhile_split (b := lng ++ [we]) h1 (decimal_NS h4)
    have a2 := takeWhile_split (b := []) h2 (decimal_EW h6)
    unfold coordCaptures
    simp only [List.append_assoc, List.cons_append, List.nil_append, a1, a2]
    rw [if_pos ⟨h3.1, h3.2, h4, h5.1, h5.2, h6⟩]

/-! ### Values -/

theorem size1 {s : Str} (h : ∀ c ∈ s, isAsciiDigit c = true) : ∀ c ∈ s, c.utf8Size = 1 :=
  fun c hc => utf8Size_digit (h c hc)

theorem isNumeral_iff {s : Str} : isNumeral s = true ↔ s ≠ [] ∧ ∀ c ∈ s, isAsciiDigit c = true := by
  simp [isNumeral]

theorem sliceBytes_ascii {s : Str} (h : ∀ c ∈ s, isAsciiDigit c = true) {a b : Nat} (hab : a ≤ b)
    (hb : b ≤ s.length) : sliceBytes s a b = some ((s.take b).drop a) := by
  unfold sliceBytes
  rw [splitAtByte_ascii (size1 h) hb]
  simp only [Option.bind_some]
  rw [splitAtByte_ascii (size1 (fun c hc => h c (List.mem_of_mem_take hc)))
    (by rw [List.length_take]; omega)]
  rfl

theorem parseSlice_ascii {s : Str} (h : ∀ c ∈ s, isAsciiDigit c = true) {a b : Nat} (hab : a < b)
    (hb : b ≤ s.length) :
    (parseSlice s a b : Run F) = .ok (ofNat (digitsValue ((s.take b).drop a))) := by
  unfold parseSlice
  rw [sliceBytes_ascii h (by omega) hb]
  simp only [unwrap_some, run_ok_bind, parseF64]
  rw [if_pos]
  rw [isNumeral_iff]
  constructor
  · intro he
    have := congrArg List.length he
    simp at this
    omega
  · intro c hc; exact h c (List.mem_of_mem_take (List.mem_of_mem_drop hc))

theorem parseF64_ascii {s : Str} (h : ∀ c ∈ s, isAsciiDigit c = true) (hne : s ≠ []) :
    (parseF64 s : Run F) = .ok (ofNat (digitsValue s)) := by
  unfold parseF64
  rw [if_pos (isNumeral_iff.2 ⟨hne, h⟩)]

theorem latValue_ascii {s : Str} (h : ∀ c ∈ s, isAsciiDigit c = true)
    (hl : s.length = 2 ∨ s.length = 4 ∨ s.length = 6) :
    (latValue s : Run F) = .ok (angle 2 s) := by
  have hb := byteLen_ascii (size1 h)
  unfold latValue
  rw [hb]
  rcases hl with hl | hl | hl
  · rw [hl]
    simp only
    rw [parseF64_ascii h (by intro he; rw [he] at hl; simp at hl)]
    simp only [angle, hl, Nat.le_refl, if_true]
    rw [List.take_of_length_le (by omega)]
  · rw [hl]
    simp only
    rw [parseSlice_ascii h (by omega) (by omega), parseSlice_ascii h (by omega) (by omega)]
    simp only [run_ok_bind, angle, hl]
    have e : (s.take 4).drop 2 = (s.drop 2).take 2 := by rw [List.drop_take]
    rw [e]
    simp
  · rw [hl]
    simp only
    rw [parseSlice_ascii h (by omega) (by omega), parseSlice_ascii h (by omega) (by omega),
      parseSlice_ascii h (by omega) (by omega)]
    simp only [run_ok_bind, angle, hl]
    have e : (s.take 4).drop 2 = (s.drop 2).take 2 := by rw [List.drop_take]
    rw [e]
    have e2 : (s.take 6) = s := List.take_of_length_le (by omega)
    rw [e2]
    simp

theorem lngValue_ascii {s : Str} (h : ∀ c ∈ s, isAsciiDigit c = true)
    (hl : s.length = 3 ∨ s.length = 5 ∨ s.length = 7) :
    (lngValue s : Run F) = .ok (angle 3 s) := by
  have hb := byteLen_ascii (size1 h)
  unfold lngValue
  rw [hb]
  rcases hl with hl | hl | hl
  · rw [hl]
    simp only
    rw [parseF64_ascii h (by intro he; rw [he] at hl; simp at hl)]
    simp only [angle, hl, Nat.le_refl, if_true]
    rw [List.take_of_length_le (by omega)]
  · rw [hl]
    simp only
    rw [parseSlice_ascii h (by omega) (by omega), parseSlice_ascii h (by omega) (by omega)]
    simp only [run_ok_bind, angle, hl]
    have e : (s.take 5).drop 3 = (s.drop 3).take 2 := by rw [List.drop_take]
    rw [e]
    simp
  · rw [hl]
    simp only
    rw [parseSlice_ascii h (by omega) (by omega), parseSlice_ascii h (by omega) (by omega),
      parseSlice_ascii h (by omega) (by omega)]
    simp only [run_ok_bind, angle, hl]
    have e : (s.take 5).drop 3 = (s.drop 3).take 2 := by rw [List.drop_take]
    rw [e]
    have e2 : (s.take 7) = s := List.take_of_length_le (by omega)
    rw [e2]
    simp

theorem parseF64_ok {s : Str} {v : F} (h : (parseF64 s : Run F) = .ok v) :
    ∀ c ∈ s, isAsciiDigit c = true := by
  unfold parseF64 at h
  split at h
  · next hn => exact (isNumeral_iff.1 hn).2
  · cases h

theorem parseSlice_ok {s : Str} {a b : Nat} {v : F} (h : (parseSlice s a b : Run F) = .ok v) :
    ∃ t, sliceBytes s a b = some t ∧ ∀ c ∈ t, isAsciiDigit c = true := by
  unfold parseSlice at h
  rw [run_bind_ok_iff] at h
  obtain ⟨t, h1, h2⟩ := h
  exact ⟨t, unwrap_ok_iff.1 h1, parseF64_ok h2⟩

/-- slices that cover a string -/
theorem sliceBytes_spec {s t : Str} {a b : Nat} (h : sliceBytes s a b = some t) :
    ∃ p q, s = p ++ t ++ q ∧ byteLen p = a ∧ byteLen (p ++ t) = b := by
  unfold sliceBytes at h
  simp only [Option.bind_eq_some_iff, Option.map_eq_some_iff] at h
  obtain ⟨⟨x, y⟩, h1, ⟨u, v⟩, h2, h3⟩ := h
  obtain ⟨e1, e2⟩ := splitAtByte_sound h1
  obtain ⟨e3, e4⟩ := splitAtByte_sound h2
  simp only at h3 e3
  subst h3
  exact ⟨u, y, by rw [e1, e3], e4, by rw [← e3, e2]⟩

theorem byteLen_append (a b : Str) : byteLen (a ++ b) = byteLen a + byteLen b := by
  induction a with
  | nil => simp [byteLen]
  | cons c a ih => simp only [List.cons_append, byteLen, ih]; omega

theorem byteLen_eq_zero {a : Str} (h : byteLen a = 0) : a = [] := by
  cases a with
  | nil => rfl
  | cons c a => simp only [byteLen] at h; have := c.utf8Size_pos; omega

theorem prefix_unique {p q p' q' : Str} (h : p ++ q = p' ++ q') (hl : byteLen p = byteLen p') :
    p = p' ∧ q = q' := by
  have h1 : splitAtByte (byteLen p) (p ++ q) = some (p, q) := splitAtByte_append
  have h2 : splitAtByte (byteLen p') (p' ++ q') = some (p', q') := splitAtByte_append
  rw [h, hl, h2] at h1
  simp only [Option.some.injEq, Prod.mk.injEq] at h1
  exact ⟨h1.1.symm, h1.2.symm⟩

/-- If the slices `[0..k]` and `[k..n]` of a string of `n` bytes consist of ASCII digits, so does the
string up to `n`. -/
theorem ascii_join {s t u : Str} {k n : Nat} (h1 : sliceBytes s 0 k = some t)
    (h2 : sliceBytes s k n = some u) : sliceBytes s 0 n = some (t ++ u) := by
  obtain ⟨p, q, e1, e2, e3⟩ := sliceBytes_spec h1
  have := byteLen_eq_zero e2
  subst this
  obtain ⟨p', q', e4, e5, e6⟩ := sliceBytes_spec h2
  have := prefix_unique (p := t) (q := q) (p' := p') (q' := u ++ q')
    (by simp only [List.nil_append] at e1; rw [← e1, e4, List.append_assoc])
    (by rw [e5]; simpa using e3)
  obtain ⟨rfl, rfl⟩ := this
  unfold sliceBytes
  rw [e4, ← e6, splitAtByte_append]
  cases t <;> cases u <;> simp [splitAtByte]

theorem slice_full {s t : Str} {n : Nat} (h : sliceBytes s 0 n = some t) (hn : byteLen s = n) :
    s = t := by
  obtain ⟨p, q, e1, e2, e3⟩ := sliceBytes_spec h
  have := byteLen_eq_zero e2
  subst this
  rw [e1, byteLen_append] at hn
  have := byteLen_eq_zero (a := q) (by simp only [List.nil_append] at e3 hn; omega)
  rw [e1, this]; simp

theorem mem_append_digits {t u : Str} (h1 : ∀ c ∈ t, isAsciiDigit c = true)
    (h2 : ∀ c ∈ u, isAsciiDigit c = true) : ∀ c ∈ t ++ u, isAsciiDigit c = true := by
  intro c hc
  rcases List.mem_append.1 hc with h | h
  · exact h1 c h
  · exact h2 c h

theorem latValue_ok {s : Str} {v : F} (h : (latValue s : Run F) = .ok v) :
    ∀ c ∈ s, isAsciiDigit c = true := by
  unfold latValue at h
  split at h
  · exact parseF64_ok h
  · next hb =>
    simp only [run_bind_ok_iff] at h
    obtain ⟨_, h1, _, h2, _⟩ := h
    obtain ⟨t, a1, a2⟩ := parseSlice_ok h1
    obtain ⟨u, b1, b2⟩ := parseSlice_ok h2
    rw [slice_full (ascii_join a1 b1) hb]
    exact mem_append_digits a2 b2
  · next hb =>
    simp only [run_bind_ok_iff] at h
    obtain ⟨_, h1, _, h2, _, h3, _⟩ := h
    obtain ⟨t, a1, a2⟩ := parseSlice_ok h1
    obtain ⟨u, b1, b2⟩ := parseSlice_ok h2
    obtain ⟨w, c1, c2⟩ := parseSlice_ok h3
    rw [slice_full (ascii_join (ascii_join a1 b1) c1) hb]
    exact mem_append_digits (mem_append_digits a2 b2) c2
  · cases h

theorem lngValue_ok {s : Str} {v : F} (h : (lngValue s : Run F) = .ok v) :
    ∀ c ∈ s, isAsciiDigit c = true := by
  unfold lngValue at h
  split at h
  · exact parseF64_ok h
  · next hb =>
    simp only [run_bind_ok_iff] at h
    obtain ⟨_, h1, _, h2, _⟩ := h
    obtain ⟨t, a1, a2⟩ := parseSlice_ok h1
    obtain ⟨u, b1, b2⟩ := parseSlice_ok h2
    rw [slice_full (ascii_join a1 b1) hb]
    exact mem_append_digits a2 b2
  · next hb =>
    simp only [run_bind_ok_iff] at h
    obtain ⟨_, h1, _, h2, _, h3, _⟩ := h
    obtain ⟨t, a1, a2⟩ := parseSlice_ok h1
    obtain ⟨u, b1, b2⟩ := parseSlice_ok h2
    obtain ⟨w, c1, c2⟩ := parseSlice_ok h3
    rw [slice_full (ascii_join (ascii_join a1 b1) c1) hb]
    exact mem_append_digits (mem_append_digits a2 b2) c2
  · cases h

/-! ### Normalisation of ASCII fields -/

theorem normalise_lat {s : Str} (h : ∀ c ∈ s, isAsciiDigit c = true)
    (hl : 1 ≤ s.length ∧ s.length ≤ 6) :
    normalise s (fun n => n == 1 || n == 3 || n == 5) =
      if s.length % 2 = 1 ∧ s.head? = some '0' then none else some (padLat s) := by
  unfold normalise padLat
  rw [byteLen_ascii (size1 h)]
  have : s.length = 1 ∨ s.length = 2 ∨ s.length = 3 ∨ s.length = 4 ∨ s.length = 5 ∨ s.length = 6 := by
    omega
  rcases this with e | e | e | e | e | e <;> simp [e]

theorem normalise_lng {s : Str} (h : ∀ c ∈ s, isAsciiDigit c = true)
    (hl : 2 ≤ s.length ∧ s.length ≤ 7) :
    normalise s (fun n => n == 2 || n == 4 || n == 6) =
      if s.length % 2 = 0 ∧ s.head? = some '0' then none else some (padLng s) := by
  unfold normalise padLng
  rw [byteLen_ascii (size1 h)]
  have : s.length = 2 ∨ s.length = 3 ∨ s.length = 4 ∨ s.length = 5 ∨ s.length = 6 ∨ s.length = 7 := by
    omega
  rcases this with e | e | e | e | e | e <;> simp [e]

theorem normalise_mem {s t : Str} {f : Nat → Bool} (h : normalise s f = some t) :
    ∀ c ∈ s, c ∈ t := by
  unfold normalise at h
  split at h
  · split at h
    · cases h
    · cases h; intro c hc; exact List.mem_cons_of_mem _ hc
  · cases h; exact fun c hc => hc

theorem padLat_digits {s : Str} (h : ∀ c ∈ s, isAsciiDigit c = true) :
    ∀ c ∈ padLat s, isAsciiDigit c = true := by
  unfold padLat
  split
  · intro c hc
    rcases List.mem_cons.1 hc with rfl | hc
    · decide
    · exact h c hc
  · exact h

theorem padLng_digits {s : Str} (h : ∀ c ∈ s, isAsciiDigit c = true) :
    ∀ c ∈ padLng s, isAsciiDigit c = true := by
  unfold padLng
  split
  · intro c hc
    rcases List.mem_cons.1 hc with rfl | hc
    · decide
    · exact h c hc
  · exact h

theorem padLat_length {s : Str} (h : 1 ≤ s.length ∧ s.length ≤ 6) :
    (padLat s).length = 2 ∨ (padLat s).length = 4 ∨ (padLat s).length = 6 := by
  unfold padLat
  split
  · simp only [List.length_cons]; omega
  · omega

theorem padLng_length {s : Str} (h : 2 ≤ s.length ∧ s.length ≤ 7) :
    (padLng s).length = 3 ∨ (padLng s).length = 5 ∨ (padLng s).length = 7 := by
  unfold padLng
  split
  · simp only [List.length_cons]; omega
  · omega

/-- The outcome for a designator whose captures are ASCII digits. -/
theorem convertCoordinate_ascii {d lat lng : Str} {ns we : Char}
    (hc : coordCaptures d = some (lat, ns, lng, we))
    (h1 : ∀ c ∈ lat, isAsciiDigit c = true) (h2 : ∀ c ∈ lng, isAsciiDigit c = true) :
    (convertCoordinate d : Run (Option (Fix F))) = .ok (
      if (lat.length % 2 = 1 ∧ lat.head? = some '0') ∨ (lng.length % 2 = 0 ∧ lng.head? = some '0') ∨
        (padLng lng).length ≠ (padLat lat).length + 1
      then none else some (coordinateFix lat ns lng we)) := by
  obtain ⟨_, _, _, hl1, _, hl2, _⟩ := coordCaptures_iff.1 hc
  unfold convertCoordinate
  rw [hc]
  simp only
  rw [normalise_lat h1 hl1, normalise_lng h2 hl2]
  by_cases c1 : lat.length % 2 = 1 ∧ lat.head? = some '0'
  · simp [c1]
  · simp only [c1, if_false, false_or]
    by_cases c2 : lng.length % 2 = 0 ∧ lng.head? = some '0'
    · simp [c2]
    · simp only [c2, if_false, false_or]
      rw [byteLen_ascii (size1 (padLat_digits h1)), byteLen_ascii (size1 (padLng_digits h2))]
      have p1 := padLat_length hl1
      have p2 := padLng_length hl2
      by_cases c3 : (padLng lng).length = (padLat lat).length + 1
      · have c4 : ¬ ((padLng lng).length - (padLat lat).length ≠ 1) := by omega
        have c5 : ¬ ((padLng lng).length ≠ (padLat lat).length + 1) := by omega
        simp only [c4, c5, if_false]
        rw [latValue_ascii (padLat_digits h1) p1, lngValue_ascii (padLng_digits h2) p2]
        rfl
      · have c4 : ((padLng lng).length - (padLat lat).length ≠ 1) := by omega
        have c5 : ((padLng lng).length ≠ (padLat lat).length + 1) := by omega
        simp only [c4, c5, ne_eq, not_false_eq_true, if_true]

theorem rangeBearingCaptures_iff {d fix b r : Str} :
    rangeBearingCaptures d = some (fix, b, r) ↔
      (d = fix ++ b ++ r ∧ (2 ≤ fix.length ∧ fix.length ≤ 5) ∧
        (∀ c ∈ fix, isAsciiDigit c = true ∨ isAsciiUpper c = true) ∧ b.length = 3 ∧ r.length = 3 ∧
        (∀ c ∈ b, UnicodeTables.decimal c = true) ∧ (∀ c ∈ r, UnicodeTables.decimal c = true)) := by
  unfold rangeBearingCaptures
  simp only
  constructor
  · intro h
    split at h
    · next hc =>
      obtain ⟨h1, h2, h3, h4, h5⟩ := hc
      simp only [Option.some.injEq, Prod.mk.injEq] at h
      obtain ⟨rfl, rfl, rfl⟩ := h
      simp only [List.all_eq_true, Bool.or_eq_true] at h3 h4 h5
      refine ⟨?_, ?_, h3, ?_, ?_, h4, h5⟩
      · rw [List.append_assoc, List.take_append_drop, List.take_append_drop]
      · rw [List.length_take]; omega
      · rw [List.length_take, List.length_drop]; omega
      · rw [List.length_drop, List.length_drop]; omega
    · cases h
  · rintro ⟨rfl, h1, h2, h3, h4, h5, h6⟩
    have hl : (fix ++ b ++ r).length = fix.length + 6 := by simp; omega
    have e1 : (fix ++ b ++ r).take ((fix ++ b ++ r).length - 6) = fix := by
      rw [hl, Nat.add_sub_cancel, List.append_assoc, List.take_left]
    have e2 : (fix ++ b ++ r).drop ((fix ++ b ++ r).length - 6) = b ++ r := by
      rw [hl, Nat.add_sub_cancel, List.append_assoc, List.drop_left]
    have e3 : (b ++ r).take 3 = b := by rw [← h3, List.take_left]
    have e4 : (b ++ r).drop 3 = r := by rw [← h3, List.drop_left]
    rw [e1, e2, e3, e4, if_pos]
    refine ⟨by omega, by omega, ?_, ?_, ?_⟩
    · simpa [List.all_eq_true] using h2
    · simpa [List.all_eq_true] using h5
    · simpa [List.all_eq_true] using h6

end Verif.Locations
