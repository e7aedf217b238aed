import Verif.Spec.Colours
/-!
# Colours: theorems

C34, C35, C47, C54, C55.
-/

namespace Verif.Colours

/-! ## EuroScope numbers -/

theorem tryU8_eq_some {n : Int} {b : Fin 256} : tryU8 n = some b ↔ n = (b.val : Int) := by
  unfold tryU8
  constructor
  · intro h
    split at h
    · next hn => cases h; simp; omega
    · cases h
  · intro h
    subst h
    have : (0 : Int) ≤ b.val ∧ (b.val : Int) < 256 := by omega
    simp only [this, and_self, dite_true, Int.toNat_natCast]

theorem fromEuroscope_eq_some {n : Int} {c : Colour} :
    fromEuroscope n = some c ↔ c.a = 255 ∧ n = (c.r.val : Int) + 256 * c.g.val + 65536 * c.b.val := by
  simp only [fromEuroscope, Option.bind_eq_bind, Option.pure_def, Option.bind_eq_some_iff, tryU8_eq_some,
    Option.some.injEq]
  constructor
  · rintro ⟨r, hr, g, hg, b, hb, rfl⟩
    refine ⟨rfl, ?_⟩
    simp only [fromRgb]
    have h1 := Int.tmod_add_mul_tdiv n 256
    have h2 := Int.tmod_add_mul_tdiv (n.tdiv 256) 256
    omega
  · rintro ⟨ha, hn⟩
    have hr := c.r.isLt
    have hg := c.g.isLt
    have hb := c.b.isLt
    have hpos : 0 ≤ n := by omega
    have hd : n.tdiv 256 = n / 256 := Int.tdiv_eq_ediv_of_nonneg hpos
    have hdd : (n / 256).tdiv 256 = n / 256 / 256 := Int.tdiv_eq_ediv_of_nonneg (by omega)
    have hm : n.tmod 256 = n % 256 := Int.tmod_eq_emod_of_nonneg hpos
    have hm2 : (n / 256).tmod 256 = n / 256 % 256 := Int.tmod_eq_emod_of_nonneg (by omega)
    refine ⟨c.r, by omega, c.g, by rw [hd]; omega, c.b, by rw [hd]; omega, ?_⟩
    cases c; simp only at ha; subst ha; rfl

/-- C34: a number is accepted exactly if it is between 0 and 16777215. -/
theorem C34_accepted_iff (n : Int) : (fromEuroscope n).isSome ↔ 0 ≤ n ∧ n ≤ 16777215 := by
  rw [Option.isSome_iff_exists]
  constructor
  · rintro ⟨c, h⟩
    have := (fromEuroscope_eq_some.1 h).2
    omega
  · intro h
    refine ⟨fromRgb ⟨(n % 256).toNat, by omega⟩ ⟨(n / 256 % 256).toNat, by omega⟩
      ⟨(n / 65536).toNat, by omega⟩, fromEuroscope_eq_some.2 ⟨rfl, ?_⟩⟩
    simp only [fromRgb]
    omega

/-- C34: the number has red in the lowest byte, then green, then blue. -/
theorem C34_components {n : Int} {c : Colour} (h : fromEuroscope n = some c) :
    n = (c.r.val : Int) + 256 * c.g.val + 65536 * c.b.val ∧ c.a = 255 :=
  ⟨(fromEuroscope_eq_some.1 h).2, (fromEuroscope_eq_some.1 h).1⟩

/-- C34: writing an accepted colour gives back its number. -/
theorem C34_number_round_trip {n : Int} {c : Colour} (h : fromEuroscope n = some c) :
    toEuroscope c = n := by
  have := (fromEuroscope_eq_some.1 h).2
  unfold toEuroscope
  omega

/-- C34: reading a written colour gives the same colour, fully opaque. -/
theorem C34_colour_round_trip (c : Colour) :
    fromEuroscope (toEuroscope c) = some { c with a := 255 } := by
  rw [fromEuroscope_eq_some]
  refine ⟨rfl, ?_⟩
  unfold toEuroscope
  simp only
  omega

/-! ## JSON text -/

theorem mem_hexTable_of_isHex {c : Char} (h : isHex c = true) : ∃ v, (c, v) ∈ hexTable := by
  have e : c = Char.ofNat c.toNat := (Char.ofNat_toNat c).symm
  simp only [isHex, isAsciiDigit, Bool.or_eq_true, Bool.and_eq_true, decide_eq_true_eq] at h
  have h0 : '0'.toNat = 48 := rfl
  have h9 : '9'.toNat = 57 := rfl
  have ha : 'a'.toNat = 97 := rfl
  have hf : 'f'.toNat = 102 := rfl
  have hA : 'A'.toNat = 65 := rfl
  have hF : 'F'.toNat = 70 := rfl
  rw [h0, h9, ha, hf, hA, hF] at h
  have : (∃ k, k < 10 ∧ c.toNat = 48 + k) ∨ (∃ k, k < 6 ∧ c.toNat = 97 + k) ∨
      (∃ k, k < 6 ∧ c.toNat = 65 + k) := by
    rcases h with (h | h) | h
    · exact Or.inl ⟨c.toNat - 48, by omega, by omega⟩
    · exact Or.inr (Or.inl ⟨c.toNat - 97, by omega, by omega⟩)
    · exact Or.inr (Or.inr ⟨c.toNat - 65, by omega, by omega⟩)
  have d10 : ∀ k, k < 10 → ∃ v, (Char.ofNat (48 + k), v) ∈ hexTable := by
    intro k hk
    refine ⟨k, ?_⟩
    have : k = 0 ∨ k = 1 ∨ k = 2 ∨ k = 3 ∨ k = 4 ∨ k = 5 ∨ k = 6 ∨ k = 7 ∨ k = 8 ∨ k = 9 := by omega
    rcases this with h | h | h | h | h | h | h | h | h | h <;> subst h <;> decide
  have l6 : ∀ k, k < 6 → ∃ v, (Char.ofNat (97 + k), v) ∈ hexTable := by
    intro k hk
    refine ⟨k + 10, ?_⟩
    have : k = 0 ∨ k = 1 ∨ k = 2 ∨ k = 3 ∨ k = 4 ∨ k = 5 := by omega
    rcases this with h | h | h | h | h | h <;> subst h <;> decide
  have u6 : ∀ k, k < 6 → ∃ v, (Char.ofNat (65 + k), v) ∈ hexTable := by
    intro k hk
    refine ⟨k + 10, ?_⟩
    have : k = 0 ∨ k = 1 ∨ k = 2 ∨ k = 3 ∨ k = 4 ∨ k = 5 := by omega
    rcases this with h | h | h | h | h | h <;> subst h <;> decide
  rcases this with ⟨k, hk, h⟩ | ⟨k, hk, h⟩ | ⟨k, hk, h⟩ <;> rw [e, h]
  · exact d10 k hk
  · exact l6 k hk
  · exact u6 k hk

theorem hexTable_isHex : ∀ p ∈ hexTable, isHex p.1 = true := by decide

theorem hexTable_lt : ∀ p ∈ hexTable, p.2 < 16 := by decide

theorem hexTable_toDigit : ∀ p ∈ hexTable, toDigit 16 p.1 = some p.2 := by decide

theorem hexTable_ne_plus : ∀ p ∈ hexTable, p.1 ≠ '+' := by decide

theorem hexTable_lower : ∀ p ∈ hexTable, (p.1.toLower, p.2) ∈ hexTable := by decide

theorem hexTable_upper : ∀ p ∈ hexTable, (p.1.toUpper, p.2) ∈ hexTable := by decide

theorem hexU8_pair {p q : Char × Nat} (hp : p ∈ hexTable) (hq : q ∈ hexTable) :
    ∃ h : 16 * p.2 + q.2 < 256, hexU8 [p.1, q.1] = some ⟨16 * p.2 + q.2, h⟩ := by
  have h1 := hexTable_lt p hp
  have h2 := hexTable_lt q hq
  have hlt : 16 * p.2 + q.2 < 256 := by omega
  refine ⟨hlt, ?_⟩
  have hs : stripPlus [p.1, q.1] = [p.1, q.1] := by
    unfold stripPlus
    split
    · next h => exact absurd (List.cons.inj h).1 (hexTable_ne_plus p hp)
    · rfl
  have hv : parseUnsigned 16 256 [p.1, q.1] = some (16 * p.2 + q.2) := by
    unfold parseUnsigned
    rw [hs]
    simp [digitsIn, hexTable_toDigit p hp, hexTable_toDigit q hq, hlt]
  unfold hexU8
  rw [hv]
  simp [hlt]

theorem captures_eq_some {s : Str} {x : Str × Str × Str} (h : captures s = some x) :
    ∃ a b c d e f, s = ['#', a, b, c, d, e, f] ∧ x = ([a, b], [c, d], [e, f]) ∧
      isHex a ∧ isHex b ∧ isHex c ∧ isHex d ∧ isHex e ∧ isHex f := by
  unfold captures at h
  split at h
  · next a b c d e f =>
    split at h
    · next hall =>
      cases h
      simp only [List.all_cons, List.all_nil, Bool.and_true, Bool.and_eq_true] at hall
      exact ⟨a, b, c, d, e, f, rfl, rfl, hall.1, hall.2.1, hall.2.2.1, hall.2.2.2.1, hall.2.2.2.2.1,
        hall.2.2.2.2.2⟩
    · cases h
  · cases h

/-- C35: a text is read as a colour exactly if it is `#` and six hexadecimal digits denoting that
colour, and the colour read is fully opaque. -/
theorem C35_deserialize_iff (s : Str) (c : Colour) :
    deserialize s = some c ↔ Denotes s c.r.val c.g.val c.b.val ∧ c.a = 255 := by
  constructor
  · intro h
    unfold deserialize at h
    obtain ⟨x, hx, h⟩ := Option.bind_eq_some_iff.1 h
    obtain ⟨a, b, c', d, e, f, rfl, rfl, ha, hb, hc, hd, he, hf⟩ := captures_eq_some hx
    obtain ⟨va, ha⟩ := mem_hexTable_of_isHex ha
    obtain ⟨vb, hb⟩ := mem_hexTable_of_isHex hb
    obtain ⟨vc, hc⟩ := mem_hexTable_of_isHex hc
    obtain ⟨vd, hd⟩ := mem_hexTable_of_isHex hd
    obtain ⟨ve, he⟩ := mem_hexTable_of_isHex he
    obtain ⟨vf, hf⟩ := mem_hexTable_of_isHex hf
    obtain ⟨l1, h1⟩ := hexU8_pair ha hb
    obtain ⟨l2, h2⟩ := hexU8_pair hc hd
    obtain ⟨l3, h3⟩ := hexU8_pair he hf
    simp only at h1 h2 h3 h
    rw [h1, h2, h3] at h
    simp only [Option.bind_some, Option.map_some, Option.some.injEq] at h
    subst h
    exact ⟨⟨_, _, _, _, _, _, ha, hb, hc, hd, he, hf, rfl, rfl, rfl, rfl⟩, rfl⟩
  · rintro ⟨⟨r1, r0, g1, g0, b1, b0, hr1, hr0, hg1, hg0, hb1, hb0, rfl, hr, hg, hb⟩, ha⟩
    have hall : [r1.1, r0.1, g1.1, g0.1, b1.1, b0.1].all isHex = true := by
      simp [hexTable_isHex _ hr1, hexTable_isHex _ hr0, hexTable_isHex _ hg1, hexTable_isHex _ hg0,
        hexTable_isHex _ hb1, hexTable_isHex _ hb0]
    obtain ⟨l1, h1⟩ := hexU8_pair hr1 hr0
    obtain ⟨l2, h2⟩ := hexU8_pair hg1 hg0
    obtain ⟨l3, h3⟩ := hexU8_pair hb1 hb0
    unfold deserialize
    simp only [captures, hall, if_true, Option.bind_some, h1, h2, h3, Option.map_some, Option.some.injEq]
    cases c
    simp only at hr hg hb ha
    subst ha
    simp only [fromRgb, Colour.mk.injEq, and_true]
    exact ⟨Fin.ext hr.symm, Fin.ext hg.symm, Fin.ext hb.symm⟩

theorem radixChar_mem {d : Nat} (h : d < 16) : (radixChar d, d) ∈ hexTable := by
  have h2 : d = 0 ∨ d = 1 ∨ d = 2 ∨ d = 3 ∨ d = 4 ∨ d = 5 ∨ d = 6 ∨ d = 7 ∨ d = 8 ∨ d = 9 ∨
    d = 10 ∨ d = 11 ∨ d = 12 ∨ d = 13 ∨ d = 14 ∨ d = 15 := by omega
  rcases h2 with h | h | h | h | h | h | h | h | h | h | h | h | h | h | h | h <;> subst h <;> decide

/-- C35: the text of a colour denotes its components. -/
theorem C35_serialize (c : Colour) : Denotes (serialize c) c.r.val c.g.val c.b.val := by
  have hr := c.r.isLt
  have hg := c.g.isLt
  have hb := c.b.isLt
  refine ⟨(radixChar (c.r.val / 16), c.r.val / 16), (radixChar (c.r.val % 16), c.r.val % 16),
    (radixChar (c.g.val / 16), c.g.val / 16), (radixChar (c.g.val % 16), c.g.val % 16),
    (radixChar (c.b.val / 16), c.b.val / 16), (radixChar (c.b.val % 16), c.b.val % 16),
    radixChar_mem (by omega), radixChar_mem (by omega), radixChar_mem (by omega),
    radixChar_mem (by omega), radixChar_mem (by omega), radixChar_mem (by omega), ?_, by simp only; omega,
    by simp only; omega, by simp only; omega⟩
  unfold serialize
  rw [hex_byte hr, hex_byte hg, hex_byte hb]
  rfl

/-- C35: reading a written colour gives the same colour, fully opaque. -/
theorem C35_round_trip (c : Colour) : deserialize (serialize c) = some { c with a := 255 } :=
  (C35_deserialize_iff _ _).2 ⟨C35_serialize c, rfl⟩

theorem denotes_map {s : Str} {r g b : Nat} {f : Char → Char} (hash : f '#' = '#')
    (hf : ∀ p ∈ hexTable, (f p.1, p.2) ∈ hexTable) (h : Denotes s r g b) : Denotes (s.map f) r g b := by
  obtain ⟨r1, r0, g1, g0, b1, b0, hr1, hr0, hg1, hg0, hb1, hb0, rfl, hr, hg, hb⟩ := h
  exact ⟨(f r1.1, r1.2), (f r0.1, r0.2), (f g1.1, g1.2), (f g0.1, g0.2), (f b1.1, b1.2), (f b0.1, b0.2),
    hf _ hr1, hf _ hr0, hf _ hg1, hf _ hg0, hf _ hb1, hf _ hb0, by simp [hash], hr, hg, hb⟩

/-- C35: the case of the digits does not matter. -/
theorem C35_case_insensitive {s : Str} {c : Colour} (h : deserialize s = some c) :
    deserialize (s.map Char.toLower) = some c ∧ deserialize (s.map Char.toUpper) = some c := by
  obtain ⟨h1, h2⟩ := (C35_deserialize_iff _ _).1 h
  exact ⟨(C35_deserialize_iff _ _).2 ⟨denotes_map (by decide) hexTable_lower h1, h2⟩,
    (C35_deserialize_iff _ _).2 ⟨denotes_map (by decide) hexTable_upper h1, h2⟩⟩

/-! ## Lookup by name -/

theorem get?_ofList_append {K V : Type} [DecidableEq K] (a b : Map K V)
    (ha : (Map.keys a).Nodup) (hb : (Map.keys b).Nodup) (k : K) :
    (Map.ofList (a ++ b)).get? k = (b.get? k).or (a.get? k) := by
  have key : ∀ (l : Map K V), (Map.keys l).Nodup →
      (l.reverse.find? (fun e => decide (e.1 = k))).map (·.2) = l.get? k := by
    intro l hl
    cases hf : l.reverse.find? (fun e => decide (e.1 = k)) with
    | none =>
      symm
      rw [Option.map_none, Map.get?_eq_none_iff]
      intro hm
      obtain ⟨e, he, rfl⟩ := List.mem_map.1 hm
      have := List.find?_eq_none.1 hf e (List.mem_reverse.2 he)
      simp at this
    | some e =>
      have h1 := List.mem_reverse.1 (List.mem_of_find?_eq_some hf)
      have h2 := List.find?_some hf
      simp only [decide_eq_true_eq] at h2
      subst h2
      exact (Map.get?_of_mem hl h1).symm
  unfold Map.ofList
  rw [Map.get?_foldl_insert]
  simp only [List.reverse_append, List.find?_append]
  rw [← key a ha, ← key b hb]
  cases b.reverse.find? (fun e => decide (e.1 = k)) with
  | some e => simp
  | none => cases a.reverse.find? (fun e => decide (e.1 = k)) <;> simp

theorem get?_topskyColours (settings maps : Map Str Colour) (hm : (Map.keys maps).Nodup) (k : Str) :
    (topskyColours settings maps).get? k = (maps.get? k).or (settings.get? k) := by
  unfold topskyColours
  rw [Map.get?_foldl_insert]
  cases hf : maps.reverse.find? (fun e => decide (e.1 = k)) with
  | none =>
    have : maps.get? k = none := by
      rw [Map.get?_eq_none_iff]
      intro hk
      obtain ⟨e, he, rfl⟩ := List.mem_map.1 hk
      have := List.find?_eq_none.1 hf e (List.mem_reverse.2 he)
      simp at this
    simp [this]
  | some e =>
    have h1 := List.mem_reverse.1 (List.mem_of_find?_eq_some hf)
    have h2 := List.find?_some hf
    simp only [decide_eq_true_eq] at h2
    subst h2
    simp [Map.get?_of_mem hm h1]

theorem nodup_topskyColours {settings maps : Map Str Colour} (hs : (Map.keys settings).Nodup) :
    (Map.keys (topskyColours settings maps)).Nodup := Map.nodup_foldl_insert _ _ _ _ hs

/-- The model's table lookup is the specified one. -/
theorem fromTopskyDefault_eq (coopans : Bool) (name : Str) :
    fromTopskyDefault coopans name = builtin coopans name := by
  unfold fromTopskyDefault builtin
  generalize defaultColours = t
  have : t.get? name = (t.find? fun entry => entry.1 = name).map (·.2) := by
    induction t with
    | nil => rfl
    | cons e t ih =>
      obtain ⟨k, v⟩ := e
      by_cases h : k = name
      · simp [Map.get?, h]
      · simp only [Map.get?, if_neg h, List.find?_cons, decide_eq_false h]
        first | exact ih | (rw [ih]; rfl)
  rw [this]
  cases t.find? fun entry => entry.1 = name with
  | none => rfl
  | some e => rfl

/-- C47: with TopSky files, a colour is taken from the maps file, else from the settings file, else
from the sector file, else from the built-in table, else there is none.  The tables are maps (no key
occurs twice) listed in any order. -/
theorem C47_precedence (sct settings maps : Map Str Colour) (hsct : (Map.keys sct).Nodup)
    (hset : (Map.keys settings).Nodup) (hmaps : (Map.keys maps).Nodup) (coopans : Bool) (name : Str) :
    get (otherColours sct (some (topskyColours settings maps))) coopans name =
      match maps.get? name, settings.get? name, sct.get? name with
      | some c, _, _ => some c
      | none, some c, _ => some c
      | none, none, some c => some c
      | none, none, none => builtin coopans name := by
  rw [← fromTopskyDefault_eq]
  unfold get otherColours
  rw [Option.getD_some, get?_ofList_append _ _ hsct (nodup_topskyColours hset),
    get?_topskyColours _ _ hmaps]
  cases maps.get? name <;> cases settings.get? name <;> cases sct.get? name <;> rfl

/-- C47: without TopSky files, the sector file comes first. -/
theorem C47_precedence_without_topsky (sct : Map Str Colour) (hsct : (Map.keys sct).Nodup)
    (coopans : Bool) (name : Str) :
    get (otherColours sct none) coopans name =
      match sct.get? name with
      | some c => some c
      | none => builtin coopans name := by
  rw [← fromTopskyDefault_eq]
  unfold get otherColours
  have : sct ++ (none : Option (Map Str Colour)).getD [] = sct ++ [] := rfl
  rw [this, get?_ofList_append _ _ hsct (by simp [Map.keys])]
  cases sct.get? name <;> rfl

/-- The names of the built-in table are distinct. -/
theorem defaultColours_nodup : (Map.keys defaultColours).Nodup := by decide +kernel

/-- C47: the built-in colour is the second of the table's entry with COOPANS and the first without. -/
theorem C47_builtin (coopans : Bool) (name : Str) (c : Colour) :
    builtin coopans name = some c ↔
      ∃ plain coop rgb, (name, plain, coop) ∈ defaultColours ∧
        (if coopans then coop else plain) = some rgb ∧ c = ⟨rgb.1, rgb.2.1, rgb.2.2, 255⟩ := by
  rw [← fromTopskyDefault_eq]
  unfold fromTopskyDefault
  rw [Option.map_eq_some_iff]
  constructor
  · rintro ⟨rgb, h, rfl⟩
    obtain ⟨t, ht, h2⟩ := Option.bind_eq_some_iff.1 h
    exact ⟨t.1, t.2, rgb, Map.mem_of_get? ht, h2, rfl⟩
  · rintro ⟨plain, coop, rgb, hm, h, rfl⟩
    exact ⟨rgb, Option.bind_eq_some_iff.2 ⟨(plain, coop), Map.get?_of_mem defaultColours_nodup hm, h⟩, rfl⟩

/-! ## Colours of display elements -/

/-- C54 (partial): every element of the map except the names of high airways takes the colour of its
own symbology item, and a fixed default if there is none. -/
theorem C54_map_colours_partial (items : Map (Str × Str) Colour) (e : MapElement)
    (he : e ≠ .highAirwayName) :
    mapColour items e =
      match items.get? (ownItem e) with
      | some c => c
      | none => if e = .activeBackground ∨ e = .inactiveBackground then ⟨200, 200, 200, 255⟩
                else ⟨0, 0, 0, 255⟩ := by
  have : symbologyKey e = ownItem e := by
    cases e <;> first | rfl | exact absurd rfl he
  unfold mapColour
  rw [this]
  cases items.get? (ownItem e) with
  | some c => rfl
  | none => cases e <;> rfl

/-- C54, negated for the names of high airways: they are drawn in the colour of the lines even if
their own colour is configured. -/
theorem C54_high_airway_name : ∃ items : Map (Str × Str) Colour,
    items.get? (ownItem .highAirwayName) = some ⟨1, 2, 3, 255⟩ ∧
    mapColour items .highAirwayName = ⟨9, 9, 9, 255⟩ :=
  ⟨[((c!"High airways", c!"name"), ⟨1, 2, 3, 255⟩), ((c!"High airways", c!"line"), ⟨9, 9, 9, 255⟩)],
    by decide, by decide⟩

/-- C54: no two elements have the same item. -/
theorem C54_items_distinct (e f : MapElement) (h : ownItem e = ownItem f) : e = f := by
  cases e <;> cases f <;>
    first
    | rfl
    | exact absurd h (by decide)

/-- C55: a track or interface colour is the TopSky colour of its name if defined, else the built-in
one; the built-in table has an entry for each of them, so no further fallback is ever used. -/
theorem C55_role_colours (topsky : Map Str Colour) (coopans : Bool) (r : Role) :
    ∃ c, builtin coopans (roleName r) = some c ∧
      roleColour topsky coopans r = (topsky.get? (roleName r)).getD c := by
  have hk : roleKey r = roleName r := by cases r <;> rfl
  have : (fromTopskyDefault coopans (roleKey r)).isSome = true := by
    cases r <;> cases coopans <;> decide +kernel
  obtain ⟨b, hb⟩ := Option.isSome_iff_exists.1 this
  refine ⟨b, ?_, ?_⟩
  · rw [← fromTopskyDefault_eq, ← hk, hb]
  unfold roleColour
  rw [hb, hk]
  cases topsky.get? (roleName r) <;> rfl

/-! ## Examples -/

section Examples

example : fromEuroscope 16711680 = some ⟨0, 0, 255, 255⟩ := by decide
example : fromEuroscope (-1) = none := by decide
example : fromEuroscope 16777216 = none := by decide
example : deserialize c!"#0aFf10" = some ⟨10, 255, 16, 255⟩ := by decide
example : deserialize c!"0aFf10" = none := by decide
example : deserialize c!"#0aFf1g" = none := by decide
example : serialize ⟨10, 255, 16, 3⟩ = c!"#0aff10" := by decide

/-- The hypotheses of the precedence theorem hold of tables that disagree about one name. -/
example : (Map.keys [(c!"x", fromRgb 1 1 1)]).Nodup ∧
    get (otherColours [(c!"x", fromRgb 1 1 1)]
      (some (topskyColours [(c!"x", fromRgb 2 2 2)] [(c!"x", fromRgb 3 3 3)]))) true c!"x" =
      some (fromRgb 3 3 3) := by decide

example : fromTopskyDefault true c!"CARD_Reminder" = some ⟨170, 231, 198, 255⟩ ∧
    fromTopskyDefault false c!"CARD_Reminder" = none := by decide +kernel

end Examples

end Verif.Colours
