import Verif.Proofs.JsonFloat
import Verif.Spec.JsonFloat
import Verif.Props.Binary64
import Verif.Props.AdaptationJson
/-!
# C105: numbers that are read from JSON

With overlays every coordinate of an adaptation is printed and read again.  The texts are read without the feature
`float_roundtrip` of `serde_json` (`Model/JsonFloat`), not always as the nearest double.
-/

namespace Verif.Props
open Verif.Model Verif.Spec.Binary64 Verif.Spec.JsonText Verif.Spec.JsonFloat Verif.Proofs.JsonFloat

/-- The digits of a number as an integer, and the power of ten that it is to be multiplied with -/
abbrev significand (n : Numeral) : Nat := digitsValue (n.whole ++ n.frac.getD [])
abbrev scale (n : Numeral) : Int := n.power - ((n.frac.getD []).length : Int)

/-- **C105.** A number whose digits make an integer up to 2⁵³ is read as the nearest double, if at most 22 of them are behind the
dot. -/
theorem C105_nearest {n : Numeral} (h : n.Valid) (hd : significand n ≤ 2 ^ 53) (h1 : -22 ≤ scale n) (h2 : scale n ≤ 22) :
    ∃ r, JsonFloat.read n.text = some r ∧ IsRounded n.value r :=
  ⟨_, read_nearest h hd h1 h2, Binary64.rnd_rounded _⟩

/-- **C105, reading what was written.**  A double that is printed with at most 15 digits is read as it was.  Missing in comparison
with the full claim: doubles that need 16 or 17 digits. -/
theorem C105_short_partial {x : Rat} {n : Numeral} (h : n.Valid) (hx : IsRounded n.value x) (hd : significand n < 10 ^ 15)
    (h1 : -22 ≤ scale n) (h2 : scale n ≤ 22) : JsonFloat.read n.text = some x := by
  obtain ⟨r, hr, hn⟩ := C105_nearest h (Nat.le_trans (Nat.le_of_lt hd) (by norm_num)) h1 h2
  rw [hr, Binary64.rounded_unique hx hn]

/-- **C105, the error.**  What is read is within four half units in the last place (relative error 2⁻⁵¹) of the number. -/
theorem C105_error {n : Numeral} (h : n.Valid) (hd : significand n < 2 ^ 64) (h1 : -290 ≤ scale n) (h2 : scale n ≤ 290) :
    ∃ r, JsonFloat.read n.text = some r ∧ |r - n.value| ≤ |n.value| / 2 ^ 51 := read_near h hd h1 h2

/-- **C105, the error of small numbers.**  However small the number is, what is read is within a relative error of 2⁻⁵⁰ and the least
double. -/
theorem C105_error_small {n : Numeral} (h : n.Valid) (hd : significand n < 2 ^ 64) (h1 : scale n < 0) :
    ∃ r, JsonFloat.read n.text = some r ∧ |r - n.value| ≤ |n.value| / 2 ^ 50 + 1 / 2 ^ 1074 := read_small h hd h1

/-- 1.5e-310 -/
def subnormal : Numeral := ⟨false, c!"1", some c!"5", some ('e', some '-', c!"310")⟩

example : subnormal.Valid ∧ significand subnormal = 15 ∧ scale subnormal = -311 := by
  refine ⟨⟨by decide, by decide, ?_, ?_⟩, by decide, by decide⟩
  · rintro f ⟨⟩; decide
  · rintro e s d ⟨⟩; decide

/-! ## E010.28.00.000 -/

/-- The double of E010.28.00.000, and the next one -/
def before : Rat := 5892209512476399 / 2 ^ 49
def after : Rat := 5892209512476400 / 2 ^ 49

/-- 10.466666666666667 -/
def printed : Numeral := ⟨false, c!"10", some c!"466666666666667", none⟩

theorem printed_valid : printed.Valid := 
  ⟨rfl, (by intro h; cases h), (by intro f h; cases h; rfl), (by intro _ _ _ h; cases h)⟩

theorem printed_value : printed.value = 10466666666666667 / 10 ^ 15 := by
  rw [value_eq]
  have : digitsValue (printed.whole ++ printed.frac.getD []) = 10466666666666667 := by decide +kernel
  rw [this]
  norm_num [printed, Numeral.power, zpow_neg]

theorem printed_text : printed.text = c!"10.466666666666667" := by decide

theorem before_double : binary64.fromDms .pos 10 28 0 = ⟨false, before⟩ := by
  unfold Rounding.fromDms
  show (⟨false, Binary64.rnd (Binary64.rnd (Binary64.rnd (10 : Nat) + Binary64.rnd (Binary64.rnd (28 : Nat) / 60)) + Binary64.rnd (0 / 3600))⟩ : Double) = _
  rw [Binary64.rnd_nat (n := 10) (by norm_num), Binary64.rnd_nat (n := 28) (by norm_num), zero_div, Binary64.rnd_zero, add_zero,
    rnd_eval (x := ((28 : Nat) : Rat) / 60) 8406719304424926 (-54) (by norm_num) (by norm_num) (by norm_num) (by norm_num [abs_lt]),
    Binary64.rnd_double (Binary64.rnd_isDouble _),
    rnd_eval 5892209512476399 (-49) (by norm_num) (by norm_num) (by norm_num) (by norm_num [abs_lt])]
  norm_num [before]

theorem printed_shortest : Shortest before printed.value := by
  have hr : IsRounded printed.value before := by
    have : Binary64.rnd printed.value = before := by
      rw [printed_value, rnd_eval 5892209512476399 (-49) (by norm_num) (by norm_num) (by norm_num) (by norm_num [abs_lt])]
      norm_num [before]
    rw [← this]
    exact Binary64.rnd_rounded _
  refine ⟨hr, 17, ⟨10466666666666667, -15, by norm_num, ?_⟩, fun p q hq ⟨s, e, hs, he⟩ => ?_⟩
  · rw [printed_value, abs_of_pos (by norm_num)]; norm_num
  by_contra hp
  have hs16 : s < 10 ^ 16 := lt_of_lt_of_le hs (Nat.pow_le_pow_right (by norm_num) (by omega))
  have hlo : (5892209512476398 : Rat) / 2 ^ 49 < q := by
    by_contra hn
    have := hq.2.1 (5892209512476398 / 2 ^ 49) ⟨5892209512476398, -49, by norm_num, by norm_num, by norm_num⟩
    rw [abs_of_nonneg (by unfold before; linarith), abs_of_nonneg (by linarith)] at this
    norm_num [before] at this
  have hhi : q < after := by
    by_contra hn
    have := hq.2.1 after ⟨5892209512476400, -49, by norm_num, by norm_num, by norm_num [after]⟩
    rw [abs_of_nonpos (by unfold before; unfold after at hn; linarith), abs_of_nonpos (by linarith)] at this
    norm_num [before, after] at this
    linarith
  have hq0 : 0 < q := lt_trans (by norm_num) hlo
  rw [abs_of_pos hq0] at he
  by_cases h14 : -14 ≤ e
  · obtain ⟨k, hk⟩ := Int.eq_ofNat_of_zero_le (a := e + 14) (by omega)
    have : q * 10 ^ 14 = ((s * 10 ^ k : Nat) : Rat) := by
      have he' : e = (k : Int) - 14 := by omega
      rw [he, he', zpow_sub₀ (by norm_num), zpow_natCast]
      push_cast
      norm_num [mul_assoc]
    have h1 : ((1046666666666666 : Nat) : Rat) < ((s * 10 ^ k : Nat) : Rat) := by rw [← this]; norm_num at hlo ⊢; linarith
    have h2 : ((s * 10 ^ k : Nat) : Rat) < ((1046666666666667 : Nat) : Rat) := by rw [← this]; norm_num [after] at hhi ⊢; linarith
    have h1' := Nat.cast_lt.1 h1
    have h2' := Nat.cast_lt.1 h2
    omega
  · have hs' : (s : Rat) < 10 ^ 16 := by exact_mod_cast hs16
    have h10 : (10 : Rat) ^ e ≤ 10 ^ (-15 : Int) := zpow_le_zpow_right₀ (by norm_num) (by omega)
    have : q < 10 := by
      rw [he]
      calc (s : Rat) * 10 ^ e ≤ s * 10 ^ (-15 : Int) := mul_le_mul_of_nonneg_left h10 (by positivity)
        _ < 10 ^ 16 * 10 ^ (-15 : Int) := mul_lt_mul_of_pos_right hs' (by norm_num)
        _ = 10 := by norm_num
    norm_num at hlo
    linarith

/-- **C105, negation.**  The longitude E010.28.00.000, which is in a fixture of the tests, is printed as 10.466666666666667, but this is
read as the next double, 10.466666666666669. -/
theorem C105_changed : binary64.fromDms .pos 10 28 0 = ⟨false, before⟩ ∧ Shortest before printed.value ∧
    printed.text = c!"10.466666666666667" ∧ JsonFloat.read printed.text = some after ∧ before ≠ after := by
  refine ⟨before_double, printed_shortest, printed_text, ?_, by norm_num [before, after]⟩
  rw [read_text printed_valid, fromDigits_small _ (by decide +kernel)]
  have : digitsValue (printed.whole ++ printed.frac.getD []) = 10466666666666667 := by decide +kernel
  rw [this]
  have he : printed.power - ((printed.frac.getD []).length : Int) = -15 := by decide
  rw [he]
  have h1 : Binary64.rnd (10466666666666667 : Nat) = 10466666666666668 := by
    rw [rnd_place (m := 5233333333333334) (e := 1) (by norm_num) (by norm_num) (by norm_num) ?_]
    · norm_num
    · have hf : ⌊((10466666666666667 : Nat) : Rat) / 2 ^ (1 : Int)⌋ = 5233333333333333 := by rw [Int.floor_eq_iff]; norm_num
      unfold Binary64.roundEven
      rw [hf]
      norm_num
  unfold JsonFloat.fromParts
  rw [if_neg (by norm_num)]
  unfold JsonFloat.divide
  have hk : (-(-15 : Int)).toNat = 15 := rfl
  rw [hk, if_pos (by norm_num), h1, pow10_double (by norm_num),
    rnd_eval 5892209512476400 (-49) (by norm_num) (by norm_num) (by norm_num) (by norm_num [abs_lt])]
  norm_num [printed, after]

/-! ## Overlays -/

section
open Verif.Adaptation Verif.Json Verif.Spec.Adaptation Verif.Spec.Json Verif.Spec.Jsonnet
open Verif.PrfPaths (Path)
open Verif.Display (F32Ops)
open Verif.Dms (DmsArith)
open Verif.Parse.SymbolRule (Close)
open Verif.Locations (FloatOps)

variable {F G : Type} [F64 F] [DmsArith F] [DecidableEq F] [FloatOps F] [Close F] [F64 G] [F32Ops G] [UnicodeTables]
  [LE F] [DecidableLE F] [JsonFloat F] [JsonFloat G]

/-- **C105, overlays.**  A number at a place that no overlay touches becomes what is read from its text. -/
theorem C105_overlays {env : Env F G} {a b : Adaptation F G} {overlays : List Path} {docs : List Doc} (he : Evaluates env overlays docs)
    (hne : overlays ≠ []) {r : J} (hr : docs.foldlM plus ((AdaptationJson.adaptation F G).to a) = some r)
    (hb : applyOverlays env a overlays = .ok b)
    {A : Type} [JsonFloat A] {path : List Str} {get : Adaptation F G → Option A} (hp : AdaptationPlace path Codec.float get)
    (hd : ∀ d ∈ docs, ¬ Touches d path) {x : A} (hx : get a = some x) {q : Rat} (hq : JsonFloat.write x = some q) :
    get b = some (Json.JsonFloat.read q) := by
  rw [C89_rewritten he hne hr hb hp hd hx]
  simp [Codec.float, hq]

theorem airports_place : AdaptationPlace [c!"locations", c!"airports"] (Codec.map AdaptationJson.airport)
    (fun a : Adaptation F G => some a.locations.airports) :=
  .field (.top (root := AdaptationJson.adaptationFields F G) (proj := fun t => t.2.1) (.there (by decide) (.here ..))) (fun _ => rfl)
    (.there (by decide) (.there (by decide) (.there (by decide) (.here ..))))

theorem airport_place (k : Str) : AdaptationPlace [c!"locations", c!"airports", k, c!"coordinate"] AdaptationJson.point
    (fun a : Adaptation F G => ((some a.locations.airports).bind fun m => Map.get? m k).map (·.coordinate)) :=
  .field (.entry k airports_place) (fun _ => rfl) (.there (by decide) (.here ..))

/-- **C105, overlays.**  The coordinates of an airport that no overlay touches become what is read from their texts, even if the
overlays say nothing: if this is not what was written, they are changed. -/
theorem C105_airport {env : Env F G} {a b : Adaptation F G} {overlays : List Path} {docs : List Doc} (he : Evaluates env overlays docs)
    (hne : overlays ≠ []) {r : J} (hr : docs.foldlM plus ((AdaptationJson.adaptation F G).to a) = some r)
    (hb : applyOverlays env a overlays = .ok b) {k : Str} (hd : ∀ d ∈ docs, ¬ Touches d [c!"locations", c!"airports", k, c!"coordinate"])
    {p : Locations.Airport F} (hx : Map.get? a.locations.airports k = some p) {q q' : Rat}
    (hq : JsonFloat.write p.coordinate.1 = some q) (hq' : JsonFloat.write p.coordinate.2 = some q') :
    (Map.get? b.locations.airports k).map (·.coordinate) = some (Json.JsonFloat.read q, Json.JsonFloat.read q') := by
  have := C89_rewritten he hne hr hb (airport_place k) hd (x := p.coordinate) (by simp [hx])
  simp only [Option.bind_some] at this
  rw [this]
  simp [AdaptationJson.point, Fields.struct, Fields.cons, Fields.nil, readField, Map.get?, Codec.float, hq, hq']

end

end Verif.Props
