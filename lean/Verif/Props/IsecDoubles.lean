import Verif.Props.Isec
import Verif.Props.Binary64
/-!
# C96: isec.txt with doubles

As C03, but the text of a coordinate is that of `{:.6}` for doubles: nothing is assumed about it.
-/

namespace Verif.Model.Binary64
open Verif.Spec.Quantize Verif.Spec.SctWrite Verif.Model.Rounding

/-- The text of millionths -/
def microText (neg : Bool) (k : Nat) : Str :=
  (if neg then ['-'] else []) ++ (showRadix 10 (k / 1000000) ++ '.' :: padZero 6 (showRadix 10 (k % 1000000)))

theorem showRadix_length {k n : Nat} (hk : 0 < k) (h : n < 10 ^ k) : (showRadix 10 n).length ≤ k := by
  induction k generalizing n with
  | zero => omega
  | succ k ih =>
    by_cases hn : n < 10
    · rw [showRadix_small hn]
      simp
    · rw [showRadix_step (by norm_num) (by omega), List.length_append, List.length_singleton]
      have : 0 < k := by
        rcases Nat.eq_zero_or_pos k with rfl | h'
        · omega
        · exact h'
      have := ih this (n := n / 10) (by rw [pow_succ] at h; omega)
      omega

theorem padZero_length {n : Nat} (h : n < 1000000) : (padZero 6 (showRadix 10 n)).length = 6 := by
  have : (showRadix 10 n).length ≤ 6 := showRadix_length (k := 6) (by omega) (by simpa using h)
  rw [padZero, List.length_append, List.length_replicate]
  omega

theorem microText_millionths (neg : Bool) (k : Nat) : Millionths (microText neg k) neg k := by
  refine ⟨if neg then ['-'] else [], showRadix 10 (k / 1000000), padZero 6 (showRadix 10 (k % 1000000)), 0, ?_, by cases neg <;> simp,
    showRadix_digits _, (padZero_digits 6 (showRadix_digits _)).2, ?_, ?_⟩
  · rw [if_neg (padZero_digits 6 (showRadix_digits _)).1, List.append_assoc]
    rfl
  · rw [padZero_length (Nat.mod_lt _ (by norm_num))]
  · rw [List.replicate_zero, List.append_nil, digitsValue_append, digitsValue_pad, padZero_length (Nat.mod_lt _ (by norm_num)),
      show showRadix 10 (k / 1000000) = padZero 0 (showRadix 10 (k / 1000000)) by simp [padZero], digitsValue_pad]
    omega

theorem show6_eq (x : Double) : show6 x = microText x.neg (roundEven (x.mag * 1000000)).toNat := rfl

theorem isCoord_microText (neg : Bool) (k : Nat) : Spec.Isec.IsCoord (microText neg k) :=
  ⟨if neg then ['-'] else [], showRadix 10 (k / 1000000), padZero 6 (showRadix 10 (k % 1000000)), by simp [microText],
    by cases neg <;> simp, showRadix_digits _, padZero_digits 6 (showRadix_digits _)⟩

end Verif.Model.Binary64

namespace Verif.Props
open Verif.Model Verif.Model.Rounding Verif.Spec.Quantize Verif.Spec.SctWrite Verif.Spec.Isec
open Verif.Parse Verif.Parse.Isec
open Verif.AirwayGraph (Fix)

variable (R : Rounding)

theorem corresponds_mem {A B : Type} {P : A → B → Prop} {as : List A} {bs : List B} (h : Corresponds P as bs) {b : B} (hb : b ∈ bs) :
    ∃ a ∈ as, P a b := by
  induction as generalizing bs with
  | nil =>
    cases bs with
    | nil => cases hb
    | cons _ _ => exact h.elim
  | cons a as ih =>
    cases bs with
    | nil => cases hb
    | cons b' bs =>
      rcases List.mem_cons.1 hb with rfl | hb
      · exact ⟨a, by simp, h.1⟩
      · obtain ⟨a', h1, h2⟩ := ih h.2 hb
        exact ⟨a', by simp [h1], h2⟩

/-- `{:.6}` -/
def show6 (x : R.Num) : Str := Binary64.show6 x

/-- The nearest millionths to a number read from a numeral with six decimals are those of the numeral. -/
theorem micro_back {n : Nat} (hn : n ≤ 10 ^ 15) : (Binary64.roundEven (R.rnd (n / 1000000) * 1000000)).toNat = n := by
  have hq : (n : Rat) ≤ 10 ^ 15 := by exact_mod_cast hn
  have h0 : (0 : Rat) ≤ (n : Rat) / 1000000 := by positivity
  have h1 := abs_le.1 (R.rnd_small h0 (by linarith))
  have : Binary64.roundEven (R.rnd (n / 1000000) * 1000000) = (n : Int) := by
    refine Binary64.roundEven_unique ?_
    generalize R.rnd (n / 1000000) = m at *
    push_cast
    rw [abs_lt]
    constructor <;> linarith
  rw [this]
  rfl

/-- **C96, a coordinate** below 10⁹ with any sign that was read from a numeral with at most six decimals is printed with its millionths, and
read again as the same double. -/
theorem C96_coordinate {s : Str} {neg : Bool} {n : Nat} (h : Millionths s neg n) (hn : n ≤ 10 ^ 15) :
    Millionths (show6 R (R.ofText s)) neg n ∧ Prints (show6 R) (R.ofText s) := by
  have e : show6 R (R.ofText s) = Binary64.microText neg n := by
    rw [R.ofText_millionths h]
    show Binary64.microText neg (Binary64.roundEven (R.rnd (n / 1000000) * 1000000)).toNat = _
    rw [micro_back R hn]
  have h1 := Binary64.microText_millionths neg n
  refine ⟨e ▸ h1, ?_, ?_⟩
  · rw [e]
    exact Binary64.isCoord_microText neg n
  · rw [e]
    show some (R.ofText _) = _
    rw [R.ofText_millionths h, R.ofText_millionths h1]

/-- **C96, any coordinate** below 10⁹ is printed with its nearest millionths, so what is read again differs by half a millionth at most (and
an eighth of one for rounding numbers of this size); printing that gives the same text. -/
theorem C96_any_coordinate (x : R.Num) (h0 : 0 ≤ Double.mag x) (h : Double.mag x ≤ 10 ^ 9) :
    |value (R.ofText (show6 R x)) - value x| ≤ (1 / 2 + 1 / 2 ^ 3) / 1000000 ∧ show6 R (R.ofText (show6 R x)) = show6 R x := by
  obtain ⟨neg, m⟩ := x
  simp only at h0 h
  have h1 := abs_le.1 (Binary64.roundEven_near (m * 1000000))
  have hl : 0 ≤ Binary64.roundEven (m * 1000000) := by
    have : (-1 : Rat) < Binary64.roundEven (m * 1000000) := by linarith
    have : (-1 : Int) < Binary64.roundEven (m * 1000000) := by exact_mod_cast this
    omega
  have hu : Binary64.roundEven (m * 1000000) ≤ 10 ^ 15 := by
    have : (Binary64.roundEven (m * 1000000) : Rat) < 10 ^ 15 + 1 := by linarith
    have : Binary64.roundEven (m * 1000000) < 10 ^ 15 + 1 := by exact_mod_cast this
    omega
  have hs : show6 R (⟨neg, m⟩ : Double) = Binary64.microText neg (Binary64.roundEven (m * 1000000)).toNat := rfl
  have hm := Binary64.microText_millionths neg (Binary64.roundEven (m * 1000000)).toNat
  have hk : (((Binary64.roundEven (m * 1000000)).toNat : Nat) : Rat) = Binary64.roundEven (m * 1000000) := by
    have := Int.toNat_of_nonneg hl
    exact_mod_cast congrArg (fun z : Int => (z : Rat)) this
  have hn : (Binary64.roundEven (m * 1000000)).toNat ≤ 10 ^ 15 := by omega
  rw [hs]
  generalize (Binary64.roundEven (m * 1000000)).toNat = k at *
  rw [R.ofText_millionths hm]
  constructor
  · rw [← hk] at h1
    have hq : (k : Rat) ≤ 10 ^ 15 := by exact_mod_cast hn
    have h2 := abs_le.1 (R.rnd_small (x := (k : Rat) / 1000000) (by positivity) (by linarith))
    generalize R.rnd ((k : Rat) / 1000000) = y at *
    unfold value
    cases neg
    · simp only [Bool.false_eq_true, if_false]
      rw [abs_le]
      constructor <;> linarith
    · simp only [if_true]
      rw [abs_le]
      constructor <;> linarith
  · show Binary64.microText neg (Binary64.roundEven (R.rnd (k / 1000000) * 1000000)).toNat = _
    rw [micro_back R hn]

/-- **C96.**  A file all of whose coordinates have at most six decimals (and are below 10⁹) is read, and what is printed for it is read
again with the same fixes under each name. -/
theorem C96_isec_round_trip (le : Str → Str → Bool) (hle : ∀ a b c, le a b = true → le b c = true → le a c = true)
    (htot : ∀ a b, (le a b || le b a) = true) {content : Str} {ws : List Wpt} (hf : IsFile content ws) (hne : ws ≠ [])
    (h6 : ∀ w ∈ ws, (∃ neg n, Millionths w.lat neg n ∧ n ≤ 10 ^ 15) ∧ ∃ neg n, Millionths w.lng neg n ∧ n ≤ 10 ^ 15) :
    ∃ m m' : IsecMap R.Num, parseIsecTxt content = .ok m ∧ parseIsecTxt (display le (show6 R) m) = .ok m' ∧
      ∀ d : Str, MultiMap.getVec m' d = MultiMap.getVec m d := by
  obtain ⟨m, hm, hl⟩ := C04_isec_duplicates (F := R.Num) content ws hf hne
  obtain ⟨h1, h2, h3⟩ := isec_map_wellformed content m hm
  have hp : ∀ e ∈ m, ∀ f ∈ e.2, f.designator = e.1 ∧ Printable (show6 R) f := by
    intro e he f hfe
    refine ⟨(h2 e he f hfe).1, (h2 e he f hfe).2, ?_⟩
    have hv : MultiMap.getVec m e.1 = e.2 := by
      unfold MultiMap.getVec
      rw [Map.get?_of_mem h1 he]
      rfl
    have hc := hl e.1
    rw [hv] at hc
    obtain ⟨w, hw, hx⟩ := corresponds_mem hc hfe
    obtain ⟨⟨neg, n, a1, a2⟩, neg', n', b1, b2⟩ := h6 w (List.mem_filter.1 hw).1
    have e1 := Option.some.inj hx.2.1
    have e2 := Option.some.inj hx.2.2
    rw [← e1, ← e2]
    exact ⟨(C96_coordinate R b1 b2).2, (C96_coordinate R a1 a2).2⟩
  obtain ⟨m', h4, h5⟩ := C03_isec_round_trip le hle htot (show6 R) m h1 hp h3
  exact ⟨m, m', hm, h4, h5⟩

/-! ## Examples -/

/-- A file that meets the hypotheses -/
example : ∃ ws, IsFile c!"ASPAT\t-49.196175\t10.7\t15\nDKB 49.142778 10.238333 15\n" ws ∧ ws ≠ [] ∧
    ∀ w ∈ ws, (∃ neg n, Millionths w.lat neg n ∧ n ≤ 10 ^ 15) ∧ ∃ neg n, Millionths w.lng neg n ∧ n ≤ 10 ^ 15 := by
  refine ⟨[⟨c!"ASPAT", c!"-49.196175", c!"10.7"⟩, ⟨c!"DKB", c!"49.142778", c!"10.238333"⟩], ?_, by simp, ?_⟩
  · refine .line _ c!"ASPAT\t-49.196175\t10.7\t15" c!"\n" _ _ ?_ (.inl rfl) (.line _ c!"DKB 49.142778 10.238333 15" c!"\n" [] _ ?_ (.inl rfl) (.last [] ?_))
    · exact ⟨[], c!"\t", c!"\t", c!"\t", [], rfl, by decide, ⟨c!"-", c!"49", c!"196175", rfl, .inr rfl, by decide, by decide⟩,
        ⟨[], c!"10", c!"7", rfl, .inl rfl, by decide, by decide⟩, by decide, by decide, by decide, by decide,
        ⟨[], [], rfl, by decide, .inl rfl⟩, by decide, by decide, by decide⟩
    · exact ⟨[], c!" ", c!" ", c!" ", [], rfl, by decide, ⟨[], c!"49", c!"142778", rfl, .inl rfl, by decide, by decide⟩,
        ⟨[], c!"10", c!"238333", rfl, .inl rfl, by decide, by decide⟩, by decide, by decide, by decide, by decide,
        ⟨[], [], rfl, by decide, .inl rfl⟩, by decide, by decide, by decide⟩
    · exact ⟨[], [], rfl, by decide, .inl rfl⟩
  · intro w hw
    simp only [List.mem_cons, List.not_mem_nil, or_false] at hw
    rcases hw with rfl | rfl
    · exact ⟨⟨true, 49196175, ⟨c!"-", c!"49", c!"196175", 0, rfl, rfl, by decide, by decide, rfl, by decide⟩, by norm_num⟩,
        ⟨false, 10700000, ⟨[], c!"10", c!"7", 5, rfl, .inl rfl, by decide, by decide, rfl, by decide⟩, by norm_num⟩⟩
    · exact ⟨⟨false, 49142778, ⟨[], c!"49", c!"142778", 0, rfl, .inl rfl, by decide, by decide, rfl, by decide⟩, by norm_num⟩,
        ⟨false, 10238333, ⟨[], c!"10", c!"238333", 0, rfl, .inl rfl, by decide, by decide, rfl, by decide⟩, by norm_num⟩⟩

end Verif.Props
