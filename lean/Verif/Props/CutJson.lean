import Verif.Props.JsonText
/-!
# C119: JSON files that are cut off

What is left of a JSON text for an object or an array is no JSON text, unless only white space is missing.
-/

namespace Verif.Props
open Verif.Json Verif.JsonText Verif.Spec Verif.Spec.JsonText Verif.Spec.Json
open Verif.Adaptation (Adaptation)
open Verif.Display (F32Ops)

/-- An object or an array -/
def Container (j : J) : Prop := (∃ o, j = .obj o) ∨ ∃ l, j = .arr l

/-- The end of an object or an array is found whatever follows it. -/
theorem container_value {fits : Rat → Bool} {d : Nat} {t : Str} {j : J} (h : Val fits d t j) (hj : Container j) (r : Str) (n : Nat)
    (hn : 2 * t.length ≤ n) : value fits n d (t ++ r) = some (j, r) := by
  cases n with
  | zero =>
    obtain ⟨c, u, rfl, _⟩ := Proofs.JsonText.val_head h
    simp at hn
  | succ n =>
    cases h with
    | null => rcases hj with ⟨_, h⟩ | ⟨_, h⟩ <;> cases h
    | true => rcases hj with ⟨_, h⟩ | ⟨_, h⟩ <;> cases h
    | false => rcases hj with ⟨_, h⟩ | ⟨_, h⟩ <;> cases h
    | num => rcases hj with ⟨_, h⟩ | ⟨_, h⟩ <;> cases h
    | str => rcases hj with ⟨_, h⟩ | ⟨_, h⟩ <;> cases h
    | @noItem d w hw =>
      have : skipWs (w ++ ']' :: r) = ']' :: r := by rw [Proofs.JsonText.skip_ws hw, Proofs.JsonText.skip_cons (by decide)]
      simp [value, this]
    | @arr d t l hi =>
      have := Proofs.JsonText.items_complete hi r n (by simp at hn; omega)
      have hh := Proofs.JsonText.items_head hi (']' :: r)
      simp [value, this, hh]
    | @noField d w hw =>
      have : skipWs (w ++ '}' :: r) = '}' :: r := by rw [Proofs.JsonText.skip_ws hw, Proofs.JsonText.skip_cons (by decide)]
      simp [value, this]
    | @obj d t l hi =>
      have := Proofs.JsonText.members_complete hi r n (by simp at hn; omega)
      have hh := Proofs.JsonText.members_head hi ('}' :: r)
      simp [value, this, hh]

/-- The first character says whether a value is an object or an array. -/
theorem container_iff {fits : Rat → Bool} {d : Nat} {t : Str} {j : J} (h : Val fits d t j) :
    Container j ↔ t.head? = some '{' ∨ t.head? = some '[' := by
  cases h with
  | null => simp [Container]
  | true => simp [Container]
  | false => simp [Container]
  | @num _ m hv hf =>
    obtain ⟨c, w, hw, hc⟩ := Proofs.JsonText.whole_head hv
    have : ∃ c u, m.text = c :: u ∧ (c = '-' ∨ isAsciiDigit c = .true) := by
      rw [Proofs.JsonText.text_eq, hw]
      cases m.neg with
      | true => exact ⟨_, _, rfl, .inl rfl⟩
      | false => exact ⟨c, _, rfl, .inr hc⟩
    obtain ⟨c, u, ht, hcc⟩ := this
    rw [ht]
    constructor
    · rintro (⟨_, h⟩ | ⟨_, h⟩) <;> cases h
    · rintro (h | h) <;> cases h <;> rcases hcc with h | h <;> exact absurd h (by decide)
  | str => simp [Container]
  | noItem => simp [Container]
  | arr => simp [Container]
  | noField => simp [Container]
  | obj => simp [Container]

/-- **C119.** If a text stands for an object or an array and its first part is read as well, then the first part stands for the same value
and only white space is missing. -/
theorem C119_json {fits : Rat → Bool} {u v : Str} {j k : J} (ht : JsonText.read fits (u ++ v) = some j) (hj : Container j)
    (hu : JsonText.read fits u = some k) : k = j ∧ Ws v := by
  obtain ⟨a, t, b, ha, hb, rfl, hv⟩ := (C103_text _ _ _).1 hu
  obtain ⟨a', t', b', ha', hb', e, hv'⟩ := (C103_text _ _ _).1 ht
  have hk : Container k := by
    rw [container_iff hv'] at hj
    rw [container_iff hv]
    have h1 := Proofs.JsonText.skip_val (r := b ++ v) ha hv
    have h2 := Proofs.JsonText.skip_val (r := b') ha' hv'
    rw [← e] at h2
    simp only [List.append_assoc] at h2
    rw [h1] at h2
    obtain ⟨c, x, rfl, _⟩ := Proofs.JsonText.val_head hv
    obtain ⟨c', x', rfl, _⟩ := Proofs.JsonText.val_head hv'
    simp only [List.cons_append, List.cons.injEq] at h2
    obtain ⟨rfl, _⟩ := h2
    exact hj
  have hr := container_value hv hk (b ++ v) (2 * (a ++ (t ++ b) ++ v).length + 2) (by simp; omega)
  have hs := Proofs.JsonText.skip_val (r := b ++ v) ha hv
  unfold JsonText.read at ht
  rw [show skipWs (a ++ (t ++ b) ++ v) = t ++ (b ++ v) by rw [← hs]; simp] at ht
  rw [show maxDepth = 127 from rfl, hr] at ht
  simp only at ht
  split at ht
  · next hw =>
    refine ⟨Option.some.inj ht, fun c hc => Proofs.JsonText.skip_empty hw c (List.mem_append_right _ hc)⟩
  · cases ht

/-- The bytes of a text begin with those of another one exactly if the text does. -/
theorem encode_prefix : ∀ {s t : Str} {v : List Decode.Byte}, t.flatMap Decode.encode = s.flatMap Decode.encode ++ v →
    ∃ r, t = s ++ r ∧ v = r.flatMap Decode.encode
  | [], t, v, h => ⟨t, rfl, by simpa using h.symm⟩
  | c :: s, [], v, h => by
    simp only [List.flatMap_nil, List.flatMap_cons, List.append_assoc] at h
    exact absurd (List.append_eq_nil_iff.1 h.symm).1 (Verif.Decode.encode_ne c)
  | c :: s, d :: t, v, h => by
    simp only [List.flatMap_cons, List.append_assoc] at h
    have := Verif.Decode.next_encode d (t.flatMap Decode.encode)
    rw [h, Verif.Decode.next_encode] at this
    simp only [Option.some.injEq, Prod.mk.injEq] at this
    obtain ⟨rfl, h'⟩ := this
    obtain ⟨r, rfl, hv⟩ := encode_prefix h'.symm
    exact ⟨r, rfl, hv⟩

/-- **C119, `squawks.json`.**  What is left of an accepted file is refused, unless only white space is missing; then the same is read. -/
theorem C119_squawks {fits : Rat → Bool} {u v : List Decode.Byte} {x y : Squawks.SquawksJson}
    (ht : (readBytes fits (u ++ v)).bind Squawks.readJson = some x) (hu : (readBytes fits u).bind Squawks.readJson = some y) :
    y = x ∧ ∀ b ∈ v, b = 0x20 ∨ b = 0x0A ∨ b = 0x09 ∨ b = 0x0D := by
  obtain ⟨j, ⟨s, hs, hj⟩, hx⟩ := (C103_squawks _ _ _).1 ht
  obtain ⟨k, ⟨s', rfl, hk⟩, hy⟩ := (C103_squawks _ _ _).1 hu
  obtain ⟨r, rfl, rfl⟩ := encode_prefix hs.symm
  have hc : Container j := by
    cases hx with
    | object => exact Or.inl ⟨_, rfl⟩
    | array => exact Or.inr ⟨_, rfl⟩
  obtain ⟨rfl, hw⟩ := C119_json ((C103_text _ _ _).2 hj) hc ((C103_text _ _ _).2 hk)
  refine ⟨?_, fun b hb => ?_⟩
  · rw [← Proofs.Squawks.read_iff] at hx hy
    exact Option.some.inj (hy.symm.trans hx)
  · obtain ⟨c, hc, hb⟩ := List.mem_flatMap.1 hb
    rcases hw c hc with rfl | rfl | rfl | rfl
    · exact Or.inl (List.mem_singleton.1 hb)
    · exact Or.inr (Or.inl (List.mem_singleton.1 hb))
    · exact Or.inr (Or.inr (Or.inl (List.mem_singleton.1 hb)))
    · exact Or.inr (Or.inr (Or.inr (List.mem_singleton.1 hb)))

section
variable {F G : Type} [JsonFloat F] [JsonFloat G] [DecidableEq F] [F32Ops G]

/-- **C119.** The written JSON text of an adaptation is no JSON text any more if something is missing at its end. -/
theorem C119_adaptation {fits : Rat → Bool} {num : Rat → Str} (hp : PrintsNumbers fits num F G) (a : Adaptation F G)
    (h : Keeps (AdaptationJson.adaptation F G) a) {u v : Str} (he : write num ((AdaptationJson.adaptation F G).to a) = u ++ v) (hv : v ≠ []) :
    JsonText.read fits u = none := by
  have hw : Within (Printed fits num) 127 ((AdaptationJson.adaptation F G).to a) := by
    haveI : Proofs.JsonDepth.GoodInts (Printed fits num) := ⟨hp.ints⟩
    haveI : Proofs.JsonDepth.GoodFloats (Printed fits num) F := ⟨hp.doubles⟩
    haveI : Proofs.JsonDepth.GoodFloats (Printed fits num) G := ⟨hp.singles⟩
    exact Proofs.JsonDepth.Shallow.within (d := 127) a h
  have hr := C104_round_trip hw
  have hval := Proofs.JsonText.write_val _ hw
  rw [he] at hr hval
  obtain ⟨o, ho⟩ : ∃ o, (AdaptationJson.adaptation F G).to a = .obj o := ⟨_, rfl⟩
  rw [ho] at hr hval
  cases hu : JsonText.read fits u with
  | none => rfl
  | some k =>
    obtain ⟨_, hws⟩ := C119_json hr (Or.inl ⟨o, rfl⟩) hu
    have last : (u ++ v).getLast? = some '}' := by
      generalize u ++ v = t at hval
      cases hval with
      | noField => simp [List.getLast?_cons]
      | obj => simp [List.getLast?_cons]
    rw [List.getLast?_append, List.getLast?_eq_some_getLast hv] at last
    have := hws _ (List.getLast_mem hv)
    rw [Option.some.inj last] at this
    exact absurd this (by decide)

end

/-! ## Concrete cases -/

/-- The number that a value is -/
def number? : J → Option Rat
  | .num q => some q
  | _ => none

/-- A file that is cut off within its list is refused; the whole file, and the file without the last line feed, are read. -/
example : (JsonText.read (fun _ => true) (c!"{\"a\": [1, 2]}" ++ ['\n'])).isSome ∧
    (JsonText.read (fun _ => true) c!"{\"a\": [1, 2]}").isSome ∧
    (JsonText.read (fun _ => true) c!"{\"a\": [1, 2").isNone := by decide +kernel

/-- For a number this would be false: what is left of it is another number. -/
theorem C119_json_number : (JsonText.read (fun _ => true) c!"12").bind number? = some 12 ∧
    (JsonText.read (fun _ => true) c!"1").bind number? = some 1 := by
  decide +kernel

end Verif.Props
