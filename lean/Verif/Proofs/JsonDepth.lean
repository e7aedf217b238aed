import Verif.Model.AdaptationJson
import Verif.Proofs.Json
import Verif.Proofs.AdaptationJson
import Verif.Spec.JsonText
/-! # How deep the JSON of an adaptation is nested, and which numbers are in it -/

namespace Verif.Proofs.JsonDepth
open Verif.Json Verif.Json.Codec Verif.Spec.Json Verif.Spec.JsonText Verif.AdaptationJson Verif.Proofs.Json
open Verif.Adaptation (Adaptation)
open Verif.Display (F32Ops)

/-- What is written has at most this depth, and only numbers that satisfy `P`. -/
class Shallow (P : Rat → Prop) {A : Type} (c : Codec A) (d : Nat) : Prop where
  within : ∀ a, Keeps c a → Within P d (c.to a)

/-- The same for fields -/
class ShallowFields (P : Rat → Prop) {A : Type} (fs : Fields A) (d : Nat) : Prop where
  within : ∀ a, (∀ p ∈ fs.parts a, Kept p) → WithinFields P d (fs.to a)

/-- The integers of 64 bits satisfy `P`. -/
class GoodInts (P : Rat → Prop) : Prop where
  good : ∀ n : Int, -2 ^ 63 ≤ n → n < 2 ^ 64 → P n

/-- The values of these floating point numbers satisfy `P`. -/
class GoodFloats (P : Rat → Prop) (A : Type) [JsonFloat A] : Prop where
  good : ∀ (x : A) (q : Rat), JsonFloat.write x = some q → P q

variable {P : Rat → Prop} {A B : Type} {d : Nat}

theorem items_map {c : A → J} {l : List A} (h : ∀ a ∈ l, Within P d (c a)) : WithinItems P d (l.map c) := by
  induction l with
  | nil => simp [WithinItems]
  | cons a l ih =>
    rw [List.map_cons]
    simp only [WithinItems]
    exact ⟨h a (by simp), ih fun b hb => h b (by simp [hb])⟩

theorem fields_map {f : A → Str × J} {l : List A} (h : ∀ a ∈ l, Within P d (f a).2) : WithinFields P d (l.map f) := by
  induction l with
  | nil => simp [WithinFields]
  | cons a l ih =>
    rw [List.map_cons]
    simp only [WithinFields]
    exact ⟨h a (by simp), ih fun b hb => h b (by simp [hb])⟩

instance : Shallow P text d := ⟨fun _ _ => by simp [text, Within]⟩
instance : Shallow P Codec.bool d := ⟨fun _ _ => by simp [Codec.bool, Within]⟩
instance : Shallow P colour d := ⟨fun _ _ => by simp [colour, Within]⟩
instance : Shallow P path d := ⟨fun _ _ => by simp [path, Within]⟩
instance : Shallow P phantom d := ⟨fun _ _ => by simp [phantom, Within]⟩
instance {all : List A} {name : A → Str} : Shallow P (enum all name) d := ⟨fun _ _ => by simp [enum, Within]⟩

theorem shallow_int [GoodInts P] {lo hi : Int} (hlo : -2 ^ 63 ≤ lo) (hhi : hi ≤ 2 ^ 64) : Shallow P (int lo hi) d := ⟨fun n h => by
  have : lo ≤ n ∧ n < hi := h (.int lo hi n) (by simp [int])
  simp only [int, Within]
  exact GoodInts.good n (by omega) (by omega)⟩

theorem shallow_nat [GoodInts P] {hi : Nat} (hhi : hi ≤ 2 ^ 64) : Shallow P (nat hi) d := ⟨fun n h => by
  have : (0 : Int) ≤ n ∧ (n : Int) < hi := h (.int 0 hi n) (by simp [nat])
  simp only [nat, Within]
  exact GoodInts.good n (by omega) (by omega)⟩

instance [GoodInts P] : Shallow P u8 d := shallow_nat (by decide)
instance [GoodInts P] : Shallow P u32 d := shallow_nat (by decide)
instance [GoodInts P] : Shallow P usize d := shallow_nat (by decide)
instance [GoodInts P] : Shallow P i32 d := shallow_int (by decide) (by decide)
instance [GoodInts P] : Shallow P i64 d := shallow_int (by decide) (by decide)

instance [JsonFloat A] [GoodFloats P A] : Shallow P (float (A := A)) d := ⟨fun x h => by
  obtain ⟨q, hq, _⟩ := float_kept h
  simp only [float, hq, Within]
  exact GoodFloats.good x q hq⟩

instance {c : Codec A} [Shallow P c d] : Shallow P (opt c) d := ⟨fun a h => by
  cases a with
  | none => simp [opt, Within]
  | some a => exact Shallow.within (c := c) a fun p hp => h p (by simp [opt, hp])⟩

instance {c : Codec A} [Shallow P c d] : Shallow P (list c) (d + 1) := ⟨fun l h => by
  simp only [list, Within]
  exact items_map fun a ha => Shallow.within a fun p hp => h p (List.mem_flatMap.2 ⟨a, ha, hp⟩)⟩

instance {c : Codec A} [Shallow P c d] : Shallow P (map c) (d + 1) := ⟨fun l h => by
  simp only [map, Within]
  exact fields_map fun a ha => Shallow.within a.2 fun p hp => h p (List.mem_flatMap.2 ⟨a, ha, hp⟩)⟩

instance {c : Codec A} [Shallow P c d] : Shallow P (multiMap c) (d + 2) := inferInstanceAs (Shallow P (map (list c)) (d + 2))

instance {c : Codec A} [Shallow P c d] : Shallow P (numMap c) (d + 1) := ⟨fun l h => by
  simp only [numMap, Within]
  exact fields_map fun a ha => Shallow.within a.2 fun p hp => h p (List.mem_flatMap.2 ⟨a, ha, List.mem_cons_of_mem _ hp⟩)⟩

instance {c : Codec A} {e : Codec B} [Shallow P c d] [Shallow P e d] : Shallow P (tuple2 c e) (d + 1) := ⟨fun a h => by
  simp only [tuple2, Within, WithinItems, and_true]
  exact ⟨Shallow.within a.1 fun p hp => h p (List.mem_append_left _ hp), Shallow.within a.2 fun p hp => h p (List.mem_append_right _ hp)⟩⟩

instance {c : Codec A} {f : B → A} {g : A → B} [Shallow P c d] : Shallow P (iso c f g) d :=
  ⟨fun b h => Shallow.within (c := c) (f b) h⟩

instance {c : Codec A} {a : A} [Shallow P c d] : Shallow P (orDefault c a) d := ⟨fun b h => Shallow.within (c := c) b h⟩

instance : ShallowFields P .nil d := ⟨fun _ _ => by simp [Fields.nil, WithinFields]⟩

instance {k : Str} {c : Codec A} {fs : Fields B} [Shallow P c d] [ShallowFields P fs d] : ShallowFields P (.cons k c fs) d := ⟨fun a h => by
  simp only [Fields.cons, WithinFields]
  exact ⟨Shallow.within a.1 fun p hp => h p (List.mem_append_left _ hp), ShallowFields.within a.2 fun p hp => h p (List.mem_append_right _ hp)⟩⟩

instance shallow_struct {fs : Fields A} {f : B → A} {g : A → B} [ShallowFields P fs d] : Shallow P (fs.struct f g) (d + 1) := ⟨fun b h => by
  simp only [Fields.struct, Within]
  exact ShallowFields.within (f b) h⟩

theorem within_variant {k : Str} {j : J} (h : Within P d j) : Within P (d + 1) (variant k j) := by
  simp only [variant, Within, WithinFields, and_true]
  exact h

section
variable {F G : Type} [JsonFloat F] [JsonFloat G] [GoodInts P] [GoodFloats P F] [GoodFloats P G]

instance : Shallow P (point (F := F)) (d + 1) := shallow_struct
instance : Shallow P (point' (F := F)) (d + 1) := by unfold point'; infer_instance
instance : Shallow P (multiLine (F := F)) (d + 3) := by unfold multiLine; infer_instance
instance : Shallow P (polygon (F := F)) (d + 4) := shallow_struct
instance : Shallow P (fix (F := F)) (d + 2) := shallow_struct
instance : Shallow P (navaid (F := F)) (d + 2) := shallow_struct
instance : Shallow P (runway (F := F)) (d + 3) := shallow_struct
instance : Shallow P (airport (F := F)) (d + 5) := shallow_struct
instance : Shallow P (procedure (F := F)) (d + 4) := shallow_struct
instance : Shallow P airwayType d := by unfold airwayType; infer_instance
instance : Shallow P airwayEdge (d + 1) := shallow_struct
instance : Shallow P (graphFix (F := F)) (d + 4) := shallow_struct
instance : Shallow P (airwayGraph (F := F)) (d + 6) := shallow_struct
instance : Shallow P (locations (F := F)) (d + 8) := shallow_struct
instance : Shallow P (position (F := F)) (d + 3) := shallow_struct
instance : Shallow P (volume (F := F)) (d + 5) := shallow_struct
instance : Shallow P runwayIdentifier (d + 1) := shallow_struct
instance : Shallow P sector (d + 4) := shallow_struct
instance : Shallow P (timing (G := G)) (d + 1) := shallow_struct
instance : Shallow P (constraint (G := G)) (d + 2) := shallow_struct
instance : Shallow P activeIds (d + 2) := shallow_struct
instance : Shallow P activeRunways (d + 3) := shallow_struct
instance : Shallow P activeAreas (d + 2) := shallow_struct
instance : Shallow P activeMapOperator d := by unfold activeMapOperator; infer_instance

/-- The parts of a variant -/
theorem part {c : Codec A} [Shallow P c d] {a : A} {l : List Part} (h : ∀ p ∈ l, Kept p) (hl : ∀ p ∈ c.parts a, p ∈ l) :
    Within P d (c.to a) := Shallow.within a fun p hp => h p (hl p hp)

instance : Shallow P active (d + 4) := ⟨fun a h => by
  cases a with
  | true => simp [active, Within]
  | schedule => simp [active, Within]
  | aup l => exact within_variant (part (c := list text) h fun _ hp => hp)
  | notam s l =>
    refine within_variant (d := d + 3) ?_
    simp only [Within, WithinItems, and_true]
    exact ⟨part (c := text) h fun _ hp => List.mem_append_left _ hp, part (c := list text) h fun _ hp => List.mem_append_right _ hp⟩
  | area a => exact within_variant (part (c := activeAreas) h fun _ hp => hp)
  | id a => exact within_variant (part (c := activeIds) h fun _ hp => hp)
  | callsign a => exact within_variant (part (c := activeIds) h fun _ hp => hp)
  | runway a => exact within_variant (part (c := activeRunways) h fun _ hp => hp)
  | map op f n =>
    refine within_variant (d := d + 3) ?_
    simp [Within, WithinItems, activeMapOperator, enum, text]⟩

instance : Shallow P horizontal d := by unfold horizontal; infer_instance
instance : Shallow P vertical d := by unfold vertical; infer_instance
instance : Shallow P alignment (d + 1) := shallow_struct
instance : Shallow P lineStyle (d + 1) := shallow_struct
instance : Shallow P (pair (F := F)) (d + 1) := by unfold pair; infer_instance

section
variable [DecidableEq F] [F32Ops G]
instance : Shallow P (label F G) (d + 2) := shallow_struct
instance : Shallow P (mapSymbol F G) (d + 2) := shallow_struct
instance : Shallow P (mapGroup F G) (d + 6) := shallow_struct
instance : Shallow P (mapV F G) (d + 8) := shallow_struct
instance : Shallow P (folder F G) (d + 10) := shallow_struct
end

instance : Shallow P (symbolRule (F := F)) (d + 3) := ⟨fun a h => by
  cases a with
  | move p => exact within_variant (part (c := pair) h fun _ hp => hp)
  | line p => exact within_variant (part (c := pair) h fun _ hp => hp)
  | pixel p => exact within_variant (part (c := pair) h fun _ hp => hp)
  | polygon ps => exact within_variant (part (c := list pair) h fun _ hp => hp)
  | arc p r a b =>
    refine within_variant (d := d + 2) ?_
    simp only [Within, WithinItems, and_true]
    exact ⟨part (c := pair) h fun _ hp => by simp [symbolRule, hp], part (c := float) h fun _ hp => by simp [symbolRule, hp],
      part (c := i64) h fun _ hp => by simp [symbolRule, hp], part (c := i64) h fun _ hp => by simp [symbolRule, hp]⟩
  | ellipticArc p r s a b =>
    refine within_variant (d := d + 2) ?_
    simp only [Within, WithinItems, and_true]
    exact ⟨part (c := pair) h fun _ hp => by simp [symbolRule, hp], part (c := float) h fun _ hp => by simp [symbolRule, hp],
      part (c := float) h fun _ hp => by simp [symbolRule, hp],
      part (c := i64) h fun _ hp => by simp [symbolRule, hp], part (c := i64) h fun _ hp => by simp [symbolRule, hp]⟩
  | filledArc p r a b =>
    refine within_variant (d := d + 2) ?_
    simp only [Within, WithinItems, and_true]
    exact ⟨part (c := pair) h fun _ hp => by simp [symbolRule, hp], part (c := float) h fun _ hp => by simp [symbolRule, hp],
      part (c := i64) h fun _ hp => by simp [symbolRule, hp], part (c := i64) h fun _ hp => by simp [symbolRule, hp]⟩
  | filledEllipticArc p r s a b =>
    refine within_variant (d := d + 2) ?_
    simp only [Within, WithinItems, and_true]
    exact ⟨part (c := pair) h fun _ hp => by simp [symbolRule, hp], part (c := float) h fun _ hp => by simp [symbolRule, hp],
      part (c := float) h fun _ hp => by simp [symbolRule, hp],
      part (c := i64) h fun _ hp => by simp [symbolRule, hp], part (c := i64) h fun _ hp => by simp [symbolRule, hp]⟩⟩

instance : Shallow P (symbols (F := F)) (d + 6) := shallow_struct
instance : ShallowFields P trackColours d := by unfold trackColours; infer_instance
instance : ShallowFields P uiColours d := by unfold uiColours; infer_instance
instance : ShallowFields P sectorColours d := by unfold sectorColours; infer_instance
instance : ShallowFields P mapColours2 d := by unfold mapColours2; infer_instance
instance {B : Type} {fs : Fields B} [ShallowFields P fs d] : ShallowFields P (mapColours fs) d := by unfold mapColours; infer_instance
instance : Shallow P colours (d + 2) := shallow_struct
instance : Shallow P (dash (G := G)) (d + 1) := shallow_struct
instance : Shallow P lineSettings (d + 2) := shallow_struct
instance : Shallow P (labelSettings (G := G)) (d + 2) := shallow_struct
instance : Shallow P (mapsSettings (F := F) (G := G)) (d + 3) := shallow_struct
instance : Shallow P (vector (G := G)) (d + 2) := shallow_struct
instance : Shallow P historyDots (d + 2) := shallow_struct
instance : Shallow P (track (G := G)) (d + 3) := shallow_struct
instance : Shallow P ssr (d + 2) := shallow_struct
instance : Shallow P (coordination (G := G)) (d + 3) := shallow_struct
instance : ShallowFields P (settingsFields (F := F) (G := G)) (d + 3) := by unfold settingsFields; infer_instance
instance : Shallow P (settings (F := F) (G := G)) (d + 4) := shallow_struct
instance : Shallow P wtc d := by unfold wtc; infer_instance
instance : Shallow P aircraftType d := by unfold aircraftType; infer_instance
instance : Shallow P engineType d := by unfold engineType; infer_instance
instance : Shallow P aircraft (d + 1) := shallow_struct
instance : Shallow P airline (d + 1) := shallow_struct
instance : Shallow P (coloured (F := F)) (d + 4) := shallow_struct

instance : Shallow P (location (F := F)) (d + 2) := ⟨fun a h => by
  cases a with
  | fix s => simp [location, variant, Within, WithinFields, text]
  | coordinate p => exact within_variant (part (c := point') h fun _ hp => hp)⟩

instance : Shallow P (region (F := F)) (d + 3) := shallow_struct
instance : Shallow P (sctLabel (F := F)) (d + 3) := shallow_struct
instance : Shallow P (sctItems (F := F)) (d + 7) := shallow_struct

variable [DecidableEq F] [F32Ops G]

instance : ShallowFields P (adaptationFields F G) (d + 11) := by unfold adaptationFields; infer_instance
instance : Shallow P (adaptation F G) (d + 12) := shallow_struct

end
end Verif.Proofs.JsonDepth
