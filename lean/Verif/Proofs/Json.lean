import Verif.Spec.Json
import Verif.Base.Num
import Verif.Props.Colours
/-!
# Values are read as they were written
-/

namespace Verif.Proofs.Json
open Verif.Json Verif.Json.Codec Verif.Spec.Json

/-- What is written is read again. -/
class Lawful {A : Type} (c : Codec A) : Prop where
  back : ∀ a, Keeps c a → c.of (c.to a) = some a

/-- No value is written as `null`. -/
class NonNull {A : Type} (c : Codec A) : Prop where
  ne : ∀ a, Keeps c a → c.to a ≠ .null

variable {A B C : Type}

instance : Lawful text := ⟨fun _ _ => rfl⟩
instance : NonNull text := ⟨fun _ _ => nofun⟩
instance : Lawful Codec.bool := ⟨fun _ _ => rfl⟩

instance {lo hi : Int} : Lawful (int lo hi) := ⟨fun n h => by
  have : lo ≤ n ∧ n < hi := h (.int lo hi n) (by simp [int])
  simp [int, this]⟩

instance {hi : Nat} : Lawful (nat hi) := ⟨fun n h => by
  have : (0 : Int) ≤ n ∧ (n : Int) < hi := h (.int 0 hi n) (by simp [nat])
  have h2 : n < hi := by omega
  simp [nat, h2]
  exact_mod_cast Nat.zero_le n⟩

instance {hi : Nat} : NonNull (nat hi) := ⟨fun _ _ => nofun⟩

instance : Lawful u8 := inferInstanceAs (Lawful (nat _))
instance : Lawful u32 := inferInstanceAs (Lawful (nat _))
instance : NonNull u32 := inferInstanceAs (NonNull (nat _))
instance : Lawful usize := inferInstanceAs (Lawful (nat _))
instance : Lawful i32 := inferInstanceAs (Lawful (int _ _))
instance : Lawful i64 := inferInstanceAs (Lawful (int _ _))

theorem float_kept [JsonFloat A] {x : A} (h : Keeps float x) :
    ∃ q, JsonFloat.write x = some q ∧ JsonFloat.write (JsonFloat.read (A := A) q) = some q := by
  have h' : (JsonFloat.write x).isSome ∧ ((JsonFloat.write x).bind fun q => JsonFloat.write (JsonFloat.read (A := A) q)) = JsonFloat.write x :=
    h (.float _ _) (by simp [float])
  obtain ⟨q, hq⟩ := Option.isSome_iff_exists.1 h'.1
  rw [hq] at h'
  exact ⟨q, hq, h'.2⟩

instance [JsonFloat A] [LawfulJsonFloat A] : Lawful (float (A := A)) := ⟨fun x h => by
  obtain ⟨q, hq, hr⟩ := float_kept h
  simp only [float, hq]
  rw [LawfulJsonFloat.inj _ x q hr hq]⟩

instance [JsonFloat A] : NonNull (float (A := A)) := ⟨fun x h => by
  obtain ⟨q, hq, _⟩ := float_kept h
  simp [float, hq]⟩

instance {c : Codec A} [Lawful c] [NonNull c] : Lawful (opt c) := ⟨fun a h => by
  cases a with
  | none => rfl
  | some a =>
    have ha : Keeps c a := fun p hp => h p (by simp [opt, hp])
    have h1 := Lawful.back a ha
    have h2 := NonNull.ne (c := c) a ha
    show (opt c).of (c.to a) = _
    revert h1 h2
    generalize c.to a = j
    intro h1 h2
    cases j <;> first | exact absurd rfl h2 | simp [opt, h1]⟩

theorem mapM_map {f : A → B} {g : B → Option C} {h : A → C} {l : List A} (hl : ∀ a ∈ l, g (f a) = some (h a)) :
    (l.map f).mapM g = some (l.map h) := by
  induction l with
  | nil => rfl
  | cons a l ih =>
    rw [List.map_cons, List.mapM_cons, hl a (by simp), ih fun b hb => hl b (by simp [hb])]
    rfl

instance {c : Codec A} [Lawful c] : Lawful (list c) := ⟨fun l h => by
  show (l.map c.to).mapM c.of = some l
  rw [mapM_map (h := id)]
  · simp
  · intro a ha
    exact Lawful.back a fun p hp => h p (List.mem_flatMap.2 ⟨a, ha, hp⟩)⟩

instance {c : Codec A} : NonNull (list c) := ⟨fun _ _ => nofun⟩

instance {c : Codec A} [Lawful c] : Lawful (map c) := ⟨fun l h => by
  show List.mapM (fun e => (c.of e.2).map fun v => (e.1, v)) (l.map fun e => (e.1, c.to e.2)) = some l
  rw [mapM_map (h := id)]
  · simp
  · intro a ha
    simp only [Lawful.back a.2 fun p hp => h p (List.mem_flatMap.2 ⟨a, ha, hp⟩)]
    rfl⟩

instance {c : Codec A} [Lawful c] : Lawful (multiMap c) := inferInstanceAs (Lawful (map (list c)))

theorem parse_showNat {n b : Nat} (h : n < b) : parseUnsigned 10 b (showNat n) = some n := by
  rw [parseUnsigned_digits ⟨showNat_ne_nil n, showNat_digits n⟩, digitsValue_showNat]
  simp [h]

instance {c : Codec A} [Lawful c] : Lawful (numMap c) := ⟨fun l h => by
  show List.mapM (fun e : Str × J => (parseUnsigned 10 (2 ^ 64) e.1).bind fun k =>
      if showNat k = e.1 then (c.of e.2).map fun v => (k, v) else none)
    (l.map fun e => (showNat e.1, c.to e.2)) = some l
  rw [mapM_map (h := id)]
  · simp
  · intro a ha
    have h1 : (0 : Int) ≤ a.1 ∧ (a.1 : Int) < 2 ^ 64 := h (.int 0 (2 ^ 64) a.1) (List.mem_flatMap.2 ⟨a, ha, by simp⟩)
    have h2 : c.of (c.to a.2) = some a.2 :=
      Lawful.back a.2 fun p hp => h p (List.mem_flatMap.2 ⟨a, ha, List.mem_cons_of_mem _ hp⟩)
    simp only [parse_showNat (show a.1 < 2 ^ 64 by omega), h2, Option.bind_some, if_true]
    rfl⟩

instance {c : Codec A} {d : Codec B} [Lawful c] [Lawful d] : Lawful (tuple2 c d) := ⟨fun a h => by
  show ((c.of (c.to a.1)).bind fun a => (d.of (d.to _)).map fun b => (a, b)) = some a
  rw [Lawful.back a.1 fun p hp => h p (by simp [tuple2, hp]), Lawful.back a.2 fun p hp => h p (by simp [tuple2, hp])]
  rfl⟩

theorem lawful_enum {all : List A} {name : A → Str} (h : ∀ a, all.find? (fun b => name b = name a) = some a) :
    Lawful (enum all name) := ⟨fun a _ => h a⟩

theorem lawful_iso {c : Codec A} [Lawful c] {f : B → A} {g : A → B} (h : ∀ b, g (f b) = b) : Lawful (iso c f g) :=
  ⟨fun b hb => by
    show (c.of (c.to (f b))).map g = some b
    rw [Lawful.back (f b) hb]
    simp [h]⟩

instance {c : Codec A} [Lawful c] {a : A} : Lawful (orDefault c a) := ⟨fun b hb => Lawful.back (c := c) b hb⟩

instance : Lawful colour := ⟨fun c h => by
  have : c.a = 255 := h (.colour c) (by simp [colour])
  show Colours.deserialize (Colours.serialize c) = some c
  rw [Colours.C35_round_trip c]
  cases c
  simp_all⟩

/-! ## Paths -/

theorem splitSep_ne_nil (sep : Char) (s : Str) : PrfPaths.splitSep sep s ≠ [] := by
  cases s with
  | nil => simp [PrfPaths.splitSep]
  | cons c s =>
    unfold PrfPaths.splitSep
    split
    · simp
    · split <;> simp

theorem splitSep_cons_sep (sep : Char) (s : Str) : PrfPaths.splitSep sep (sep :: s) = [] :: PrfPaths.splitSep sep s := by
  rw [PrfPaths.splitSep]
  have := splitSep_ne_nil sep s
  cases h : PrfPaths.splitSep sep s with
  | nil => exact absurd h this
  | cons p ps => simp

theorem splitSep_append {sep : Char} {s t : Str} (h : sep ∉ s) :
    PrfPaths.splitSep sep (s ++ sep :: t) = s :: PrfPaths.splitSep sep t := by
  induction s with
  | nil => exact splitSep_cons_sep sep t
  | cons c s ih =>
    simp only [List.mem_cons, not_or] at h
    rw [List.cons_append, PrfPaths.splitSep, ih h.2]
    simp [Ne.symm h.1]

theorem splitSep_none {sep : Char} {s : Str} (h : sep ∉ s) : PrfPaths.splitSep sep s = [s] := by
  induction s with
  | nil => rfl
  | cons c s ih =>
    simp only [List.mem_cons, not_or] at h
    rw [PrfPaths.splitSep, ih h.2]
    simp [Ne.symm h.1]

theorem splitSep_path {p : PrfPaths.Path} (h : ∀ s ∈ p, '/' ∉ s) (s : Str) (hs : '/' ∉ s) :
    PrfPaths.splitSep '/' (s ++ p.flatMap fun s => '/' :: s) = s :: p := by
  induction p generalizing s with
  | nil => simp [splitSep_none hs]
  | cons q p ih =>
    rw [List.flatMap_cons, List.cons_append, splitSep_append hs, ih (fun s hs => h s (by simp [hs])) q (h q (by simp))]

instance : Lawful path := ⟨fun p h => by
  have h : ∀ s ∈ p, s ≠ [] ∧ s ≠ ['.'] ∧ '/' ∉ s := h (.path p) (by simp [path])
  show some (PrfPaths.components (if p = [] then ['/'] else p.flatMap fun s => '/' :: s)) = some p
  congr 1
  split
  · next hp => subst hp; rfl
  · unfold PrfPaths.components
    have := splitSep_path (fun s hs => (h s hs).2.2) [] (by simp)
    rw [List.nil_append] at this
    rw [this, List.filter_cons]
    simp only [ne_eq, not_true_eq_false, false_and, decide_false, Bool.false_eq_true, if_false]
    exact List.filter_eq_self.2 fun s hs => by simp [(h s hs).1, (h s hs).2.1]⟩

instance : NonNull path := ⟨fun _ _ => nofun⟩

/-! ## Structs -/

/-- The fields are read from every object that has them. -/
class LawfulFields {A : Type} (fs : Fields A) : Prop where
  keys : ∀ a, (fs.to a).map (·.1) = fs.keys
  back : ∀ a o, (∀ p ∈ fs.parts a, Kept p) → (∀ k j, (k, j) ∈ fs.to a → Map.get? o k = some j) → fs.of o = some a

instance : LawfulFields .nil := ⟨fun _ => rfl, fun _ _ _ _ => rfl⟩

instance {k : Str} {c : Codec A} {fs : Fields B} [Lawful c] [LawfulFields fs] : LawfulFields (.cons k c fs) where
  keys a := by
    show k :: (fs.to a.2).map (·.1) = k :: fs.keys
    rw [LawfulFields.keys]
  back a o h ho := by
    show ((readField o k c).bind fun a => (fs.of o).map fun b => (a, b)) = some a
    rw [LawfulFields.back (fs := fs) a.2 o (fun p hp => h p (List.mem_append_right _ hp)) (fun k j hj => ho k j (List.mem_cons_of_mem _ hj))]
    unfold readField
    rw [ho k (c.to a.1) List.mem_cons_self]
    simp only
    rw [Lawful.back a.1 fun p hp => h p (List.mem_append_left _ hp)]
    rfl

theorem fields_back {fs : Fields A} [LawfulFields fs] (hk : fs.keys.Nodup) (a : A) (h : ∀ p ∈ fs.parts a, Kept p) :
    fs.of (fs.to a) = some a :=
  LawfulFields.back a _ h fun _ _ hj => Map.get?_of_mem (by unfold Map.keys; rw [LawfulFields.keys]; exact hk) hj

theorem lawful_struct {fs : Fields A} [LawfulFields fs] {f : B → A} {g : A → B} (hk : fs.keys.Nodup) (h : ∀ b, g (f b) = b) :
    Lawful (fs.struct f g) := ⟨fun b hb => by
  show (fs.of (fs.to (f b))).map g = some b
  rw [fields_back hk (f b) hb]
  simp [h]⟩

instance {fs : Fields A} {f : B → A} {g : A → B} : NonNull (fs.struct f g) := ⟨fun _ _ => nofun⟩

/-- A field that two objects agree on is read alike. -/
theorem readField_congr {o o' : Obj} {k : Str} {c : Codec A} (h : Map.get? o k = Map.get? o' k) :
    readField o k c = readField o' k c := by
  unfold readField; rw [h]

end Verif.Proofs.Json
