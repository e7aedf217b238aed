import Verif.Spec.Squawks
import Verif.Props.Colours
/-!
# Lemmas about `squawks.json`
-/

namespace Verif.Proofs.Squawks
open Verif.Json Verif.Squawks Verif.Spec.Squawks
open Verif.Colours (Colour)
open Verif.Settings (SquawkDef)

variable {A B : Type}

/-- The reader gives exactly what the specification says. -/
def Means (c : Codec A) (P : J → A → Prop) : Prop := ∀ j a, c.of j = some a ↔ P j a

theorem text_means : Means .text SaysText := fun j a => by
  cases j with
  | str s =>
    show some s = some a ↔ _
    exact ⟨fun h => by cases h; exact .intro _, fun h => by cases h; rfl⟩
  | _ => exact ⟨nofun, nofun⟩

theorem colour_means : Means .colour SaysColour := fun j a => by
  cases j with
  | str s =>
    show Colours.deserialize s = some a ↔ _
    rw [Colours.C35_deserialize_iff]
    exact ⟨fun h => .intro h.1 h.2, fun h => by cases h with | intro h1 h2 => exact ⟨h1, h2⟩⟩
  | _ => exact ⟨nofun, nofun⟩

theorem each_means {c : Codec A} {P : J → A → Prop} (h : Means c P) {l : List J} {as : List A} :
    l.mapM c.of = some as ↔ SaysEach P l as := by
  induction l generalizing as with
  | nil =>
    rw [List.mapM_nil]
    exact ⟨fun h => by cases h; exact .nil, fun h => by cases h; rfl⟩
  | cons j l ih =>
    rw [List.mapM_cons]
    constructor
    · intro hj
      obtain ⟨a, ha, hj⟩ := Option.bind_eq_some_iff.1 hj
      obtain ⟨r, hr, hj⟩ := Option.bind_eq_some_iff.1 hj
      cases hj
      exact .cons ((h _ _).1 ha) (ih.1 hr)
    · intro hj
      cases hj with
      | cons h1 h2 => rw [(h _ _).2 h1, ih.2 h2]; rfl

theorem list_means {c : Codec A} {P : J → A → Prop} (h : Means c P) : Means (.list c) (SaysList P) := fun j a => by
  cases j with
  | arr l =>
    show l.mapM c.of = some a ↔ _
    rw [each_means h]
    exact ⟨.intro, fun h => by cases h; assumption⟩
  | _ => exact ⟨nofun, nofun⟩

theorem opt_means {c : Codec A} {P : J → A → Prop} (h : Means c P) (hn : c.of .null = none) : Means (.opt c) (Optional P) := fun j x => by
  by_cases hj : j = .null
  · subst hj
    show some none = some x ↔ _
    cases x with
    | none => simp [Optional]
    | some a =>
      refine ⟨nofun, fun hp => ?_⟩
      rw [(h _ _).2 hp] at hn
      cases hn
  · have : (Codec.opt c).of j = (c.of j).map some := by cases j <;> first | exact absurd rfl hj | rfl
    rw [this]
    cases x with
    | none => simp [Optional, hj]
    | some a => simpa [Optional] using h j a

/-! ## Fields -/

def One (o : Obj) (k : Str) : Prop := (o.filter fun e => e.1 = k).length ≤ 1

theorem filter_absent {o : Obj} {k : Str} (h : ∀ e ∈ o, e.1 ≠ k) : o.filter (fun e => decide (e.1 = k)) = [] :=
  List.filter_eq_nil_iff.2 fun e he => by simpa using h e he

theorem get_absent {o : Obj} {k : Str} : Map.get? o k = none ↔ Absent o k := by
  rw [Map.get?_eq_none_iff]
  unfold Absent Map.keys
  simp only [List.mem_map, not_exists, not_and]

theorem field_iff {o : Obj} {k : Str} {v : J} : One o k ∧ Map.get? o k = some v ↔ Field o k v := by
  constructor
  · rintro ⟨h1, h2⟩
    induction o with
    | nil => cases h2
    | cons e o ih =>
      by_cases he : e.1 = k
      · have : e = (k, v) := by
          simp only [Map.get?, he, if_true, Option.some.injEq] at h2
          exact Prod.ext he h2
        subst this
        refine ⟨[], o, rfl, by simp, fun e he' hk => ?_⟩
        unfold One at h1
        rw [List.filter_cons_of_pos (by simp), List.length_cons] at h1
        have : e ∈ o.filter fun e => decide (e.1 = k) := List.mem_filter.2 ⟨he', by simpa using hk⟩
        have := List.length_pos_of_mem this
        omega
      · have h1' : One o k := by
          unfold One at h1 ⊢
          rwa [List.filter_cons_of_neg (by simpa using he)] at h1
        have h2' : Map.get? o k = some v := by simpa [Map.get?, he] using h2
        obtain ⟨pre, post, rfl, h3, h4⟩ := ih h1' h2'
        exact ⟨e :: pre, post, rfl, by simpa [he] using h3, h4⟩
  · rintro ⟨pre, post, rfl, h1, h2⟩
    constructor
    · unfold One
      rw [List.filter_append, filter_absent h1, List.filter_cons_of_pos (by simp), filter_absent h2]
      simp
    · induction pre with
      | nil => simp [Map.get?]
      | cons e pre ih =>
        have := h1 e (by simp)
        simp only [List.cons_append, Map.get?, if_neg this]
        exact ih fun e he => h1 e (by simp [he])

theorem mandatory {c : Codec A} {P : J → A → Prop} (h : Means c P) (hm : c.missing = none) {o : Obj} {k : Str} {a : A} :
    One o k ∧ readField o k c = some a ↔ ∃ v, Field o k v ∧ P v a := by
  unfold readField
  cases hk : Map.get? o k with
  | none =>
    simp only [hm]
    refine ⟨nofun, ?_⟩
    rintro ⟨v, hv, -⟩
    rw [(field_iff.2 hv).2] at hk
    cases hk
  | some v =>
    simp only [h v a]
    constructor
    · rintro ⟨h1, h2⟩
      exact ⟨v, field_iff.1 ⟨h1, hk⟩, h2⟩
    · rintro ⟨v', hv, h2⟩
      have := field_iff.2 hv
      rw [hk] at this
      obtain ⟨h1, e⟩ := this
      cases e
      exact ⟨h1, h2⟩

theorem optional {c : Codec A} {P : J → A → Prop} (h : Means c P) (hn : c.of .null = none) {o : Obj} {k : Str} {a : Option A} :
    One o k ∧ readField o k (.opt c) = some a ↔ OptionalField P o k a := by
  unfold readField OptionalField
  cases hk : Map.get? o k with
  | none =>
    have ha := get_absent.1 hk
    show One o k ∧ some none = some a ↔ _
    constructor
    · rintro ⟨-, e⟩
      cases e
      exact .inl ⟨ha, rfl⟩
    · rintro (⟨-, rfl⟩ | ⟨v, hv, -⟩)
      · exact ⟨by unfold One; rw [filter_absent ha]; simp, rfl⟩
      · rw [(field_iff.2 hv).2] at hk
        cases hk
  | some v =>
    simp only [opt_means h hn v a]
    constructor
    · rintro ⟨h1, h2⟩
      exact .inr ⟨v, field_iff.1 ⟨h1, hk⟩, h2⟩
    · rintro (⟨ha, -⟩ | ⟨v', hv, h2⟩)
      · rw [get_absent.2 ha] at hk
        cases hk
      · have := field_iff.2 hv
        rw [hk] at this
        obtain ⟨h1, e⟩ := this
        cases e
        exact ⟨h1, h2⟩

theorem once_cons {k : Str} {ks : List Str} {o : Obj} : once (k :: ks) o = true ↔ One o k ∧ once ks o = true := by
  simp [once, One]

theorem cons_of {k : Str} {c : Codec A} {fs : Fields B} {o : Obj} {a : A} {b : B} :
    (Fields.cons k c fs).of o = some (a, b) ↔ readField o k c = some a ∧ fs.of o = some b := by
  show ((readField o k c).bind fun a => (fs.of o).map fun b => (a, b)) = some (a, b) ↔ _
  cases readField o k c <;> cases fs.of o <;> simp

theorem cons_all {k : Str} {c : Codec A} {fs : Fields B} {o : Obj} {a : A} {b : B} :
    (once (Fields.cons k c fs).keys o = true ∧ (Fields.cons k c fs).of o = some (a, b)) ↔
      (One o k ∧ readField o k c = some a) ∧ once fs.keys o = true ∧ fs.of o = some b := by
  show (once (k :: fs.keys) o = true ∧ _) ↔ _
  rw [once_cons, cons_of]
  constructor
  · rintro ⟨⟨h1, h2⟩, h3, h4⟩; exact ⟨⟨h1, h3⟩, h2, h4⟩
  · rintro ⟨⟨h1, h3⟩, h2, h4⟩; exact ⟨⟨h1, h2⟩, h3, h4⟩

theorem nil_all {o : Obj} {u : Unit} : (once Fields.nil.keys o = true ∧ Fields.nil.of o = some u) ↔ True := by
  simp [once, Fields.nil]

theorem struct_obj {fs : Fields A} {f : B → A} {g : A → B} (hg : ∀ a, f (g a) = a) (hf : ∀ b, g (f b) = b) {o : Obj} {b : B} :
    (struct fs f g).of (.obj o) = some b ↔ once fs.keys o = true ∧ fs.of o = some (f b) := by
  show (if once fs.keys o then (fs.of o).map g else none) = some b ↔ _
  split
  · rename_i h
    simp only [h, true_and]
    constructor
    · intro h
      obtain ⟨a, ha, rfl⟩ := Option.map_eq_some_iff.1 h
      rw [hg, ha]
    · intro h
      rw [h, Option.map_some, hf]
  · rename_i h
    simp [h]

theorem struct_arr {fs : Fields A} {f : B → A} {g : A → B} (hg : ∀ a, f (g a) = a) (hf : ∀ b, g (f b) = b) {l : List J} {b : B} :
    (struct fs f g).of (.arr l) = some b ↔ fs.seq l = some (f b) := by
  show (fs.seq l).map g = some b ↔ _
  constructor
  · intro h
    obtain ⟨a, ha, rfl⟩ := Option.map_eq_some_iff.1 h
    rw [hg, ha]
  · intro h
    rw [h, Option.map_some, hf]

theorem seq_cons {k : Str} {c : Codec A} {fs : Fields B} (he : c.atEnd = none) {l : List J} {a : A} {b : B} :
    (Fields.cons k c fs).seq l = some (a, b) ↔ ∃ j l', l = j :: l' ∧ c.of j = some a ∧ fs.seq l' = some b := by
  cases l with
  | nil =>
    show (c.atEnd.bind _) = _ ↔ _
    rw [he]
    simp
  | cons j l =>
    show ((c.of j).bind fun a => (fs.seq l).map fun b => (a, b)) = some (a, b) ↔ _
    simp only [List.cons.injEq]
    cases h1 : c.of j <;> cases h2 : fs.seq l <;> simp only [Option.bind_none, Option.bind_some, Option.map_none, Option.map_some]
    · refine ⟨nofun, ?_⟩
      rintro ⟨_, _, ⟨rfl, rfl⟩, h3, -⟩
      rw [h1] at h3; cases h3
    · refine ⟨nofun, ?_⟩
      rintro ⟨_, _, ⟨rfl, rfl⟩, h3, -⟩
      rw [h1] at h3; cases h3
    · refine ⟨nofun, ?_⟩
      rintro ⟨_, _, ⟨rfl, rfl⟩, -, h3⟩
      rw [h2] at h3; cases h3
    · constructor
      · intro h
        cases h
        exact ⟨j, l, ⟨rfl, rfl⟩, h1, h2⟩
      · rintro ⟨_, _, ⟨rfl, rfl⟩, h3, h4⟩
        rw [h1] at h3; rw [h2] at h4
        cases h3; cases h4; rfl

theorem seq_nil {l : List J} {u : Unit} : Fields.nil.seq l = some u ↔ l = [] := by
  cases l <;> simp [Fields.nil]

theorem range_means : Means range SaysRange := fun j x => by
  obtain ⟨a, b⟩ := x
  unfold range
  cases j with
  | obj o =>
    rw [struct_obj (fun _ => rfl) (fun _ => rfl), cons_all, cons_all, nil_all, mandatory text_means rfl, mandatory text_means rfl]
    constructor
    · rintro ⟨⟨v, h1, h2⟩, ⟨w, h3, h4⟩, -⟩
      cases h2; cases h4
      exact .object h1 h3
    · intro h
      cases h with
      | object h1 h2 => exact ⟨⟨_, h1, .intro _⟩, ⟨_, h2, .intro _⟩, trivial⟩
  | arr l =>
    rw [struct_arr (fun _ => rfl) (fun _ => rfl), seq_cons rfl]
    simp only [seq_cons (c := Codec.text) rfl, seq_nil]
    constructor
    · rintro ⟨_, _, rfl, h1, _, _, rfl, h2, rfl⟩
      cases (text_means _ _).1 h1; cases (text_means _ _).1 h2
      exact .array ..
    · intro h
      cases h
      exact ⟨_, _, rfl, rfl, _, _, rfl, rfl, rfl⟩
  | _ => exact ⟨nofun, nofun⟩

theorem def_means : Means squawkDef SaysDef := fun j x => by
  obtain ⟨⟨code, rng, message⟩, colour⟩ := x
  unfold squawkDef
  cases j with
  | obj o =>
    rw [struct_obj (fun _ => rfl) (fun _ => rfl), cons_all, cons_all, cons_all, cons_all, nil_all, optional text_means rfl,
      optional range_means rfl, mandatory text_means rfl, mandatory colour_means rfl]
    constructor
    · rintro ⟨h1, h2, ⟨v, h3, h4⟩, ⟨w, h5, h6⟩, -⟩
      cases h4
      exact .object h1 h2 h3 h5 h6
    · intro h
      cases h with
      | object h1 h2 h3 h4 h5 => exact ⟨h1, h2, ⟨_, h3, .intro _⟩, ⟨_, h4, h5⟩, trivial⟩
  | arr l =>
    rw [struct_arr (fun _ => rfl) (fun _ => rfl), seq_cons rfl]
    simp only [seq_cons (c := Codec.text) rfl, seq_cons (c := Codec.opt range) rfl, seq_cons (c := Codec.colour) rfl, seq_nil]
    constructor
    · rintro ⟨_, _, rfl, h1, _, _, rfl, h2, _, _, rfl, h3, _, _, rfl, h4, rfl⟩
      cases (text_means _ _).1 h3
      exact .array ((opt_means text_means rfl _ _).1 h1) ((opt_means range_means rfl _ _).1 h2) ((colour_means _ _).1 h4)
    · intro h
      cases h with
      | array h1 h2 h3 =>
        exact ⟨_, _, rfl, (opt_means text_means rfl _ _).2 h1, _, _, rfl, (opt_means range_means rfl _ _).2 h2, _, _, rfl, rfl, _, _, rfl,
          (colour_means _ _).2 h3, rfl⟩
  | _ => exact ⟨nofun, nofun⟩

theorem read_iff (j : J) (x : SquawksJson) : readJson j = some x ↔ Says j x := by
  unfold readJson
  obtain ⟨colour, message, codes, squawks⟩ := x
  cases j with
  | obj o =>
    rw [struct_obj (fun _ => rfl) (fun _ => rfl), cons_all, cons_all, cons_all, cons_all, nil_all, mandatory colour_means rfl,
      mandatory text_means rfl, mandatory (list_means text_means) rfl, mandatory (list_means def_means) rfl]
    constructor
    · rintro ⟨⟨c, h1, h2⟩, ⟨v, h3, h4⟩, ⟨n, h5, h6⟩, ⟨s, h7, h8⟩, -⟩
      cases h4
      exact .object h1 h2 h3 h5 h6 h7 h8
    · intro h
      cases h with
      | object h1 h2 h3 h5 h6 h7 h8 => exact ⟨⟨_, h1, h2⟩, ⟨_, h3, .intro _⟩, ⟨_, h5, h6⟩, ⟨_, h7, h8⟩, trivial⟩
  | arr l =>
    rw [struct_arr (fun _ => rfl) (fun _ => rfl), seq_cons rfl]
    simp only [seq_cons (c := Codec.text) rfl, seq_cons (c := Codec.list Codec.text) rfl, seq_cons (c := Codec.list squawkDef) rfl, seq_nil]
    constructor
    · rintro ⟨_, _, rfl, h1, _, _, rfl, h2, _, _, rfl, h3, _, _, rfl, h4, rfl⟩
      cases (text_means _ _).1 h2
      exact .array (x := ⟨colour, _, codes, squawks⟩) ((colour_means _ _).1 h1) ((list_means text_means _ _).1 h3) ((list_means def_means _ _).1 h4)
    · intro h
      cases h with
      | array h1 h2 h3 =>
        exact ⟨_, _, rfl, (colour_means _ _).2 h1, _, _, rfl, rfl, _, _, rfl, (list_means text_means _ _).2 h2, _, _, rfl,
          (list_means def_means _ _).2 h3, rfl⟩
  | _ => exact ⟨nofun, nofun⟩

end Verif.Proofs.Squawks
