import Verif.Model.AdaptationJson
import Verif.Props.Colours
import Verif.Proofs.Json
import Verif.Spec.Schema
/-!
# The values of an adaptation are read from the JSON that the specification accepts
-/

namespace Verif.Proofs.Accepts
open Verif.Json Verif.Spec.Schema
open Verif.Display (F32Ops)

/-- A value of this type is read exactly if the specification accepts it. -/
structure Reads {A : Type} (c : Codec A) (s : Shape) : Prop where
  of : ∀ j, (c.of j).isSome = true ↔ Accepts s j
  missing : c.missing.isSome = true ↔ s.leftOut.isSome = true
  atEnd : c.atEnd.isSome = true ↔ s.ended.isSome = true
  same : ∀ j j', Completes s j j' → c.of j = c.of j'
  leftOut : ∀ d, s.leftOut = some d → c.missing = c.of d
  ended : ∀ d, s.ended = some d → c.atEnd = c.of d

/-- The same for fields -/
structure ReadsFields {A : Type} (fs : Fields A) (l : List (Str × Shape)) : Prop where
  of : ∀ o, (fs.of o).isSome = true ↔ AcceptsRecord l o
  seq : ∀ js, (fs.seq js).isSome = true ↔ AcceptsSequence l js
  same : ∀ o o', CompletesRecord l o o' → fs.of o = fs.of o'
  sameSeq : ∀ js o', CompletesSequence l js o' → fs.seq js = fs.of o'

variable {A B : Type}

theorem never : (none : Option A).isSome = true ↔ (none : Option J).isSome = true := by simp

/-- Nothing can be left out of the value itself. -/
theorem Reads.whole {c : Codec A} {s : Shape} (hl : s.leftOut = none) (he : s.ended = none) (hm : c.missing = none)
    (ha : c.atEnd = none) (h : ∀ j, (c.of j).isSome = true ↔ Accepts s j) (hs : ∀ j j', Completes s j j' → c.of j = c.of j') :
    Reads c s := ⟨h, by rw [hm, hl]; exact never, by rw [ha, he]; exact never, hs, by rw [hl]; nofun, by rw [he]; nofun⟩

/-- The same for a value that has no parts -/
theorem Reads.plain {c : Codec A} {s : Shape} (hl : s.leftOut = none) (he : s.ended = none) (hm : c.missing = none)
    (ha : c.atEnd = none) (hs : ∀ j j', Completes s j j' → j = j') (h : ∀ j, (c.of j).isSome = true ↔ Accepts s j) :
    Reads c s := .whole hl he hm ha h fun j j' hj => hs j j' hj ▸ rfl

/-- A value that is neither of the two is not accepted. -/
local macro "refuse" : tactic => `(tactic| exact ⟨nofun, fun h => by cases h⟩)

theorem text_reads : Reads Codec.text .text := .plain rfl rfl rfl rfl (fun j j' h => by cases h; rfl) fun j => by
  cases j with
  | str s => exact ⟨fun _ => .text s, fun _ => rfl⟩
  | _ => refuse

theorem path_reads : Reads Codec.path .text := .plain rfl rfl rfl rfl (fun j j' h => by cases h; rfl) fun j => by
  cases j with
  | str s => exact ⟨fun _ => .text s, fun _ => rfl⟩
  | _ => refuse

theorem bool_reads : Reads Codec.bool .flag := .plain rfl rfl rfl rfl (fun j j' h => by cases h; rfl) fun j => by
  cases j with
  | bool s => exact ⟨fun _ => .flag s, fun _ => rfl⟩
  | _ => refuse

theorem phantom_reads : Reads AdaptationJson.phantom .null := .plain rfl rfl rfl rfl (fun j j' h => by cases h; rfl) fun j => by
  cases j with
  | null => exact ⟨fun _ => .null, fun _ => rfl⟩
  | _ => refuse

theorem float_reads [JsonFloat A] : Reads (Codec.float (A := A)) .number := .plain rfl rfl rfl rfl (fun j j' h => by cases h; rfl) fun j => by
  cases j with
  | num q => exact ⟨fun _ => .number q, fun _ => rfl⟩
  | _ => refuse

theorem integer_iff {lo hi : Int} {q : Rat} : Accepts (.integer lo hi) (.num q) ↔ q.den = 1 ∧ lo ≤ q.num ∧ q.num < hi := by
  constructor
  · intro h
    cases h with
    | integer h1 h2 => exact ⟨rfl, h1, h2⟩
  · rintro ⟨h0, h1, h2⟩
    have : q = ((q.num : Int) : Rat) := by
      apply Rat.ext <;> simp [h0]
    rw [this]
    exact .integer h1 h2

theorem int_reads (lo hi : Int) : Reads (Codec.int lo hi) (.integer lo hi) := .plain rfl rfl rfl rfl (fun j j' h => by cases h; rfl) fun j => by
  cases j with
  | num q =>
    rw [integer_iff]
    simp only [Codec.int]
    split <;> simp_all
  | _ => refuse

theorem nat_reads (hi : Nat) : Reads (Codec.nat hi) (.integer 0 hi) := .plain rfl rfl rfl rfl (fun j j' h => by cases h; rfl) fun j => by
  cases j with
  | num q =>
    rw [integer_iff]
    simp only [Codec.nat]
    split <;> simp_all
  | _ => refuse

theorem u8_reads : Reads Codec.u8 u8 := nat_reads (2 ^ 8)
theorem u32_reads : Reads Codec.u32 u32 := nat_reads (2 ^ 32)
theorem usize_reads : Reads Codec.usize usize := nat_reads (2 ^ 64)
theorem i32_reads : Reads Codec.i32 i32 := int_reads _ _
theorem i64_reads : Reads Codec.i64 i64 := int_reads _ _

theorem null_completes : ∀ {s : Shape} {j : J}, Completes s .null j → j = .null
  | .optional s, j, h => by
    cases h with
    | same => rfl
    | present h => exact null_completes h
  | .defaulted s d, j, h => by
    cases h with
    | same => rfl
    | defaulted h => exact null_completes h
  | .text, _, h | .flag, _, h | .null, _, h | .integer .., _, h | .number, _, h | .colour, _, h | .array _, _, h | .tuple _, _, h
  | .map _, _, h | .numbered _, _, h | .record _, _, h | .variant _ _, _, h => by cases h; rfl

theorem completes_null : ∀ {s : Shape} {j : J}, Completes s j .null → j = .null
  | .optional s, j, h => by
    cases h with
    | same => rfl
    | present h => exact completes_null h
  | .defaulted s d, j, h => by
    cases h with
    | same => rfl
    | defaulted h => exact completes_null h
  | .text, _, h | .flag, _, h | .null, _, h | .integer .., _, h | .number, _, h | .colour, _, h | .array _, _, h | .tuple _, _, h
  | .map _, _, h | .numbered _, _, h | .record _, _, h | .variant _ _, _, h => by cases h; rfl

theorem opt_of {c : Codec A} {j : J} (h : j ≠ .null) : (Codec.opt c).of j = (c.of j).map some := by
  cases j <;> first | exact absurd rfl h | rfl

theorem opt_reads {c : Codec A} {s : Shape} (h : Reads c s) : Reads (Codec.opt c) (.optional s) := ⟨fun j => by
  have h1 : j ≠ .null → ((Codec.opt c).of j).isSome = (c.of j).isSome := by
    intro hj
    cases j <;> first | exact absurd rfl hj | simp [Codec.opt]
  by_cases hj : j = .null
  · subst hj
    exact ⟨fun _ => .absent, fun _ => rfl⟩
  · rw [h1 hj, h.of]
    constructor
    · exact .present
    · intro h2
      cases h2 with
      | absent => exact absurd rfl hj
      | present h2 => exact h2, by simp [Codec.opt, Shape.leftOut], never, fun j j' hj => by
  cases hj with
  | same => rfl
  | present hj =>
    by_cases h1 : j = .null
    · rw [h1] at hj ⊢
      rw [null_completes hj]
    · have h2 : j' ≠ .null := fun e => h1 (completes_null (e ▸ hj))
      rw [opt_of h1, opt_of h2, h.same _ _ hj], fun d hd => by cases hd; rfl, nofun⟩

theorem mapM_isSome {C D : Type} {f : C → Option D} {l : List C} : (l.mapM f).isSome = true ↔ ∀ a ∈ l, (f a).isSome = true := by
  induction l with
  | nil => simp
  | cons a l ih =>
    rw [List.mapM_cons, List.forall_mem_cons, ← ih]
    cases f a with
    | none => simp
    | some b => cases l.mapM f <;> simp

theorem each_same {c : Codec A} {s : Shape} (h : Reads c s) {l l' : List J} (hl : CompletesEach s l l') :
    l.mapM c.of = l'.mapM c.of := by
  induction l generalizing l' with
  | nil => cases hl; rfl
  | cons j l ih =>
    cases hl with
    | cons h1 h2 => rw [List.mapM_cons, List.mapM_cons, h.same _ _ h1, ih h2]

theorem list_reads {c : Codec A} {s : Shape} (h : Reads c s) : Reads (Codec.list c) (.array s) := .whole rfl rfl rfl rfl (fun j => by
  cases j with
  | arr l =>
    show (l.mapM c.of).isSome = true ↔ _
    rw [mapM_isSome]
    exact ⟨fun hl => .array fun j hj => (h.of j).1 (hl j hj), fun hl => by
      cases hl with
      | array hl => exact fun j hj => (h.of j).2 (hl j hj)⟩
  | _ => refuse) fun j j' hj => by
  cases hj with
  | same => rfl
  | array hl => exact each_same h hl

theorem entries_same {s : Shape} {B : Type} {f : Str × J → Option B} (hf : ∀ k j j', Completes s j j' → f (k, j) = f (k, j'))
    {l l' : Obj} (hl : CompletesEntries s l l') : l.mapM f = l'.mapM f := by
  induction l generalizing l' with
  | nil => cases hl; rfl
  | cons j l ih =>
    cases hl with
    | cons h1 h2 => rw [List.mapM_cons, List.mapM_cons, hf _ _ _ h1, ih h2]

theorem map_reads {c : Codec A} {s : Shape} (h : Reads c s) : Reads (Codec.map c) (.map s) := .whole rfl rfl rfl rfl (fun j => by
  cases j with
  | obj o =>
    show (o.mapM fun e => (c.of e.2).map fun v => (e.1, v)).isSome = true ↔ _
    rw [mapM_isSome]
    simp only [Option.isSome_map]
    exact ⟨fun hl => .map fun j hj => (h.of _).1 (hl j hj), fun hl => by
      cases hl with
      | map hl => exact fun j hj => (h.of _).2 (hl j hj)⟩
  | _ => refuse) fun j j' hj => by
  cases hj with
  | same => rfl
  | map hl => exact entries_same (fun k j j' hj => by rw [h.same _ _ hj]) hl

theorem multiMap_reads {c : Codec A} {s : Shape} (h : Reads c s) : Reads (Codec.multiMap c) (.map (.array s)) :=
  map_reads (list_reads h)

theorem key_isSome {C : Type} {x : Option C} {s : Str} {D : Type} {f : Nat → C → D} :
    ((parseUnsigned 10 (2 ^ 64) s).bind fun k => if showNat k = s then x.map (f k) else none).isSome = true ↔
      (∃ n, n < 2 ^ 64 ∧ s = showNat n) ∧ x.isSome = true := by
  constructor
  · intro h
    cases hp : parseUnsigned 10 (2 ^ 64) s with
    | none => rw [hp] at h; cases h
    | some k =>
      rw [hp, Option.bind_some] at h
      split at h
      · rename_i hk
        refine ⟨⟨k, ?_, hk.symm⟩, by simpa using h⟩
        unfold parseUnsigned at hp
        split at hp
        · cases hp
        · simpa using (Option.filter_eq_some_iff.1 hp).2
      · cases h
  · rintro ⟨⟨n, hn, rfl⟩, hx⟩
    rw [Proofs.Json.parse_showNat hn, Option.bind_some, if_pos rfl]
    simpa using hx

theorem numMap_reads {c : Codec A} {s : Shape} (h : Reads c s) : Reads (Codec.numMap c) (.numbered s) := .whole rfl rfl rfl rfl (fun j => by
  cases j with
  | obj o =>
    show (o.mapM fun e : Str × J => (parseUnsigned 10 (2 ^ 64) e.1).bind fun k =>
      if showNat k = e.1 then (c.of e.2).map fun v => (k, v) else none).isSome = true ↔ _
    rw [mapM_isSome]
    simp only [key_isSome]
    exact ⟨fun hl => .numbered (fun j hj => (hl j hj).1) fun j hj => (h.of _).1 (hl j hj).2, fun hl => by
      cases hl with
      | numbered h1 h2 => exact fun j hj => ⟨h1 j hj, (h.of _).2 (h2 j hj)⟩⟩
  | _ => refuse) fun j j' hj => by
  cases hj with
  | same => rfl
  | numbered hl => exact entries_same (fun k j j' hj => by rw [h.same _ _ hj]) hl

theorem both_isSome {C D E : Type} {x : Option C} {y : Option D} {f : C → D → E} :
    (x.bind fun a => y.map fun b => f a b).isSome = true ↔ x.isSome = true ∧ y.isSome = true := by
  cases x <;> cases y <;> simp

theorem tuple_reads {c : Codec A} {d : Codec B} {s t : Shape} (hc : Reads c s) (hd : Reads d t) :
    Reads (Codec.tuple2 c d) (.tuple [s, t]) := .whole rfl rfl rfl rfl (fun j => by
  cases j with
  | arr l =>
    match l with
    | [] => exact ⟨nofun, fun h => by cases h with | tuple h => cases h⟩
    | [a] => exact ⟨nofun, fun h => by cases h with | tuple h => cases h with | cons _ h => cases h⟩
    | [a, b] =>
      show ((c.of a).bind fun a => (d.of b).map fun b => (a, b)).isSome = true ↔ _
      rw [both_isSome, hc.of, hd.of]
      exact ⟨fun h => .tuple (.cons h.1 (.cons h.2 .nil)), fun h => by
        cases h with | tuple h => cases h with | cons h1 h => cases h with | cons h2 _ => exact ⟨h1, h2⟩⟩
    | a :: b :: e :: l => exact ⟨nofun, fun h => by cases h with | tuple h => cases h with | cons _ h => cases h with | cons _ h => cases h⟩
  | _ => refuse) fun j j' hj => by
  cases hj with
  | same => rfl
  | tuple hl =>
    cases hl with
    | cons h1 hl =>
      cases hl with
      | cons h2 hl =>
        cases hl
        show ((c.of _).bind fun a => (d.of _).map fun b => (a, b)) = ((c.of _).bind fun a => (d.of _).map fun b => (a, b))
        rw [hc.same _ _ h1, hd.same _ _ h2]

theorem iso_reads {c : Codec A} {s : Shape} (h : Reads c s) (f : B → A) (g : A → B) : Reads (Codec.iso c f g) s where
  of j := by rw [← h.of]; simp [Codec.iso]
  missing := by rw [← h.missing]; simp [Codec.iso]
  atEnd := by rw [← h.atEnd]; simp [Codec.iso]
  same j j' hj := by simp only [Codec.iso]; rw [h.same _ _ hj]
  leftOut d hd := by simp only [Codec.iso]; rw [h.leftOut _ hd]
  ended d hd := by simp only [Codec.iso]; rw [h.ended _ hd]

theorem orDefault_reads {c : Codec A} {s : Shape} (h : Reads c s) {a : A} {d : J} (hd : c.of d = some a) :
    Reads (Codec.orDefault c a) (.defaulted s d) where
  of j := by
    show (c.of j).isSome = true ↔ _
    rw [h.of]
    exact ⟨.defaulted, fun h => by cases h; assumption⟩
  missing := by simp [Codec.orDefault, Shape.leftOut]
  atEnd := by simp [Codec.orDefault, Shape.ended]
  same j j' hj := by
    cases hj with
    | same => rfl
    | defaulted hj => exact h.same _ _ hj
  leftOut d' h' := by cases h'; exact hd.symm
  ended d' h' := by cases h'; exact hd.symm

theorem nil_reads : ReadsFields .nil [] where
  of o := ⟨fun _ => .nil o, fun _ => rfl⟩
  seq js := by
    cases js with
    | nil => exact ⟨fun _ => .nil, fun _ => rfl⟩
    | cons => refuse
  same _ _ _ := rfl
  sameSeq js o' h := by cases h; rfl

theorem cons_reads {k : Str} {c : Codec A} {fs : Fields B} {s : Shape} {l : List (Str × Shape)} (hc : Reads c s)
    (hf : ReadsFields fs l) : ReadsFields (.cons k c fs) ((k, s) :: l) := ⟨fun o => by
  show ((readField o k c).bind fun a => (fs.of o).map fun b => (a, b)).isSome = true ↔ _
  rw [both_isSome, hf.of]
  unfold readField
  cases hk : Map.get? o k with
  | none =>
    show c.missing.isSome = true ∧ _ ↔ _
    rw [hc.missing]
    exact ⟨fun h => .missing hk h.1 h.2, fun h => by
      cases h with
      | found h1 => rw [hk] at h1; cases h1
      | missing _ h2 h3 => exact ⟨h2, h3⟩⟩
  | some j =>
    show (c.of j).isSome = true ∧ _ ↔ _
    rw [hc.of]
    exact ⟨fun h => .found hk h.1 h.2, fun h => by
      cases h with
      | found h1 h2 h3 => rw [hk] at h1; cases h1; exact ⟨h2, h3⟩
      | missing h1 => rw [hk] at h1; cases h1⟩, fun js => by
  cases js with
  | nil =>
    show (c.atEnd.bind fun a => (fs.seq []).map fun b => (a, b)).isSome = true ↔ _
    rw [both_isSome, hf.seq, hc.atEnd]
    exact ⟨fun h => .ended h.1 h.2, fun h => by cases h with | ended h1 h2 => exact ⟨h1, h2⟩⟩
  | cons j js =>
    show ((c.of j).bind fun a => (fs.seq js).map fun b => (a, b)).isSome = true ↔ _
    rw [both_isSome, hf.seq, hc.of]
    exact ⟨fun h => .cons h.1 h.2, fun h => by cases h with | cons h1 h2 => exact ⟨h1, h2⟩⟩, fun o o' h => by
  show ((readField o k c).bind fun a => (fs.of o).map fun b => (a, b)) = ((readField o' k c).bind fun a => (fs.of o').map fun b => (a, b))
  unfold readField
  cases h with
  | found h1 h2 h3 h4 => rw [h1, h2, hf.same _ _ h4]; simp only; rw [hc.same _ _ h3]
  | missing h1 h2 h3 h4 => rw [h1, h3, hf.same _ _ h4]; simp only; rw [hc.leftOut _ h2]
  | neither h1 h2 h3 => rw [h1, h2, hf.same _ _ h3], fun js o' h => by
  cases h with
  | cons h1 h2 h3 =>
    show ((c.of _).bind fun a => (fs.seq _).map fun b => (a, b)) = ((readField o' k c).bind fun a => (fs.of o').map fun b => (a, b))
    unfold readField
    rw [h2, hf.sameSeq _ _ h3, hc.same _ _ h1]
  | ended h1 h2 h3 =>
    show (c.atEnd.bind fun a => (fs.seq []).map fun b => (a, b)) = ((readField o' k c).bind fun a => (fs.of o').map fun b => (a, b))
    unfold readField
    rw [h2, hf.sameSeq _ _ h3, hc.ended _ h1]⟩

theorem struct_reads {fs : Fields A} {l : List (Str × Shape)} (h : ReadsFields fs l) (f : B → A) (g : A → B) :
    Reads (fs.struct f g) (.record l) := .whole rfl rfl rfl rfl (fun j => by
  cases j with
  | obj o =>
    show ((fs.of o).map g).isSome = true ↔ _
    rw [Option.isSome_map, h.of]
    exact ⟨.record, fun h => by cases h; assumption⟩
  | arr js =>
    show ((fs.seq js).map g).isSome = true ↔ _
    rw [Option.isSome_map, h.seq]
    exact ⟨.sequence, fun h => by cases h; assumption⟩
  | _ => refuse) fun j j' hj => by
  cases hj with
  | same => rfl
  | record hr => show (fs.of _).map g = (fs.of _).map g; rw [h.same _ _ hr]
  | sequence hr => show (fs.seq _).map g = (fs.of _).map g; rw [h.sameSeq _ _ hr]

theorem enum_reads {all : List A} {name : A → Str} {names : List Str} (h : all.map name = names) :
    Reads (Codec.enum all name) (.variant names []) := by
  have hf : ∀ s, (all.find? fun a => name a = s).isSome = true ↔ s ∈ names := by
    intro s
    rw [List.find?_isSome, ← h]
    simp
  refine .whole rfl rfl rfl rfl (fun j => ?_) fun j j' hj => by
    cases hj with
    | same => rfl
    | plainNull => rfl
    | tagged h _ => cases h
  cases j with
  | str s =>
    show (all.find? fun a => name a = s).isSome = true ↔ _
    rw [hf]
    exact ⟨.plain, fun h => by cases h; assumption⟩
  | obj o =>
    match o with
    | [] => refuse
    | [(s, .null)] =>
      show (all.find? fun a => name a = s).isSome = true ↔ _
      rw [hf]
      exact ⟨.plainNull, fun h => by
        cases h with
        | plainNull h => exact h
        | tagged h _ => cases h⟩
    | [(s, .bool _)] | [(s, .num _)] | [(s, .str _)] | [(s, .arr _)] | [(s, .obj _)] => exact ⟨fun h => by simp [Codec.enum] at h, fun h => by
        cases h with
        | tagged h _ => cases h⟩
    | _ :: _ :: _ => exact ⟨fun h => (by simp [Codec.enum] at h), fun h => (by cases h)⟩
  | _ => refuse

theorem mem_hexDigits {c : Char} : c ∈ anyHexDigits ↔ Colours.isHex c = true := by
  constructor
  · intro h
    have : ∀ c ∈ anyHexDigits, Colours.isHex c = true := by decide +kernel
    exact this c h
  · intro h
    obtain ⟨v, hv⟩ := Colours.mem_hexTable_of_isHex h
    have : ∀ p ∈ Colours.hexTable, p.1 ∈ anyHexDigits := by decide +kernel
    exact this _ hv

theorem colour_reads : Reads Codec.colour .colour := .plain rfl rfl rfl rfl (fun j j' h => by cases h; rfl) fun j => by
  cases j with
  | str s =>
    show (Colours.deserialize s).isSome = true ↔ _
    constructor
    · intro h
      obtain ⟨c, hc⟩ := Option.isSome_iff_exists.1 h
      obtain ⟨⟨r1, r0, g1, g0, b1, b0, h1, h2, h3, h4, h5, h6, rfl, -⟩, -⟩ := (Colours.C35_deserialize_iff _ _).1 hc
      have : ∀ p ∈ Colours.hexTable, p.1 ∈ anyHexDigits := by decide +kernel
      refine .colour rfl fun c hc => ?_
      simp only [List.mem_cons, List.not_mem_nil, or_false] at hc
      rcases hc with rfl | rfl | rfl | rfl | rfl | rfl <;> exact this _ (by assumption)
    · intro h
      cases h with
      | @colour s hl hs =>
        match s, hl, hs with
        | [a, b, c, d, e, f], _, hs =>
          simp only [mem_hexDigits, List.forall_mem_cons] at hs
          obtain ⟨ha, hb, hc, hd, he, hf, -⟩ := hs
          obtain ⟨va, ha⟩ := Colours.mem_hexTable_of_isHex ha
          obtain ⟨vb, hb⟩ := Colours.mem_hexTable_of_isHex hb
          obtain ⟨vc, hc⟩ := Colours.mem_hexTable_of_isHex hc
          obtain ⟨vd, hd⟩ := Colours.mem_hexTable_of_isHex hd
          obtain ⟨ve, he⟩ := Colours.mem_hexTable_of_isHex he
          obtain ⟨vf, hf⟩ := Colours.mem_hexTable_of_isHex hf
          have lt := Colours.hexTable_lt
          have l1 := lt _ ha; have l2 := lt _ hb; have l3 := lt _ hc; have l4 := lt _ hd; have l5 := lt _ he; have l6 := lt _ hf
          simp only at l1 l2 l3 l4 l5 l6
          refine Option.isSome_iff_exists.2 ⟨⟨⟨16 * va + vb, by omega⟩, ⟨16 * vc + vd, by omega⟩, ⟨16 * ve + vf, by omega⟩, 255⟩,
            (Colours.C35_deserialize_iff _ _).2 ⟨⟨_, _, _, _, _, _, ha, hb, hc, hd, he, hf, rfl, rfl, rfl, rfl⟩, rfl⟩⟩
  | _ => refuse

/-! ## Variants -/

/-- What is read of a variant -/
structure ReadsAs (f : J → Option A) (s : Shape) : Prop where
  of : ∀ j, (f j).isSome = true ↔ Accepts s j
  same : ∀ j j', Completes s j j' → f j = f j'

/-- The readers of variants accept the shapes of the variants. -/
inductive ReadsTable : List (Str × (J → Option A)) → List (Str × Shape) → Prop
  | nil : ReadsTable [] []
  | cons {k : Str} {f : J → Option A} {s : Shape} {l : List (Str × (J → Option A))} {t : List (Str × Shape)} :
    ReadsAs f s → ReadsTable l t → ReadsTable ((k, f) :: l) ((k, s) :: t)

theorem ReadsTable.get {l : List (Str × (J → Option A))} {t : List (Str × Shape)} (h : ReadsTable l t) {k : Str} {s : Shape}
    (hs : Map.get? t k = some s) : ∃ f, Map.get? l k = some f ∧ ReadsAs f s := by
  induction h with
  | nil => cases hs
  | @cons k' f s' l t hf h ih =>
    by_cases hk : k' = k
    · subst hk
      simp only [Map.get?, if_true, Option.some.injEq] at hs ⊢
      exact ⟨f, rfl, hs ▸ hf⟩
    · simp only [Map.get?, if_neg hk] at hs ⊢
      exact ih hs

theorem ReadsTable.get_none {l : List (Str × (J → Option A))} {t : List (Str × Shape)} (h : ReadsTable l t) {k : Str}
    (hs : Map.get? t k = none) : Map.get? l k = none := by
  induction h with
  | nil => rfl
  | @cons k' f s' l t hf h ih =>
    by_cases hk : k' = k
    · subst hk
      simp [Map.get?] at hs
    · simp only [Map.get?, if_neg hk] at hs ⊢
      exact ih hs

theorem readVariant_isSome {l : List (Str × (J → Option A))} {t : List (Str × Shape)} (h : ReadsTable l t)
    (hn : (Map.keys t).Nodup) {k : Str} {j : J} :
    (readVariant l (.obj [(k, j)])).isSome = true ↔ ∃ s, (k, s) ∈ t ∧ Accepts s j := by
  show ((Map.get? l k).bind fun f => f j).isSome = true ↔ _
  cases hk : Map.get? t k with
  | none =>
    rw [h.get_none hk]
    refine ⟨nofun, ?_⟩
    rintro ⟨s, hs, -⟩
    rw [Map.get?_of_mem hn hs] at hk
    cases hk
  | some s =>
    obtain ⟨f, hf, ha⟩ := h.get hk
    rw [hf, Option.bind_some, ha.of]
    refine ⟨fun h => ⟨s, Map.mem_of_get? hk, h⟩, ?_⟩
    rintro ⟨s', hs, h⟩
    rw [Map.get?_of_mem hn hs] at hk
    cases hk
    exact h

theorem readVariant_same {l : List (Str × (J → Option A))} {t : List (Str × Shape)} (h : ReadsTable l t)
    (hn : (Map.keys t).Nodup) {k : Str} {s : Shape} (hs : (k, s) ∈ t) {j j' : J} (hj : Completes s j j') :
    readVariant l (.obj [(k, j)]) = readVariant l (.obj [(k, j')]) := by
  show ((Map.get? l k).bind fun f => f j) = ((Map.get? l k).bind fun f => f j')
  obtain ⟨f, hf, ha⟩ := h.get (Map.get?_of_mem hn hs)
  rw [hf, Option.bind_some, Option.bind_some, ha.same _ _ hj]

theorem readVariant_not {l : List (Str × (J → Option A))} {j : J} (h : ∀ k v, j ≠ .obj [(k, v)]) : readVariant l j = none := by
  unfold readVariant
  split
  · exact absurd rfl (h _ _)
  · rfl

theorem variants_read {c : Codec A} {l : List (Str × (J → Option A))} {t : List (Str × Shape)} (h : ReadsTable l t)
    (hn : (Map.keys t).Nodup) (hc : c.of = readVariant l) (hm : c.missing = none) (ha : c.atEnd = none) :
    Reads c (.variant [] t) := by
  refine .whole rfl rfl hm ha (fun j => ?_) fun j j' hj => by
    rw [hc]
    cases hj with
    | same => rfl
    | plainNull h => cases h
    | tagged h1 h2 => exact readVariant_same h hn h1 h2
  rw [hc]
  by_cases hj : ∃ k v, j = .obj [(k, v)]
  · obtain ⟨k, v, rfl⟩ := hj
    rw [readVariant_isSome h hn]
    exact ⟨fun ⟨s, h1, h2⟩ => .tagged h1 h2, fun h => by
      cases h with
      | plainNull h => cases h
      | tagged h1 h2 => exact ⟨_, h1, h2⟩⟩
  · rw [readVariant_not fun k v e => hj ⟨k, v, e⟩]
    exact ⟨nofun, fun h => by
      cases h with
      | plain h => cases h
      | plainNull h => cases h
      | tagged => exact absurd ⟨_, _, rfl⟩ hj⟩

theorem null_iff {j : J} : Accepts .null j ↔ j = .null := ⟨fun h => by cases h; rfl, fun h => h ▸ .null⟩

theorem tuple_iff {ss : List Shape} {j : J} : Accepts (.tuple ss) j ↔ ∃ l, j = .arr l ∧ AcceptsAll ss l :=
  ⟨fun h => by cases h with | tuple h => exact ⟨_, rfl, h⟩, fun ⟨_, e, h⟩ => e ▸ .tuple h⟩

theorem all_nil {l : List J} : AcceptsAll [] l ↔ l = [] := ⟨fun h => by cases h; rfl, fun h => h ▸ .nil⟩

theorem all_cons {s : Shape} {ss : List Shape} {l : List J} :
    AcceptsAll (s :: ss) l ↔ ∃ j l', l = j :: l' ∧ Accepts s j ∧ AcceptsAll ss l' :=
  ⟨fun h => by cases h with | cons h1 h2 => exact ⟨_, _, rfl, h1, h2⟩, fun ⟨_, _, e, h1, h2⟩ => e ▸ .cons h1 h2⟩

theorem entry_reads {c : Codec A} {s : Shape} (h : Reads c s) (f : A → B) : ReadsAs (fun j => (c.of j).map f) s :=
  ⟨fun j => by rw [Option.isSome_map, h.of], fun j j' hj => by rw [h.same _ _ hj]⟩

/-- A variant with 2 fields -/
theorem entry2_reads {A1 A2 D : Type} {c1 : Codec A1} {c2 : Codec A2} {s1 s2 : Shape}
    (h1 : Reads c1 s1) (h2 : Reads c2 s2) {g : A1 → A2 → D} {f : J → Option D}
    (hf : ∀ a1 a2, f (.arr [a1, a2]) = (c1.of a1).bind fun a1 => (c2.of a2).map fun a2 => g a1 a2)
    (hn : ∀ j, (∀ a1 a2, j ≠ .arr [a1, a2]) → f j = none) :
    ReadsAs f (.tuple [s1, s2]) := by
  refine ⟨fun j => ?_, fun j j' hj => ?_⟩
  · rw [tuple_iff]
    by_cases hj : ∃ a1 a2, j = .arr [a1, a2]
    · obtain ⟨a1, a2, rfl⟩ := hj
      rw [hf]
      have : ((c1.of a1).bind fun a1 => (c2.of a2).map fun a2 => g a1 a2).isSome = true ↔ (c1.of a1).isSome = true ∧ (c2.of a2).isSome = true := by
        cases c1.of a1 <;> cases c2.of a2 <;> simp
      rw [this, h1.of, h2.of]
      simp only [all_cons, all_nil, J.arr.injEq]
      constructor
      · rintro ⟨e1, e2⟩
        exact ⟨_, rfl, _, _, rfl, e1, _, _, rfl, e2, rfl⟩
      · rintro ⟨_, e, _, _, rfl, e1, _, _, rfl, e2, rfl⟩
        cases e
        exact ⟨e1, e2⟩
    · rw [hn j fun a1 a2 e => hj ⟨a1, a2, e⟩]
      simp only [all_cons, all_nil]
      refine ⟨nofun, ?_⟩
      rintro ⟨_, e, _, _, rfl, -, _, _, rfl, -, rfl⟩
      exact absurd ⟨_, _, e⟩ hj
  · cases hj with
    | same => rfl
    | tuple hl =>
      cases hl with
      | cons e1 hl =>
        cases hl with
        | cons e2 hl =>
          cases hl
          rw [hf, hf, h1.same _ _ e1, h2.same _ _ e2]

/-- A variant with 3 fields -/
theorem entry3_reads {A1 A2 A3 D : Type} {c1 : Codec A1} {c2 : Codec A2} {c3 : Codec A3} {s1 s2 s3 : Shape}
    (h1 : Reads c1 s1) (h2 : Reads c2 s2) (h3 : Reads c3 s3) {g : A1 → A2 → A3 → D} {f : J → Option D}
    (hf : ∀ a1 a2 a3, f (.arr [a1, a2, a3]) = (c1.of a1).bind fun a1 => (c2.of a2).bind fun a2 => (c3.of a3).map fun a3 => g a1 a2 a3)
    (hn : ∀ j, (∀ a1 a2 a3, j ≠ .arr [a1, a2, a3]) → f j = none) :
    ReadsAs f (.tuple [s1, s2, s3]) := by
  refine ⟨fun j => ?_, fun j j' hj => ?_⟩
  · rw [tuple_iff]
    by_cases hj : ∃ a1 a2 a3, j = .arr [a1, a2, a3]
    · obtain ⟨a1, a2, a3, rfl⟩ := hj
      rw [hf]
      have : ((c1.of a1).bind fun a1 => (c2.of a2).bind fun a2 => (c3.of a3).map fun a3 => g a1 a2 a3).isSome = true ↔ (c1.of a1).isSome = true ∧ (c2.of a2).isSome = true ∧ (c3.of a3).isSome = true := by
        cases c1.of a1 <;> cases c2.of a2 <;> cases c3.of a3 <;> simp
      rw [this, h1.of, h2.of, h3.of]
      simp only [all_cons, all_nil, J.arr.injEq]
      constructor
      · rintro ⟨e1, e2, e3⟩
        exact ⟨_, rfl, _, _, rfl, e1, _, _, rfl, e2, _, _, rfl, e3, rfl⟩
      · rintro ⟨_, e, _, _, rfl, e1, _, _, rfl, e2, _, _, rfl, e3, rfl⟩
        cases e
        exact ⟨e1, e2, e3⟩
    · rw [hn j fun a1 a2 a3 e => hj ⟨a1, a2, a3, e⟩]
      simp only [all_cons, all_nil]
      refine ⟨nofun, ?_⟩
      rintro ⟨_, e, _, _, rfl, -, _, _, rfl, -, _, _, rfl, -, rfl⟩
      exact absurd ⟨_, _, _, e⟩ hj
  · cases hj with
    | same => rfl
    | tuple hl =>
      cases hl with
      | cons e1 hl =>
        cases hl with
        | cons e2 hl =>
          cases hl with
          | cons e3 hl =>
            cases hl
            rw [hf, hf, h1.same _ _ e1, h2.same _ _ e2, h3.same _ _ e3]

/-- A variant with 4 fields -/
theorem entry4_reads {A1 A2 A3 A4 D : Type} {c1 : Codec A1} {c2 : Codec A2} {c3 : Codec A3} {c4 : Codec A4} {s1 s2 s3 s4 : Shape}
    (h1 : Reads c1 s1) (h2 : Reads c2 s2) (h3 : Reads c3 s3) (h4 : Reads c4 s4) {g : A1 → A2 → A3 → A4 → D} {f : J → Option D}
    (hf : ∀ a1 a2 a3 a4, f (.arr [a1, a2, a3, a4]) = (c1.of a1).bind fun a1 => (c2.of a2).bind fun a2 => (c3.of a3).bind fun a3 => (c4.of a4).map fun a4 => g a1 a2 a3 a4)
    (hn : ∀ j, (∀ a1 a2 a3 a4, j ≠ .arr [a1, a2, a3, a4]) → f j = none) :
    ReadsAs f (.tuple [s1, s2, s3, s4]) := by
  refine ⟨fun j => ?_, fun j j' hj => ?_⟩
  · rw [tuple_iff]
    by_cases hj : ∃ a1 a2 a3 a4, j = .arr [a1, a2, a3, a4]
    · obtain ⟨a1, a2, a3, a4, rfl⟩ := hj
      rw [hf]
      have : ((c1.of a1).bind fun a1 => (c2.of a2).bind fun a2 => (c3.of a3).bind fun a3 => (c4.of a4).map fun a4 => g a1 a2 a3 a4).isSome = true ↔ (c1.of a1).isSome = true ∧ (c2.of a2).isSome = true ∧ (c3.of a3).isSome = true ∧ (c4.of a4).isSome = true := by
        cases c1.of a1 <;> cases c2.of a2 <;> cases c3.of a3 <;> cases c4.of a4 <;> simp
      rw [this, h1.of, h2.of, h3.of, h4.of]
      simp only [all_cons, all_nil, J.arr.injEq]
      constructor
      · rintro ⟨e1, e2, e3, e4⟩
        exact ⟨_, rfl, _, _, rfl, e1, _, _, rfl, e2, _, _, rfl, e3, _, _, rfl, e4, rfl⟩
      · rintro ⟨_, e, _, _, rfl, e1, _, _, rfl, e2, _, _, rfl, e3, _, _, rfl, e4, rfl⟩
        cases e
        exact ⟨e1, e2, e3, e4⟩
    · rw [hn j fun a1 a2 a3 a4 e => hj ⟨a1, a2, a3, a4, e⟩]
      simp only [all_cons, all_nil]
      refine ⟨nofun, ?_⟩
      rintro ⟨_, e, _, _, rfl, -, _, _, rfl, -, _, _, rfl, -, _, _, rfl, -, rfl⟩
      exact absurd ⟨_, _, _, _, e⟩ hj
  · cases hj with
    | same => rfl
    | tuple hl =>
      cases hl with
      | cons e1 hl =>
        cases hl with
        | cons e2 hl =>
          cases hl with
          | cons e3 hl =>
            cases hl with
            | cons e4 hl =>
              cases hl
              rw [hf, hf, h1.same _ _ e1, h2.same _ _ e2, h3.same _ _ e3, h4.same _ _ e4]

/-- A variant with 5 fields -/
theorem entry5_reads {A1 A2 A3 A4 A5 D : Type} {c1 : Codec A1} {c2 : Codec A2} {c3 : Codec A3} {c4 : Codec A4} {c5 : Codec A5} {s1 s2 s3 s4 s5 : Shape}
    (h1 : Reads c1 s1) (h2 : Reads c2 s2) (h3 : Reads c3 s3) (h4 : Reads c4 s4) (h5 : Reads c5 s5) {g : A1 → A2 → A3 → A4 → A5 → D} {f : J → Option D}
    (hf : ∀ a1 a2 a3 a4 a5, f (.arr [a1, a2, a3, a4, a5]) = (c1.of a1).bind fun a1 => (c2.of a2).bind fun a2 => (c3.of a3).bind fun a3 => (c4.of a4).bind fun a4 => (c5.of a5).map fun a5 => g a1 a2 a3 a4 a5)
    (hn : ∀ j, (∀ a1 a2 a3 a4 a5, j ≠ .arr [a1, a2, a3, a4, a5]) → f j = none) :
    ReadsAs f (.tuple [s1, s2, s3, s4, s5]) := by
  refine ⟨fun j => ?_, fun j j' hj => ?_⟩
  · rw [tuple_iff]
    by_cases hj : ∃ a1 a2 a3 a4 a5, j = .arr [a1, a2, a3, a4, a5]
    · obtain ⟨a1, a2, a3, a4, a5, rfl⟩ := hj
      rw [hf]
      have : ((c1.of a1).bind fun a1 => (c2.of a2).bind fun a2 => (c3.of a3).bind fun a3 => (c4.of a4).bind fun a4 => (c5.of a5).map fun a5 => g a1 a2 a3 a4 a5).isSome = true ↔ (c1.of a1).isSome = true ∧ (c2.of a2).isSome = true ∧ (c3.of a3).isSome = true ∧ (c4.of a4).isSome = true ∧ (c5.of a5).isSome = true := by
        cases c1.of a1 <;> cases c2.of a2 <;> cases c3.of a3 <;> cases c4.of a4 <;> cases c5.of a5 <;> simp
      rw [this, h1.of, h2.of, h3.of, h4.of, h5.of]
      simp only [all_cons, all_nil, J.arr.injEq]
      constructor
      · rintro ⟨e1, e2, e3, e4, e5⟩
        exact ⟨_, rfl, _, _, rfl, e1, _, _, rfl, e2, _, _, rfl, e3, _, _, rfl, e4, _, _, rfl, e5, rfl⟩
      · rintro ⟨_, e, _, _, rfl, e1, _, _, rfl, e2, _, _, rfl, e3, _, _, rfl, e4, _, _, rfl, e5, rfl⟩
        cases e
        exact ⟨e1, e2, e3, e4, e5⟩
    · rw [hn j fun a1 a2 a3 a4 a5 e => hj ⟨a1, a2, a3, a4, a5, e⟩]
      simp only [all_cons, all_nil]
      refine ⟨nofun, ?_⟩
      rintro ⟨_, e, _, _, rfl, -, _, _, rfl, -, _, _, rfl, -, _, _, rfl, -, _, _, rfl, -, rfl⟩
      exact absurd ⟨_, _, _, _, _, e⟩ hj
  · cases hj with
    | same => rfl
    | tuple hl =>
      cases hl with
      | cons e1 hl =>
        cases hl with
        | cons e2 hl =>
          cases hl with
          | cons e3 hl =>
            cases hl with
            | cons e4 hl =>
              cases hl with
              | cons e5 hl =>
                cases hl
                rw [hf, hf, h1.same _ _ e1, h2.same _ _ e2, h3.same _ _ e3, h4.same _ _ e4, h5.same _ _ e5]

/-- What is already proved -/
syntax "readable" : tactic
macro_rules | `(tactic| readable) => `(tactic| fail)

/-- Goes through the combinators of a codec. -/
macro "reading" : tactic => `(tactic| repeat' first
  | exact text_reads | exact bool_reads | exact float_reads | exact colour_reads | exact u32_reads | exact usize_reads
  | exact u8_reads | exact i32_reads | exact i64_reads | exact path_reads | exact phantom_reads | exact nil_reads | readable
  | with_reducible apply iso_reads | with_reducible refine orDefault_reads ?_ rfl | apply struct_reads | apply cons_reads | apply opt_reads | apply multiMap_reads | apply list_reads | apply map_reads
  | apply tuple_reads | apply numMap_reads)

/-- The names of an enumeration -/
macro "listed" : tactic => `(tactic| exact enum_reads (by decide +kernel))

set_option linter.unusedSectionVars false

section
variable {F G : Type} [JsonFloat F] [JsonFloat G]

theorem point_reads : Reads (AdaptationJson.point (F := F)) point := by
  unfold AdaptationJson.point; reading
macro_rules | `(tactic| readable) => `(tactic| exact point_reads)

theorem point'_reads : Reads (AdaptationJson.point' (F := F)) point := by
  unfold AdaptationJson.point'; reading
macro_rules | `(tactic| readable) => `(tactic| exact point'_reads)

theorem multiLine_reads : Reads (AdaptationJson.multiLine (F := F)) lines := by
  unfold AdaptationJson.multiLine; reading
macro_rules | `(tactic| readable) => `(tactic| exact multiLine_reads)

theorem polygon_reads : Reads (AdaptationJson.polygon (F := F)) polygon := by
  unfold AdaptationJson.polygon; reading
macro_rules | `(tactic| readable) => `(tactic| exact polygon_reads)

theorem fix_reads : Reads (AdaptationJson.fix (F := F)) fix := by
  unfold AdaptationJson.fix; reading
macro_rules | `(tactic| readable) => `(tactic| exact fix_reads)

theorem navaid_reads : Reads (AdaptationJson.navaid (F := F)) navaid := by
  unfold AdaptationJson.navaid; reading
macro_rules | `(tactic| readable) => `(tactic| exact navaid_reads)

theorem runway_reads : Reads (AdaptationJson.runway (F := F)) runway := by
  unfold AdaptationJson.runway; reading
macro_rules | `(tactic| readable) => `(tactic| exact runway_reads)

theorem airport_reads : Reads (AdaptationJson.airport (F := F)) airport := by
  unfold AdaptationJson.airport; reading
macro_rules | `(tactic| readable) => `(tactic| exact airport_reads)

theorem procedure_reads : Reads (AdaptationJson.procedure (F := F)) procedure := by
  unfold AdaptationJson.procedure; reading
macro_rules | `(tactic| readable) => `(tactic| exact procedure_reads)

theorem airwayType_reads : Reads AdaptationJson.airwayType (.variant [c!"High", c!"Low", c!"Both", c!"Unknown"] []) := by
  listed
macro_rules | `(tactic| readable) => `(tactic| exact airwayType_reads)

theorem airwayEdge_reads : Reads AdaptationJson.airwayEdge airwayEdge := by
  unfold AdaptationJson.airwayEdge; reading
macro_rules | `(tactic| readable) => `(tactic| exact airwayEdge_reads)

theorem graphFix_reads : Reads (AdaptationJson.graphFix (F := F)) (.record [(c!"position", point), (c!"edges", .numbered (.array airwayEdge))]) := by
  unfold AdaptationJson.graphFix; reading
macro_rules | `(tactic| readable) => `(tactic| exact graphFix_reads)

theorem airwayGraph_reads : Reads (AdaptationJson.airwayGraph (F := F)) airways := by
  unfold AdaptationJson.airwayGraph; reading
macro_rules | `(tactic| readable) => `(tactic| exact airwayGraph_reads)

theorem locations_reads : Reads (AdaptationJson.locations (F := F)) locations := by
  unfold AdaptationJson.locations; reading
macro_rules | `(tactic| readable) => `(tactic| exact locations_reads)

theorem position_reads : Reads (AdaptationJson.position (F := F)) position := by
  unfold AdaptationJson.position; reading
macro_rules | `(tactic| readable) => `(tactic| exact position_reads)

theorem volume_reads : Reads (AdaptationJson.volume (F := F)) volume := by
  unfold AdaptationJson.volume; reading
macro_rules | `(tactic| readable) => `(tactic| exact volume_reads)

theorem runwayIdentifier_reads : Reads AdaptationJson.runwayIdentifier runwayIdentifier := by
  unfold AdaptationJson.runwayIdentifier; reading
macro_rules | `(tactic| readable) => `(tactic| exact runwayIdentifier_reads)

theorem sector_reads : Reads AdaptationJson.sector sector := by
  unfold AdaptationJson.sector; reading
macro_rules | `(tactic| readable) => `(tactic| exact sector_reads)

theorem timing_reads : Reads (AdaptationJson.timing (G := G)) timing := by
  unfold AdaptationJson.timing; reading
macro_rules | `(tactic| readable) => `(tactic| exact timing_reads)

theorem constraint_reads : Reads (AdaptationJson.constraint (G := G)) constraint := by
  unfold AdaptationJson.constraint; reading
macro_rules | `(tactic| readable) => `(tactic| exact constraint_reads)

theorem activeIds_reads : Reads AdaptationJson.activeIds activeIds := by
  unfold AdaptationJson.activeIds; reading
macro_rules | `(tactic| readable) => `(tactic| exact activeIds_reads)

theorem activeRunways_reads : Reads AdaptationJson.activeRunways activeRunways := by
  unfold AdaptationJson.activeRunways; reading
macro_rules | `(tactic| readable) => `(tactic| exact activeRunways_reads)

theorem activeAreas_reads : Reads AdaptationJson.activeAreas activeAreas := by
  unfold AdaptationJson.activeAreas; reading
macro_rules | `(tactic| readable) => `(tactic| exact activeAreas_reads)

theorem activeMapOperator_reads : Reads AdaptationJson.activeMapOperator (.variant [c!"Same", c!"Opposite"] []) := by
  listed
macro_rules | `(tactic| readable) => `(tactic| exact activeMapOperator_reads)

/-- A value that is a pattern or not -/
local macro "otherwise" : tactic => `(tactic| (intro j h; split <;> first | rfl | exact (h _ _ rfl).elim | exact (h _ _ _ rfl).elim | exact (h _ _ _ _ rfl).elim | exact (h _ _ _ _ _ rfl).elim))

theorem active_reads : Reads AdaptationJson.active active := by
  have table : ∃ l, (∀ k v, AdaptationJson.active.of (.obj [(k, v)]) = readVariant l (.obj [(k, v)])) ∧ ReadsTable l
      [(c!"True", .null), (c!"Schedule", .null), (c!"Aup", .array .text), (c!"Notam", .tuple [.text, .array .text]),
        (c!"Area", activeAreas), (c!"Id", activeIds), (c!"Callsign", activeIds), (c!"Runway", activeRunways),
        (c!"Map", .tuple [.variant [c!"Same", c!"Opposite"] [], .text, .text])] := by
    refine ⟨_, fun _ _ => rfl, ?_⟩
    refine .cons ?_ <| .cons ?_ <| .cons ?_ <| .cons ?_ <| .cons ?_ <| .cons ?_ <| .cons ?_ <| .cons ?_ <| .cons ?_ .nil
    · exact ⟨fun j => by rw [null_iff]; cases j <;> simp, fun j j' h => by cases h; rfl⟩
    · exact ⟨fun j => by rw [null_iff]; cases j <;> simp, fun j j' h => by cases h; rfl⟩
    · exact entry_reads (list_reads text_reads) _
    · exact entry2_reads text_reads (list_reads text_reads) (fun _ _ => rfl) (by otherwise)
    · exact entry_reads activeAreas_reads _
    · exact entry_reads activeIds_reads _
    · exact entry_reads activeIds_reads _
    · exact entry_reads activeRunways_reads _
    · exact entry3_reads activeMapOperator_reads text_reads text_reads (fun _ _ _ => rfl) (by otherwise)
  obtain ⟨l, hl, ht⟩ := table
  refine .whole rfl rfl rfl rfl (fun j => ?_) fun j j' hj => by
    cases hj with
    | same => rfl
    | plainNull h =>
      simp only [List.mem_cons, List.not_mem_nil, or_false] at h
      rcases h with rfl | rfl <;> rfl
    | tagged h1 h2 =>
      rw [hl, hl]
      exact readVariant_same ht (by decide +kernel) (.tail _ (.tail _ h1)) h2
  cases j with
  | str s =>
    show (if s = c!"True" then some Parse.Topsky.Active.true else if s = c!"Schedule" then some .schedule else none).isSome = true ↔ _
    constructor
    · intro h
      refine .plain ?_
      split at h
      · rename_i h1; rw [h1]; decide
      · split at h
        · rename_i h1; rw [h1]; decide
        · cases h
    · intro h
      cases h with
      | plain h =>
        simp only [List.mem_cons, List.not_mem_nil, or_false] at h
        rcases h with rfl | rfl <;> decide +kernel
  | obj o =>
    match o with
    | [] => exact ⟨fun h => (by cases h), fun h => (by cases h)⟩
    | [(k, v)] =>
      rw [hl, readVariant_isSome ht (by decide +kernel)]
      constructor
      · rintro ⟨s, hs, h⟩
        rcases List.mem_cons.1 hs with e | hs
        · cases e; cases h; exact .plainNull (by decide)
        · rcases List.mem_cons.1 hs with e | hs
          · cases e; cases h; exact .plainNull (by decide)
          · exact .tagged hs h
      · intro h
        cases h with
        | plainNull h =>
          simp only [List.mem_cons, List.not_mem_nil, or_false] at h
          rcases h with rfl | rfl
          · exact ⟨_, .head _, .null⟩
          · exact ⟨_, .tail _ (.head _), .null⟩
        | tagged h1 h2 => exact ⟨_, .tail _ (.tail _ h1), h2⟩
    | _ :: _ :: _ => exact ⟨fun h => (by cases h), fun h => (by cases h)⟩
  | _ => exact ⟨fun h => (by cases h), fun h => (by cases h)⟩
macro_rules | `(tactic| readable) => `(tactic| exact active_reads)

theorem horizontal_reads : Reads AdaptationJson.horizontal (.variant [c!"Left", c!"Center", c!"Right"] []) := by
  listed
macro_rules | `(tactic| readable) => `(tactic| exact horizontal_reads)

theorem vertical_reads : Reads AdaptationJson.vertical (.variant [c!"Top", c!"Center", c!"Bottom"] []) := by
  listed
macro_rules | `(tactic| readable) => `(tactic| exact vertical_reads)

theorem alignment_reads : Reads AdaptationJson.alignment alignment := by
  unfold AdaptationJson.alignment; reading
macro_rules | `(tactic| readable) => `(tactic| exact alignment_reads)

theorem lineStyle_reads : Reads AdaptationJson.lineStyle lineStyle := by
  unfold AdaptationJson.lineStyle; reading
macro_rules | `(tactic| readable) => `(tactic| exact lineStyle_reads)

section
variable [DecidableEq F] [F32Ops G]

theorem label_reads : Reads (AdaptationJson.label F G) label := by
  unfold AdaptationJson.label; reading
macro_rules | `(tactic| readable) => `(tactic| exact label_reads)

theorem mapSymbol_reads : Reads (AdaptationJson.mapSymbol F G) symbol := by
  unfold AdaptationJson.mapSymbol; reading
macro_rules | `(tactic| readable) => `(tactic| exact mapSymbol_reads)

theorem mapGroup_reads : Reads (AdaptationJson.mapGroup F G) mapGroup := by
  unfold AdaptationJson.mapGroup; reading
macro_rules | `(tactic| readable) => `(tactic| exact mapGroup_reads)

theorem mapV_reads : Reads (AdaptationJson.mapV F G) mapV := by
  unfold AdaptationJson.mapV; reading
macro_rules | `(tactic| readable) => `(tactic| exact mapV_reads)

theorem folder_reads : Reads (AdaptationJson.folder F G) folder := by
  unfold AdaptationJson.folder; reading
macro_rules | `(tactic| readable) => `(tactic| exact folder_reads)

end

theorem pair_reads : Reads (AdaptationJson.pair (F := F)) pair := by
  unfold AdaptationJson.pair; reading
macro_rules | `(tactic| readable) => `(tactic| exact pair_reads)

theorem symbolRule_reads : Reads (AdaptationJson.symbolRule (F := F)) symbolRule := by
  refine variants_read ?_ (by decide +kernel) rfl rfl rfl
  refine .cons ?_ <| .cons ?_ <| .cons ?_ <| .cons ?_ <| .cons ?_ <| .cons ?_ <| .cons ?_ <| .cons ?_ .nil
  · exact entry_reads pair_reads _
  · exact entry_reads pair_reads _
  · exact entry_reads pair_reads _
  · exact entry4_reads pair_reads float_reads i64_reads i64_reads (fun _ _ _ _ => rfl) (by otherwise)
  · exact entry5_reads pair_reads float_reads float_reads i64_reads i64_reads (fun _ _ _ _ _ => rfl) (by otherwise)
  · exact entry4_reads pair_reads float_reads i64_reads i64_reads (fun _ _ _ _ => rfl) (by otherwise)
  · exact entry5_reads pair_reads float_reads float_reads i64_reads i64_reads (fun _ _ _ _ _ => rfl) (by otherwise)
  · exact entry_reads (list_reads pair_reads) _
macro_rules | `(tactic| readable) => `(tactic| exact symbolRule_reads)

theorem symbols_reads : Reads (AdaptationJson.symbols (F := F)) symbols := by
  unfold AdaptationJson.symbols; reading
macro_rules | `(tactic| readable) => `(tactic| exact symbols_reads)

theorem colours_reads : Reads AdaptationJson.colours colours := by
  unfold AdaptationJson.colours AdaptationJson.trackColours AdaptationJson.sectorColours AdaptationJson.mapColours
    AdaptationJson.mapColours2 AdaptationJson.uiColours
  reading
macro_rules | `(tactic| readable) => `(tactic| exact colours_reads)

theorem dash_reads : Reads (AdaptationJson.dash (G := G)) (.record [(c!"length", .number), (c!"gap", .number)]) := by
  unfold AdaptationJson.dash; reading
macro_rules | `(tactic| readable) => `(tactic| exact dash_reads)

theorem lineSettings_reads : Reads AdaptationJson.lineSettings lineSettings := by
  unfold AdaptationJson.lineSettings; reading
macro_rules | `(tactic| readable) => `(tactic| exact lineSettings_reads)

theorem labelSettings_reads : Reads (AdaptationJson.labelSettings (G := G)) labelSettings := by
  unfold AdaptationJson.labelSettings; reading
macro_rules | `(tactic| readable) => `(tactic| exact labelSettings_reads)

theorem mapsSettings_reads : Reads (AdaptationJson.mapsSettings (F := F) (G := G)) mapsSettings := by
  unfold AdaptationJson.mapsSettings; reading
macro_rules | `(tactic| readable) => `(tactic| exact mapsSettings_reads)

theorem settings_reads : Reads (AdaptationJson.settings (F := F) (G := G)) settings := by
  unfold AdaptationJson.settings AdaptationJson.settingsFields AdaptationJson.track AdaptationJson.vector AdaptationJson.historyDots
    AdaptationJson.ssr AdaptationJson.coordination
  reading
macro_rules | `(tactic| readable) => `(tactic| exact settings_reads)

theorem wtc_reads : Reads AdaptationJson.wtc (.variant [c!"LIGHT", c!"MEDIUM", c!"HEAVY", c!"SUPER", c!"UNKNOWN"] []) := by
  listed
macro_rules | `(tactic| readable) => `(tactic| exact wtc_reads)

theorem aircraftType_reads : Reads AdaptationJson.aircraftType (.variant [c!"LANDPLANE", c!"SEAPLANE", c!"AMPHIBIAN", c!"GYROCOPTER", c!"HELICOPTER", c!"TILTROTOR",
    c!"UNKNOWN"] []) := by
  listed
macro_rules | `(tactic| readable) => `(tactic| exact aircraftType_reads)

theorem engineType_reads : Reads AdaptationJson.engineType (.variant [c!"JET", c!"TURBOPROP", c!"PISTON", c!"ELECTRIC", c!"ROCKET", c!"UNKNOWN"] []) := by
  listed
macro_rules | `(tactic| readable) => `(tactic| exact engineType_reads)

theorem aircraft_reads : Reads AdaptationJson.aircraft aircraft := by
  unfold AdaptationJson.aircraft; reading
macro_rules | `(tactic| readable) => `(tactic| exact aircraft_reads)

theorem airline_reads : Reads AdaptationJson.airline airline := by
  unfold AdaptationJson.airline; reading
macro_rules | `(tactic| readable) => `(tactic| exact airline_reads)

theorem coloured_reads : Reads (AdaptationJson.coloured (F := F)) coloured := by
  unfold AdaptationJson.coloured; reading
macro_rules | `(tactic| readable) => `(tactic| exact coloured_reads)

theorem location_reads : Reads (AdaptationJson.location (F := F)) (.variant [] [(c!"Fix", .text), (c!"Coordinate", point)]) := by
  refine variants_read ?_ (by decide +kernel) rfl rfl rfl
  refine .cons ?_ <| .cons ?_ .nil
  · exact entry_reads text_reads _
  · exact entry_reads point'_reads _
macro_rules | `(tactic| readable) => `(tactic| exact location_reads)

theorem sctItems_reads : Reads (AdaptationJson.sctItems (F := F)) sctItems := by
  unfold AdaptationJson.sctItems AdaptationJson.region AdaptationJson.sctLabel; reading
macro_rules | `(tactic| readable) => `(tactic| exact sctItems_reads)

variable [DecidableEq F] [F32Ops G]

theorem adaptation_reads : Reads (AdaptationJson.adaptation F G) adaptation := by
  unfold AdaptationJson.adaptation AdaptationJson.adaptationFields; reading
macro_rules | `(tactic| readable) => `(tactic| exact adaptation_reads)

end
end Verif.Proofs.Accepts
