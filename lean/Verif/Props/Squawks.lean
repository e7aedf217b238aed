import Verif.Proofs.Squawks
/-!
# C94: `squawks.json`

`Verif.Spec.Squawks.Says` is what a JSON value says about squawks.
-/

namespace Verif.Props
open Verif.Json Verif.Squawks Verif.Spec.Squawks
open Verif.Colours (Colour)
open Verif.Settings (SquawkDef)

/-- **C94, reading.**  What is read is exactly what the document says; a document that says nothing is refused. -/
theorem C94_reads (j : J) (x : SquawksJson) : readJson j = some x ↔ Says j x := Proofs.Squawks.read_iff j x

/-- **C94, refusing.** -/
theorem C94_refuses (j : J) : readJson j = none ↔ ∀ x, ¬ Says j x := by
  simp only [← C94_reads]
  cases readJson j <;> simp

/-- **C94, unknown fields.**  Fields with other names make no difference. -/
theorem C94_unknown_fields {o pre post : Obj} (ho : o = pre ++ post) {k : Str} {v : J}
    (hk : k ∉ [c!"NonDiscreteColor", c!"NonDiscreteMessage", c!"NonDiscrete", c!"Squawks"]) :
    readJson (.obj (pre ++ (k, v) :: post)) = readJson (.obj o) := by
  subst ho
  have hf : ∀ k', k ≠ k' → ∀ w, Field (pre ++ (k, v) :: post) k' w ↔ Field (pre ++ post) k' w := by
    intro k' hne w
    rw [← Proofs.Squawks.field_iff, ← Proofs.Squawks.field_iff]
    have h1 : Proofs.Squawks.One (pre ++ (k, v) :: post) k' ↔ Proofs.Squawks.One (pre ++ post) k' := by
      unfold Proofs.Squawks.One
      rw [List.filter_append, List.filter_append, List.filter_cons_of_neg (by simpa using hne)]
    have h2 : Map.get? (pre ++ (k, v) :: post) k' = Map.get? (pre ++ post) k' := by
      induction pre with
      | nil => simp [Map.get?, hne]
      | cons e pre ih =>
        simp only [List.cons_append, Map.get?]
        split
        · rfl
        · exact ih (by
            unfold Proofs.Squawks.One
            rw [List.filter_append, List.filter_append, List.filter_cons_of_neg (by simpa using hne)])
    rw [h1, h2]
  simp only [List.mem_cons, List.not_mem_nil, or_false, not_or] at hk
  obtain ⟨k1, k2, k3, k4⟩ := hk
  have : ∀ x, Says (.obj (pre ++ (k, v) :: post)) x ↔ Says (.obj (pre ++ post)) x := by
    intro x
    constructor
    · intro h
      cases h with
      | object h1 h2 h3 h4 h5 h6 h7 =>
        exact .object ((hf _ k1 _).1 h1) h2 ((hf _ k2 _).1 h3) ((hf _ k3 _).1 h4) h5 ((hf _ k4 _).1 h6) h7
    · intro h
      cases h with
      | object h1 h2 h3 h4 h5 h6 h7 =>
        exact .object ((hf _ k1 _).2 h1) h2 ((hf _ k2 _).2 h3) ((hf _ k3 _).2 h4) h5 ((hf _ k4 _).2 h6) h7
  cases h : readJson (.obj (pre ++ post)) with
  | some x => exact (C94_reads _ x).2 ((this x).2 ((C94_reads _ x).1 h))
  | none => exact (C94_refuses _).2 fun x hx => (C94_refuses _).1 h x ((this x).1 hx)

/-- The colour without transparency -/
def solid (c : Colour) : Colour := { c with a := 255 }

/-- **C94, writing.**  What is written has these names, in this order, and says the same as `x`, apart from the transparency of colours. -/
theorem C94_writes (x : SquawksJson) : ∃ c n s,
    writeJson x = .obj [(c!"non_discrete_color", c), (c!"non_discrete_message", .str x.nonDiscreteMessage), (c!"non_discrete", n), (c!"squawks", s)] ∧
    SaysColour c (solid x.nonDiscreteColour) ∧ SaysList SaysText n x.nonDiscrete ∧
    SaysList SaysDef s (x.squawks.map fun d => (d.1, solid d.2)) := by
  have colour : ∀ c : Colour, SaysColour (Codec.colour.to c) (solid c) := fun c => .intro (Colours.C35_serialize c) rfl
  have texts : ∀ l : List Str, SaysEach SaysText (l.map Codec.text.to) l := fun l => by
    induction l with
    | nil => exact .nil
    | cons a l ih => exact .cons (.intro a) ih
  have text : ∀ o : Option Str, Optional SaysText ((Codec.opt .text).to o) o := fun o => by
    cases o with
    | none => rfl
    | some a => exact .intro a
  have range : ∀ o : Option (Str × Str), Optional SaysRange ((Codec.opt range).to o) o := fun o => by
    cases o with
    | none => rfl
    | some r =>
      refine .object (o := [(c!"start", .str r.1), (c!"end", .str r.2)]) ⟨[], _, rfl, by simp, ?_⟩ ⟨[_], [], rfl, ?_, by simp⟩
      · intro e he; rw [List.mem_singleton.1 he]; simp
      · intro e he; rw [List.mem_singleton.1 he]; simp
  have squawk : ∀ d : SquawkDef × Colour, SaysDef (squawkDef.to d) (d.1, solid d.2) := fun d => by
    let a : Str × J := (c!"code", (Codec.opt .text).to d.1.code)
    let b : Str × J := (c!"range", (Codec.opt Squawks.range).to d.1.range)
    let m : Str × J := (c!"message", .str d.1.message)
    let c : Str × J := (c!"color", Codec.colour.to d.2)
    have field : ∀ pre e post, (pre ++ e :: post).map Prod.fst = [c!"code", c!"range", c!"message", c!"color"] →
        Field (pre ++ e :: post) e.1 e.2 := by
      intro pre e post h
      have hn : ((pre ++ e :: post).map Prod.fst).Nodup := by rw [h]; decide
      rw [List.map_append, List.map_cons, List.nodup_append] at hn
      obtain ⟨_, h2, h3⟩ := hn
      refine ⟨pre, post, rfl, fun x hx => h3 _ (List.mem_map_of_mem hx) _ List.mem_cons_self, fun x hx he => ?_⟩
      exact (List.nodup_cons.1 h2).1 (he ▸ List.mem_map_of_mem hx)
    refine .object (o := [a, b, m, c]) (Or.inr ⟨_, field [] a [b, m, c] rfl, text _⟩) (Or.inr ⟨_, field [a] b [m, c] rfl, range _⟩)
      (field [a, b] m [c] rfl) (field [a, b, m] c [] rfl) (colour _)
  have squawks : ∀ l : List (SquawkDef × Colour), SaysEach SaysDef (l.map squawkDef.to) (l.map fun d => (d.1, solid d.2)) := fun l => by
    induction l with
    | nil => exact .nil
    | cons a l ih => exact .cons (squawk a) ih
  exact ⟨_, _, _, rfl, colour _, .intro (texts _), .intro (squawks _)⟩

/-- **C94, writing.**  What is written cannot be read again: the names of the fields are other ones. -/
theorem C94_not_reread (x : SquawksJson) : readJson (writeJson x) = none := rfl

/-! ## A document -/

def document : J := .obj [
  (c!"NonDiscrete", .arr [.str c!"2000", .str c!"7000"]),
  (c!"NonDiscreteColor", .str c!"#ff8000"), (c!"NonDiscreteMessage", .str c!"VFR"), (c!"Comment", .null),
  (c!"Squawks", .arr [
    .obj [(c!"code", .str c!"7700"), (c!"message", .str c!"EMERG"), (c!"color", .str c!"#FF0000")],
    .obj [(c!"code", .null), (c!"range", .obj [(c!"end", .str c!"0077"), (c!"start", .str c!"0020")]), (c!"message", .str c!"MEDI"),
      (c!"color", .str c!"#00ff00")]])]

/-- It says what one expects. -/
example : Says document ⟨⟨255, 128, 0, 255⟩, c!"VFR", [c!"2000", c!"7000"],
    [(⟨some c!"7700", none, c!"EMERG"⟩, ⟨255, 0, 0, 255⟩), (⟨none, some (c!"0020", c!"0077"), c!"MEDI"⟩, ⟨0, 255, 0, 255⟩)]⟩ :=
  (C94_reads _ _).1 (by decide +kernel)

/-- A field that occurs twice is an error, and so is a missing message. -/
example : readJson (.obj [(c!"NonDiscrete", .arr []), (c!"NonDiscreteColor", .str c!"#ff8000"), (c!"NonDiscreteMessage", .str c!"VFR"),
    (c!"Squawks", .arr []), (c!"Squawks", .arr [])]) = none ∧
    readJson (.obj [(c!"NonDiscrete", .arr []), (c!"NonDiscreteColor", .str c!"#ff8000"), (c!"Squawks", .arr [])]) = none := by
  decide +kernel

end Verif.Props
