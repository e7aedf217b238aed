import Verif.Props.Termination
/-!
# Runs that end

Runs without the outcome `diverge`, and a tactic for runs that are built from such runs.
-/

namespace Verif.Proofs
open Verif.Peg

/-- The run comes to an end. -/
structure Ends {A : Type} (r : Run A) : Prop where
  ne : r ≠ .error .diverge

theorem ends_ok {A : Type} (a : A) : Ends (.ok a) := ⟨by intro h; cases h⟩
theorem ends_pure {A : Type} (a : A) : Ends (pure a) := ⟨by intro h; cases h⟩
theorem ends_panic {A : Type} : Ends (.error .panic : Run A) := ⟨by intro h; cases h⟩
theorem ends_parseError {A : Type} : Ends (.error .parseError : Run A) := ⟨by intro h; cases h⟩
theorem ends_unwrap {A : Type} (o : Option A) : Ends (unwrap o) := by
  cases o
  · exact ends_panic
  · exact ends_ok _
theorem ends_bind {A B : Type} {x : Run A} {f : A → Run B} (hx : Ends x) (hf : ∀ a, Ends (f a)) : Ends (x >>= f) := by
  cases x with
  | ok a => exact hf a
  | error e => exact ⟨by intro h; cases h; exact hx.ne rfl⟩
theorem ends_map {A B : Type} {x : Run A} {f : A → B} (hx : Ends x) : Ends (f <$> x) := by
  cases x with
  | ok a => exact ends_ok _
  | error e => exact ⟨by intro h; cases h; exact hx.ne rfl⟩
theorem ends_mapM {A B : Type} {f : A → Run B} (hf : ∀ a, Ends (f a)) (l : List A) : Ends (l.mapM f) := by
  induction l with
  | nil => rw [List.mapM_nil]; exact ends_pure _
  | cons a l ih => rw [List.mapM_cons]; exact ends_bind (hf a) fun _ => ends_bind ih fun _ => ends_pure _
theorem ends_foldlM {A B : Type} {f : B → A → Run B} (hf : ∀ b a, Ends (f b a)) (l : List A) (b : B) : Ends (l.foldlM f b) := by
  induction l generalizing b with
  | nil => rw [List.foldlM_nil]; exact ends_pure _
  | cons a l ih => rw [List.foldlM_cons]; exact ends_bind (hf b a) ih
theorem ends_run {R : Type} {x : Run (List (Tree R))} (h : Verif.Props.Returns x) : Ends x := by
  refine ⟨fun e => ?_⟩
  rcases h with ⟨ts, h⟩ | h <;> rw [h] at e <;> cases e

/-- One step: a known function. -/
syntax "ends1" : tactic
macro_rules | `(tactic| ends1) => `(tactic| fail "no function is known")

/-- A run is built from runs that end. -/
macro "ends" : tactic => `(tactic| repeat' (first
  | with_reducible apply ends_bind | with_reducible apply ends_pure | with_reducible apply ends_ok
  | with_reducible apply ends_panic | with_reducible apply ends_parseError | with_reducible apply ends_unwrap
  | with_reducible apply ends_mapM | with_reducible apply ends_foldlM | with_reducible apply ends_map
  | intro _ | ends1 | split))

theorem ends_next {R : Type} (ts : List (Tree R)) : Ends (next ts) := by unfold next; ends
macro_rules | `(tactic| ends1) => `(tactic| with_reducible apply ends_next)

end Verif.Proofs
