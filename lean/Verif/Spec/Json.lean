import Verif.Model.Json
/-!
# What survives JSON

A floating point number is kept if it is finite and read as it was written, an integer if it is in the range of its type (which Rust's types ensure), a
colour if it is opaque, and an absolute path if it is made of proper components.
-/

namespace Verif.Spec.Json
open Verif.Json

/-- This part of a value is kept. -/
def Kept : Part → Prop
  | .float q back => q.isSome ∧ back = q
  | .int lo hi n => lo ≤ n ∧ n < hi
  | .colour c => c.a = 255
  | .path p => ∀ s ∈ p, s ≠ [] ∧ s ≠ ['.'] ∧ '/' ∉ s

/-- All numbers, colours and paths in a value are kept. -/
def Keeps {A : Type} (c : Codec A) (a : A) : Prop := ∀ p ∈ c.parts a, Kept p

end Verif.Spec.Json
