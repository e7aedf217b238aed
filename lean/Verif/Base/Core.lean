/-!
# Base types

Shared vocabulary of the model.  Nothing here models a particular file of the
repository; the comments say which Rust notion each definition stands for.
-/

namespace Verif

/-- Rust `String` / `&str`: a sequence of Unicode scalar values. -/
abbrev Str := List Char

/-- The ways a call can fail to return a value.
* `panic`      : the Rust code panics (`unwrap` on `None`/`Err`, `unreachable!`, index out of bounds,
                 arithmetic overflow in a checked build).
* `parseError` : the function returns `Err(..)`.
* `diverge`    : the Rust code would loop for ever. -/
inductive Fault where
  | panic
  | parseError
  | diverge
  deriving DecidableEq, Repr

/-- Result of running a function of the code base. -/
abbrev Run (α : Type) := Except Fault α

instance {α : Type} [DecidableEq α] : DecidableEq (Run α) := fun x y =>
  match x, y with
  | .ok a, .ok b =>
    if h : a = b then .isTrue (by rw [h]) else .isFalse (fun h2 => h (Except.ok.inj h2))
  | .error a, .error b =>
    if h : a = b then .isTrue (by rw [h]) else .isFalse (fun h2 => h (Except.error.inj h2))
  | .ok _, .error _ => .isFalse (by intro h; cases h)
  | .error _, .ok _ => .isFalse (by intro h; cases h)

/-- `unwrap` of an `Option`. -/
def unwrap {α : Type} : Option α → Run α
  | some a => .ok a
  | none => .error .panic

@[simp] theorem unwrap_some {α : Type} (a : α) : unwrap (some a) = .ok a := rfl
@[simp] theorem unwrap_none {α : Type} : unwrap (none : Option α) = .error .panic := rfl

theorem unwrap_ok_iff {α : Type} {o : Option α} {a : α} : unwrap o = .ok a ↔ o = some a := by
  cases o <;> simp [unwrap]

@[simp] theorem run_ok_bind {α β : Type} (a : α) (f : α → Run β) :
    (Except.ok a >>= f : Run β) = f a := rfl

@[simp] theorem run_error_bind {α β : Type} (e : Fault) (f : α → Run β) :
    (Except.error e >>= f : Run β) = .error e := rfl

theorem run_bind_ok_iff {α β : Type} {x : Run α} {f : α → Run β} {b : β} :
    (x >>= f) = .ok b ↔ ∃ a, x = .ok a ∧ f a = .ok b := by
  cases x with
  | error e => constructor
               · intro h; cases h
               · rintro ⟨a, h, _⟩; cases h
  | ok a => simp

@[simp] theorem run_pure {α : Type} (a : α) : (pure a : Run α) = .ok a := rfl

end Verif
