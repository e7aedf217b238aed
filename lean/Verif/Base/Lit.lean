import Verif.Base.Core
/-!
# String literals as character lists

`c!"abc"` is notation for `['a', 'b', 'c']`.
-/

namespace Verif
open Lean

/-- `c!"abc"` expands to the character list `['a', 'b', 'c']`. -/
syntax:max "c!" str : term

macro_rules
  | `(c! $s:str) => do
    let cs : Array (TSyntax `term) :=
      (s.getString.toList.map fun c => (⟨Syntax.mkCharLit c⟩ : TSyntax `term)).toArray
    `(([$cs,*] : Str))

example : c!"ab" = ['a', 'b'] := rfl
example : c!"" = [] := rfl

end Verif
