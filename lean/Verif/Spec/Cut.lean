import Verif.Base.Lit
/-!
# Specification: files that are cut off

A download or a write is interrupted and leaves the first part of a file.
-/

namespace Verif.Spec

/-- Of the text `t` the first part is left: the complete lines `p`, and `q`, with which the line that is cut off begins. -/
structure CutOff (t p q : Str) : Prop where
  part : ∃ v, t = p ++ q ++ v
  complete : p = [] ∨ ∃ p', p = p' ++ ['\n']
  begun : ∀ c ∈ q, c ≠ '\n' ∧ c ≠ '\r'

end Verif.Spec
