import Verif.Base.Core
/-!
# Parts of a text, one behind another
-/

namespace Verif.Spec

/-- The texts of the list stand in the text one behind another, in this order and without overlap. -/
inductive InOrder : List Str → Str → Prop
  | nil (text : Str) : InOrder [] text
  | cons (before part behind : Str) (parts : List Str) : InOrder parts behind → InOrder (part :: parts) (before ++ (part ++ behind))

end Verif.Spec
