import Verif.Model.SharedIndex
/-! # What threads that share an adaptation should get -/

namespace Verif.SectorIndex.Shared
variable {F L : Type} [LE F] [DecidableLE F]

/-- What a call gives: a query is answered as it would be without other threads, and a clone of the adaptation answers
every query as the adaptation does. -/
inductive AsAlone (env : Env F L) (a : Adaptation F) : Call F L → Result F → Prop
  | query (q : Query F L) : AsAlone env a (.query q) (.answer (a.ask env q))
  | clone (c : Adaptation F) : c.data = a.data → (∀ q : Query F L, c.ask env q = a.ask env q) → AsAlone env a .clone (.clone c)

/-- The results of the first calls, in order. -/
inductive Replies (env : Env F L) (a : Adaptation F) : List (Call F L) → List (Result F) → Prop
  | nil : Replies env a [] []
  | cons (c : Call F L) (r : Result F) (cs : List (Call F L)) (rs : List (Result F)) : AsAlone env a c r →
      Replies env a cs rs → Replies env a (c :: cs) (r :: rs)

end Verif.SectorIndex.Shared
