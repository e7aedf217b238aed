import Verif.Spec.AirwayGraph
/-!
# Which route an airway gives between two fixes

Only the list of segments that were inserted is mentioned, in its order: no ids, no edge lists, no search.
-/

namespace Verif.AirwayGraph.Spec
variable {P : Type} [Quantize P]

/-- `l` without repetitions, in the order in which its elements first occur. -/
def firsts {α : Type} [DecidableEq α] (l : List α) : List α :=
  l.foldl (fun seen x => if x ∈ seen then seen else seen ++ [x]) []

/-- All fixes that segments mention, in the order in which they are first mentioned. -/
def allFixes (segs : List (Segment P)) : List Key := firsts (segs.flatMap fun s => [src s, dst s])

/-- The fixes that segment `s` of airway `w` joins with `a`. -/
def joined (w : Str) (a : Key) (s : Segment P) : List Key :=
  if s.airway = w then (if src s = a then [dst s] else []) ++ (if dst s = a then [src s] else []) else []

/-- The neighbours of `a` on airway `w`, in the order in which segments first join them with `a`. -/
def neighbours (segs : List (Segment P)) (w : Str) (a : Key) : List Key := firsts (segs.flatMap (joined w a))

/-- The first-mentioned fix of a name on airway `w`. -/
def firstOn (segs : List (Segment P)) (w name : Str) : Option Key :=
  (allFixes segs).find? fun k => k.1 = name ∧ neighbours segs w k ≠ []

/-- Where a route that is to start at `start` starts: at the fix with this name and position, if any segment of any airway
mentions it (there is no route if it is not on airway `w`); else at the first-mentioned fix of this name on `w`. -/
def startOf (segs : List (Segment P)) (w : Str) (start : Fix P) : Option Key :=
  let k : Key := (start.designator, quantize start.coordinate)
  if k ∈ allFixes segs then (if neighbours segs w k = [] then none else some k) else firstOn segs w start.designator

/-- `Way segs w z a b p`: coming from `a` and now at `b`, the only way on along airway `w` leads over the fixes `p` (the first
of which is `b`) to `z`.  Each fix on the way but the last has exactly two neighbours: the one before and the one behind it. -/
inductive Way (segs : List (Segment P)) (w : Str) (z : Key) : Key → Key → List Key → Prop
  | arrive (a : Key) : Way segs w z a z [z]
  | go {a b c : Key} {p : List Key} : b ≠ z → c ≠ a → (∀ x, Adjacent segs w b x ↔ x = a ∨ x = c) → Way segs w z b c p →
      Way segs w z a b (b :: p)

end Verif.AirwayGraph.Spec
