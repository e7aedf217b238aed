import Verif.Model.AirwayGraph
/-!
# What the airway graph means

The specification talks only about the list of segments that were inserted and about
fixes as pairs (name, quantised position); it does not mention ids or edge lists.
-/

namespace Verif.AirwayGraph.Spec
variable {P : Type} [Quantize P]

/-- A fix as the user sees it: its name and its position at the resolution of the data base. -/
abbrev Key := Str × (Int × Int)

/-- The fix a segment leaves from. -/
def src (s : Segment P) : Key := (s.fromName, quantize s.fromPos)
/-- The fix a segment leads to. -/
def dst (s : Segment P) : Key := (s.segment.fix.designator, quantize s.segment.fix.coordinate)

/-- Segment `s` was reported on airway `w` from `a` to `b`. -/
def Reports (s : Segment P) (w : Str) (a b : Key) : Prop :=
  s.airway = w ∧ src s = a ∧ dst s = b

/-- Segment `s` joins `a` and `b` on airway `w`, in whichever direction it was reported. -/
def Joins (s : Segment P) (w : Str) (a b : Key) : Prop := Reports s w a b ∨ Reports s w b a

/-- `a` and `b` are neighbours on airway `w`. -/
def Adjacent (segs : List (Segment P)) (w : Str) (a b : Key) : Prop := ∃ s ∈ segs, Joins s w a b

/-- The leg `a → b` may be flown in that direction. -/
def Flyable (segs : List (Segment P)) (w : Str) (a b : Key) : Prop :=
  ∃ s ∈ segs, Reports s w a b ∧ s.segment.validDirection = true

/-- `n` is one of the minimum levels reported for the leg between `a` and `b`. -/
def LevelReported (segs : List (Segment P)) (w : Str) (a b : Key) (n : Nat) : Prop :=
  ∃ s ∈ segs, Joins s w a b ∧ s.segment.minimumLevel = some n

/-- `o` is the least number satisfying `p`, or `none` if there is none. -/
def IsLeast (o : Option Nat) (p : Nat → Prop) : Prop :=
  match o with
  | none => ∀ n, ¬ p n
  | some m => p m ∧ ∀ n, p n → m ≤ n

/-- Fix `a` is an end point of some segment of airway `w`. -/
def OnAirway (segs : List (Segment P)) (w : Str) (a : Key) : Prop := ∃ b, Adjacent segs w a b

/-- Fix `a` is an end point of some segment (of any airway). -/
def Known (segs : List (Segment P)) (a : Key) : Prop := ∃ w, OnAirway segs w a

/-- Index `i` of the graph holds the fix `k`. -/
def FixAt (g : Graph P) (i : Nat) (k : Key) : Prop :=
  ∃ f, g.fixes[i]? = some f ∧ g.fixNameById[i]? = some k.1 ∧ quantize f.position = k.2

/-- The graph stores the edge `e` from fix `a` to fix `b` under airway `w`. -/
def HasEdge (g : Graph P) (w : Str) (a b : Key) (e : AirwayEdge) : Prop :=
  ∃ i f awy es, FixAt g i a ∧ g.fixes[i]? = some f ∧ g.airwayIdByName.get? w = some awy ∧
    f.edges.get? awy = some es ∧ e ∈ es ∧ FixAt g e.to b

/-- The fix a returned element stands for. -/
def keyOf (x : AirwayFix P) : Key := (x.fix.designator, quantize x.fix.coordinate)

/-- The returned leg attributes are the aggregated ones. -/
def LegOk (segs : List (Segment P)) (w : Str) (a : Key) (x : AirwayFix P) : Prop :=
  Adjacent segs w a (keyOf x) ∧
  (x.validDirection = true ↔ Flyable segs w a (keyOf x)) ∧
  IsLeast x.minimumLevel (LevelReported segs w a (keyOf x))

/-- A path along airway `w` starting next to `a`: each element is a correctly described leg. -/
def PathFrom (segs : List (Segment P)) (w : Str) : Key → List (AirwayFix P) → Prop
  | _, [] => True
  | a, x :: xs => LegOk segs w a x ∧ PathFrom segs w (keyOf x) xs

/-- No fix is followed by its predecessor. -/
def NoTurnBack {α : Type} : List α → Prop
  | a :: b :: c :: l => a ≠ c ∧ NoTurnBack (b :: c :: l)
  | _ => True

/-- Which fix a requested start resolves to: the fix with that name and position if it is
known, otherwise some fix of that name on the airway. -/
def StartResolves (segs : List (Segment P)) (w : Str) (start : Fix P) (k : Key) : Prop :=
  OnAirway segs w k ∧ k.1 = start.designator ∧
  (k.2 = quantize start.coordinate ∨ ¬ Known segs (start.designator, quantize start.coordinate))

/-- `a` and `b` are consecutive in `l`. -/
def Consecutive {α : Type} (l : List α) (a b : α) : Prop := ∃ l₁ l₂, l = l₁ ++ a :: b :: l₂

/-- Airway `w` is a simple chain through the fixes `l`, in that order. -/
structure IsChain (segs : List (Segment P)) (w : Str) (l : List Key) : Prop where
  nodup : l.Nodup
  adjacent_iff : ∀ a b, Adjacent segs w a b ↔ (Consecutive l a b ∨ Consecutive l b a)

end Verif.AirwayGraph.Spec
