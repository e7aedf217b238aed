import Verif.Proofs.AirwayPositions
import Verif.Props.AdaptationAirways
/-!
# C116: the positions of fixes on airways

`C12` and `C108` say over which fixes an airway is expanded, up to the resolution of the data base.  The theorems here say which
positions, exactly, are returned.
-/

namespace Verif.AirwayGraph
open Spec

section
variable {P : Type} [Quantize P]

/-- **C116.** Every fix of an expanded airway has the position with which it was first mentioned. -/
theorem C116_positions (segs : List (Segment P)) (g : Graph P) (h : build segs = .ok g) (start : Fix P) (endName w : Str)
    (isInternal : Str → P → Bool) (out : List (AirwayFix P × Bool)) (hrun : g.expand start endName w isInternal = .ok (some out)) :
    ∀ x ∈ out, firstPosition (mentions segs) (keyOf x.1) = some x.1.fix.coordinate := by
  rcases expand_cases (build_rel h) start endName w isInternal with h1 | ⟨awy, i, ks, j, ke, f, es, _, _, _, _, _, _, _, _, hrun'⟩
  · rw [h1] at hrun; cases hrun
  · rw [hrun'] at hrun
    exact tryEdges_positions (build_posd h) hrun

/-- **C116.** In particular some segment gives the fix this name and exactly this position. -/
theorem C116_given (segs : List (Segment P)) (g : Graph P) (h : build segs = .ok g) (start : Fix P) (endName w : Str)
    (isInternal : Str → P → Bool) (out : List (AirwayFix P × Bool)) (hrun : g.expand start endName w isInternal = .ok (some out)) :
    ∀ x ∈ out, ∃ s ∈ segs, (s.fromName = x.1.fix.designator ∧ s.fromPos = x.1.fix.coordinate) ∨ s.segment.fix = x.1.fix := by
  intro x hx
  have := C116_positions segs g h start endName w isInternal out hrun x hx
  unfold firstPosition at this
  obtain ⟨m, hm, e⟩ := Option.map_eq_some_iff.1 this
  have hk := List.find?_some hm
  simp only [decide_eq_true_eq] at hk
  obtain ⟨s, hs, hms⟩ := List.mem_flatMap.1 (List.mem_of_find?_eq_some hm)
  refine ⟨s, hs, ?_⟩
  have hk1 : m.1 = x.1.fix.designator := hk.1
  simp only [List.mem_cons, List.not_mem_nil, or_false] at hms
  rcases hms with rfl | rfl
  · exact Or.inl ⟨hk1, e⟩
  · refine Or.inr ?_
    cases hx : x.1.fix
    cases hs : s.segment.fix
    simp_all

/-- **C116.** If a fix is always given with the same position, then this position is returned. -/
theorem C116_unique (segs : List (Segment P)) (g : Graph P) (h : build segs = .ok g) (start : Fix P) (endName w : Str)
    (isInternal : Str → P → Bool) (out : List (AirwayFix P × Bool)) (hrun : g.expand start endName w isInternal = .ok (some out))
    (x : AirwayFix P × Bool) (hx : x ∈ out) (p : P)
    (hp : ∀ m ∈ mentions segs, m.1 = x.1.fix.designator → quantize m.2 = quantize x.1.fix.coordinate → m.2 = p) : x.1.fix.coordinate = p := by
  have := C116_positions segs g h start endName w isInternal out hrun x hx
  unfold firstPosition at this
  obtain ⟨m, hm, e⟩ := Option.map_eq_some_iff.1 this
  have hk := List.find?_some hm
  simp only [decide_eq_true_eq] at hk
  rw [← e]
  exact hp m (List.mem_of_find?_eq_some hm) hk.1 hk.2

end

/-! ## Concrete cases -/

section Examples
local instance coarse : Quantize (Int × Int) := ⟨fun p => (p.1 / 10, p.2 / 10)⟩

/-- `B` is given with two positions that are the same at the resolution of the data base. -/
def nearSegs : List (Segment (Int × Int)) :=
  [⟨c!"L1", c!"A", (10, 10), ⟨⟨c!"B", (21, 20)⟩, true, none⟩, .both⟩, ⟨c!"L1", c!"B", (22, 20), ⟨⟨c!"C", (30, 30)⟩, true, none⟩, .both⟩]

/-- The first one is returned. -/
example : (do
    let g ← build nearSegs
    let r ← g.expand ⟨c!"A", (10, 10)⟩ c!"C" c!"L1" (fun _ _ => false)
    Except.ok (r.map (·.map fun x => (x.1.fix.designator, x.1.fix.coordinate))) : Run (Option (List (Str × (Int × Int))))) =
      .ok (some [(c!"B", (21, 20)), (c!"C", (30, 30))]) := by decide +kernel

end Examples

end Verif.AirwayGraph

/-! ## A loaded adaptation -/

namespace Verif.Props
open Verif.Adaptation Verif.Spec.Adaptation Verif.Proofs.Adaptation
open Verif.PrfPaths (Prf)
open Verif.AirwayGraph Verif.AirwayGraph.Spec
open Verif.Spec.Airway (Line IsFile segments)

section
variable {F G : Type} [F64 F] [Dms.DmsArith F] [DecidableEq F] [Locations.FloatOps F] [Parse.SymbolRule.Close F] [F64 G]
  [Display.F32Ops G] [UnicodeTables] [LE F] [DecidableLE F]

/-- **C116.** Every fix of a route along an airway of a loaded adaptation has a position that a line of the airway file gives to it: to
its own fix or to one of its neighbours. -/
theorem C116_loaded {env : Env F G} {prf : Prf} {a : Adaptation F G} (h : fromPrf env prf = .ok a) :
    ∃ (num : Str → F) (text : Str) (lines : List Line), (∀ s, Verif.Spec.Isec.IsCoord s → F64.ofText s = some (num s)) ∧
      TextOf env prf .airways text ∧ IsFile text lines ∧
      letI : Quantize (Parse.Point F) := ⟨fun p => env.quantize (p.x, p.y)⟩
      letI : Quantize (Locations.Point F) := ⟨env.quantize⟩
      ∀ (start : Fix (Parse.Point F)) (endName w : Str) (out : List (AirwayFix (Parse.Point F) × Bool)),
        a.airways.expand start endName w (fun d p => a.locations.containsNavElement d (p.x, p.y)) = .ok (some out) →
        ∀ x ∈ out, ∃ l ∈ lines,
          (x.1.fix.designator = l.fix ∧ x.1.fix.coordinate = { x := num l.lng, y := num l.lat }) ∨
          ∃ n, (l.nb1 = some n ∨ l.nb2 = some n) ∧ x.1.fix.designator = n.designator ∧ x.1.fix.coordinate = { x := num n.lng, y := num n.lat } := by
  obtain ⟨num, text, lines, h1, h2, h3, _, _, h4⟩ := C109_airways h
  refine ⟨num, text, lines, h1, h2, h3, ?_⟩
  intro start endName w out ho x hx
  letI : Quantize (Parse.Point F) := ⟨fun p => env.quantize (p.x, p.y)⟩
  letI : Quantize (Locations.Point F) := ⟨env.quantize⟩
  obtain ⟨s, hs, hfix⟩ := C116_given _ _ h4 _ _ _ _ _ ho x hx
  obtain ⟨l, hl, hs⟩ := List.mem_flatMap.1 hs
  refine ⟨l, hl, ?_⟩
  have : ∃ n, (l.nb1 = some n ∨ l.nb2 = some n) ∧ s = Spec.Airway.segment (fun lat lng => ({ x := num lng, y := num lat } : Parse.Point F)) l n := by
    unfold segments at hs
    rcases List.mem_append.1 hs with hs | hs <;> rw [Option.mem_toList] at hs <;> obtain ⟨n, e1, e2⟩ := Option.map_eq_some_iff.1 hs
    · exact ⟨n, Or.inl e1, e2.symm⟩
    · exact ⟨n, Or.inr e1, e2.symm⟩
  obtain ⟨n, hn, rfl⟩ := this
  rcases hfix with ⟨e1, e2⟩ | e
  · exact Or.inl ⟨e1.symm, e2.symm⟩
  · exact Or.inr ⟨n, hn, by rw [← e]; rfl, by rw [← e]; rfl⟩

end

/-! ### A loaded adaptation and a route -/

namespace AdaptationExample
attribute [local instance] asciiTables

/-- Fixes and positions of a route. -/
private def places (start stop : Str) : Option (Option (List (Str × Int × Int))) :=
  match fromPrf (env files) prf with
  | .error _ => none
  | .ok a =>
    letI : Quantize (Parse.Point Int) := ⟨fun p => (p.x, p.y)⟩
    letI : Quantize (Locations.Point Int) := ⟨id⟩
    match a.airways.expand ⟨start, { x := 0, y := 0 }⟩ stop c!"L603"
      (fun d p => a.locations.containsNavElement d (p.x, p.y)) with
    | .ok r => some (r.map (·.map fun x => (x.1.fix.designator, x.1.fix.coordinate.x, x.1.fix.coordinate.y)))
    | .error _ => none

example : (places c!"ASPAT" c!"RODIX").map (·.map (·.map (·.1))) = some (some [c!"RODIX"]) := by decide +kernel

end AdaptationExample

end Verif.Props
