import Verif.Props.AirwayWay
import Verif.Props.AdaptationLoad
import Verif.Props.AdaptationExample
import Verif.Props.Locations
/-!
# Property theorems: routes along the airways of a loaded adaptation (C109)

The routes are described by the lines of the airway file that the profile names; see `Verif/Spec/Airway.lean` for the lines and
`Verif/Spec/AirwayWay.lean` for routes.
-/

namespace Verif.Props
open Verif.Adaptation Verif.Spec.Adaptation Verif.Proofs.Adaptation
open Verif.PrfPaths (Prf)
open Verif.AirwayGraph Verif.AirwayGraph.Spec
open Verif.Spec.Airway (Line IsFile LevelsFit segments)

section
variable {F G : Type} [F64 F] [Dms.DmsArith F] [DecidableEq F] [Locations.FloatOps F] [Parse.SymbolRule.Close F] [F64 G]
  [Display.F32Ops G] [UnicodeTables] [LE F] [DecidableLE F]

/-- C109: the airways of a loaded adaptation are those of the lines of its airway file: the file has at least one line, no
level is too large, and the graph is that of their segments in the order of the file. -/
theorem C109_airways {env : Env F G} {prf : Prf} {a : Adaptation F G} (h : fromPrf env prf = .ok a) :
    ∃ (num : Str → F) (text : Str) (lines : List Line), (∀ s, Verif.Spec.Isec.IsCoord s → F64.ofText s = some (num s)) ∧
      TextOf env prf .airways text ∧ IsFile text lines ∧ lines ≠ [] ∧ (∀ w ∈ lines, LevelsFit w) ∧
      @build _ ⟨fun p => env.quantize (p.x, p.y)⟩
        (lines.flatMap (segments fun lat lng => ({ x := num lng, y := num lat } : Parse.Point F))) = .ok a.airways := by
  obtain ⟨p, s, h1, h2, h3⟩ := (C74_contents h).1
  obtain ⟨num, hnum⟩ := ese_reads F
  have hcoord : ∀ s, Verif.Spec.Isec.IsCoord s → F64.ofText s = some (num s) := fun s hs => hnum s (Parse.Isec.isCoord_isDecimal hs)
  letI : AirwayGraph.Quantize (Parse.Point F) := ⟨fun p => env.quantize (p.x, p.y)⟩
  have h3' : Parse.Airway.parseAirwayTxt (F := F) s = .ok a.airways := h3
  by_cases hf : ∃ ws, ws ≠ [] ∧ IsFile s ws
  · obtain ⟨ws, hne, hws⟩ := hf
    by_cases hl : ∀ w ∈ ws, LevelsFit w
    · obtain ⟨g, hg, hb⟩ := C08_airway_ok num hcoord s ws hws hne hl
      rw [h3'] at hg
      cases hg
      exact ⟨num, s, ws, hcoord, ⟨p, h1, h2⟩, hws, hne, hl, hb⟩
    · rw [C08_airway_panic num hcoord s ws hws hl] at h3'; cases h3'
  · rw [(C08_airway_error_iff num hcoord s).2 hf] at h3'; cases h3'

/-- C109: a route along an airway of a loaded adaptation can be asked for without a panic.  It is returned over the fixes `p` if and
only if the lines of the airway file say so, as in C108; its last fix has the name that was asked for, each leg carries the direction
and the least level that the lines report for it, and each fix is marked with the answer of the loaded locations. -/
theorem C109_routes {env : Env F G} {prf : Prf} {a : Adaptation F G} (h : fromPrf env prf = .ok a) :
    ∃ (num : Str → F) (text : Str) (lines : List Line), (∀ s, Verif.Spec.Isec.IsCoord s → F64.ofText s = some (num s)) ∧
      TextOf env prf .airways text ∧ IsFile text lines ∧
      letI : Quantize (Parse.Point F) := ⟨fun p => env.quantize (p.x, p.y)⟩
      letI : Quantize (Locations.Point F) := ⟨env.quantize⟩
      let segs := lines.flatMap (segments fun lat lng => ({ x := num lng, y := num lat } : Parse.Point F))
      ∀ (start : Fix (Parse.Point F)) (endName w : Str),
        let result := a.airways.expand start endName w (fun d p => a.locations.containsNavElement d (p.x, p.y))
        (∃ r, result = .ok r) ∧
        (∀ p : List Key, (∃ out, result = .ok (some out) ∧ out.map (fun x => keyOf x.1) = p) ↔
          ∃ x z l₁ b l₂, startOf segs w start = some x ∧ firstOn segs w endName = some z ∧
            neighbours segs w x = l₁ ++ b :: l₂ ∧ (neighbours segs w x).length ≤ 2 ∧
            Way segs w z x b p ∧ p.length ≤ (allFixes segs).length ∧
            ∀ y ∈ l₁, ∀ q, Way segs w z x y q → (allFixes segs).length < q.length) ∧
        (∀ out, result = .ok (some out) →
          (∃ k, StartResolves segs w start k ∧ PathFrom segs w k (out.map (·.1))) ∧
          (∃ x, out.getLast? = some x ∧ x.1.fix.designator = endName) ∧
          ∀ x ∈ out, x.2 = a.locations.containsNavElement x.1.fix.designator (x.1.fix.coordinate.x, x.1.fix.coordinate.y)) := by
  obtain ⟨num, text, lines, h1, h2, h3, _, _, h4⟩ := C109_airways h
  refine ⟨num, text, lines, h1, h2, h3, ?_⟩
  intro segs start endName w result
  letI : Quantize (Parse.Point F) := ⟨fun p => env.quantize (p.x, p.y)⟩
  letI : Quantize (Locations.Point F) := ⟨env.quantize⟩
  refine ⟨C14_expand_total segs _ h4 .., fun p => C108_expand_iff segs _ h4 .., fun out ho => ?_⟩
  obtain ⟨k, c1, c2, c3, _, _, c4⟩ := C12_expand_sound segs _ h4 _ _ _ _ _ ho
  exact ⟨⟨k, c1, c2⟩, c3, c4⟩

end

/-! ### A loaded adaptation and a route -/

namespace AdaptationExample
attribute [local instance] asciiTables

/-- Fixes and flags of the route. -/
private def route (start stop : Str) : Option (Option (List (Str × Bool))) :=
  match fromPrf (env files) prf with
  | .error _ => none
  | .ok a =>
    letI : Quantize (Parse.Point Int) := ⟨fun p => (p.x, p.y)⟩
    letI : Quantize (Locations.Point Int) := ⟨id⟩
    match a.airways.expand ⟨start, { x := 0, y := 0 }⟩ stop c!"L603"
      (fun d p => a.locations.containsNavElement d (p.x, p.y)) with
    | .ok r => some (r.map (·.map fun x => (x.1.fix.designator, x.2)))
    | .error _ => none

/-- A profile is loaded and gives a route. -/
example : [route c!"ASPAT" c!"RODIX", route c!"RODIX" c!"ASPAT", route c!"ASPAT" c!"ABC"] =
    [some (some [(c!"RODIX", false)]), some (some [(c!"ASPAT", false)]), some none] := by decide +kernel

end AdaptationExample

end Verif.Props
