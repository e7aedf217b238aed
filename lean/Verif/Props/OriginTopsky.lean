import Verif.Proofs.OriginTopsky
import Verif.Props.Origin
/-!
# C114: where the texts of TopSky maps come from
-/

namespace Verif.Props
open Verif.Spec Verif.Spec.Origin Verif.Parse.Topsky
open Verif.Dms (DmsArith)
open Verif.Parse.SymbolRule (Close)

section
variable {F : Type} [F64 F] [DmsArith F] [DecidableEq F] [Close F] {G : Type} [F64 G] {upper : Str → Str}

/-- C114, TopSky maps: the maps with their lines, and the overridden maps. -/
theorem C114_topsky_maps (content : Str) (m : Maps F G) (h : parseMaps upper content = .ok m) :
    InOrder (m.maps.flatMap map) content ∧ InOrder (m.overrides.flatMap override) content :=
  have := Proofs.OriginTopsky.origin_file h
  ⟨this.1, this.2.1⟩

/-- C114, TopSky maps: symbols, colours and line styles, by name. -/
theorem C114_topsky_definitions (content : Str) (m : Maps F G) (h : parseMaps upper content = .ok m) :
    (∀ x ∈ m.symbols, x.1 = x.2.name ∧ x.1 <:+: content) ∧ (∀ x ∈ m.colours, x.1 = x.2.name ∧ x.1 <:+: content) ∧
      ∀ x ∈ m.lineStyles, x.1 = x.2.name ∧ InOrder (lineStyle x.2) content :=
  have := (Proofs.OriginTopsky.origin_file h).2.2
  ⟨this.1, this.2, this.3⟩
end

/-! ## Examples -/

section Examples
attribute [local instance] asciiTables
local instance originTopskyF64 : F64 Str := ⟨some, fun _ _ => rfl⟩
local instance originTopskyDms : DmsArith Str := ⟨fun d => d.sec⟩
local instance originTopskyClose : Close Str := ⟨fun a b => a == b⟩

/-- Blanks and a remark stand behind the text; the two lines are joined. -/
def originMaps : Str :=
  c!"MAP:Delta\nFOLDER:MUC\nACTIVE:ID:*:A,B:C:*\nACTIVE:RWY:ARR:EDDM26L:*:DEP:*:EDDM08R\nSYMBOL:VOR:DKB\nLINE:ABAMI:DKB\nLINE:DKB:LUPEN\nTEXT:DKB:my text ; no\nOVERRIDE_SCT_MAP:SIDs\\RWY\n"

def originMapsCheck : Bool :=
  match parseMaps (F := Str) (G := Str) id originMaps with
  | .ok m => decide (m.maps.flatMap map =
      [c!"Delta", c!"MUC", c!"A", c!"B", c!"C", c!"EDDM", c!"26L", c!"EDDM", c!"08R", c!"VOR", c!"DKB",
        c!"ABAMI", c!"DKB", c!"LUPEN", c!"DKB", c!"my text"])
  | .error _ => false

example : originMapsCheck = true := by decide +kernel
end Examples

end Verif.Props
