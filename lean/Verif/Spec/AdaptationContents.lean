import Verif.Spec.AdaptationLoad
import Verif.Spec.Colours
import Verif.Spec.Display
import Verif.Spec.Maps
import Verif.Spec.SctItems
import Verif.Spec.Settings
/-!
# What is in an adaptation: specification
-/

namespace Verif.Spec.Adaptation
open Verif.Adaptation
open Verif.PrfPaths (Prf Path)
open Verif.Display (F32Ops)
open Verif.Dms (DmsArith)
open Verif.Parse.SymbolRule (Close)
open Verif.Parse.Topsky (Topsky)
open Verif.Settings (SquawkDef)

/-! ## The optional files -/

section
variable {F G : Type} [F64 F] [DmsArith F] [DecidableEq F] [Close F] [F64 G] [F32Ops G] [UnicodeTables]

/-- The files of TopSky say `t`, or there is no TopSky that can be used. -/
def TopskyIs (env : Env F G) (prf : Prf) : Option (Topsky F G) → Prop
  | none => NoTopsky env prf
  | some t => ∃ dir, PrfPaths.topskyPath prf (env.order .settings prf.settings) = .ok (some dir) ∧
      Parse.Topsky.parse env.upper (text env (PrfPaths.join dir c!"TopSkySettings.txt"))
        (text env (PrfPaths.join dir c!"TopSkySymbols.txt")) (text env (PrfPaths.join dir c!"TopSkyMaps.txt")) = .ok t

/-- The file with the squawks says `l`, or there is none that can be used. -/
def SquawksAre (env : Env F G) (prf : Prf) : Option (List SquawkDef) → Prop
  | none => NoSquawks env prf
  | some l => ∃ p bytes j x, PrfPaths.squawksPath prf (env.order .settings prf.settings) = .ok (some p) ∧ env.read p = some bytes ∧
      JsonText.Document env.fits bytes j ∧ Squawks.Says j x ∧ l = x.squawks.map Prod.fst

end

/-! ## Settings -/

section
open Verif.Spec.Display (IsU32)
variable {F G : Type} [F64 G] [F32Ops G]

/-- What the settings file of TopSky sets, see `C73_topsky_settings`; `value` gives the values of the names in the file, and
`numG` the number that a numeral stands for. -/
structure SetBy (numG : Str → G) (value : Str → Option Str) (s : Display.Settings F G) : Prop where
  dots : ∀ v n, value c!"Track_HistoryDots" = some v → IsU32 v n → n ≠ 0 → s.historyDots = ⟨true, n, List.range 9⟩
  noDots : ∀ v, value c!"Track_HistoryDots" = some v → IsU32 v 0 → s.historyDots = ⟨false, 6, List.range 9⟩
  defaultDots : (∀ v n, value c!"Track_HistoryDots" = some v → ¬ IsU32 v n) → s.historyDots = ⟨true, 6, List.range 9⟩
  vector : ∀ v x, value c!"Track_PredictionLine" = some v → F64.ofText v = some x → F32Ops.eq x (numG c!"0.0") = false →
    s.vector.enabled = true ∧ s.vector.length = x
  noVector : ∀ v x, value c!"Track_PredictionLine" = some v → F64.ofText v = some x → F32Ops.eq x (numG c!"0.0") = true →
    s.vector.enabled = false ∧ s.vector.length = numG c!"1.0"
  defaultVector : (∀ v, value c!"Track_PredictionLine" = some v → F64.ofText (F := G) v = none) →
    F32Ops.eq (numG c!"1.0") (numG c!"0.0") = false → s.vector.enabled = true ∧ s.vector.length = numG c!"1.0"
  fontSize : ∀ v x, value c!"Maps_FontSize" = some v → F64.ofText v = some x → s.maps.fontSize = x
  defaultFontSize : (∀ v, value c!"Maps_FontSize" = some v → F64.ofText (F := G) v = none) → s.maps.fontSize = numG c!"12.0"
  coopans : s.coopans = false ↔ value c!"Setup_COOPANS" = some c!"0"

end

/-! ## Maps -/

section
open Verif.Maps (World)
variable {F G : Type} [DecidableEq F] [F32Ops G]

/-- A rule of a map as it is read, and the same rule as it is drawn: symbols and texts have no alignment of their own. -/
inductive SameRule : Parse.Topsky.MapRule F G → @Maps.MapRule (world F G) → Prop
  | folder (s) : SameRule (.folder s) (@Maps.MapRule.folder (world F G) s)
  | colour (s) : SameRule (.colour s) (@Maps.MapRule.colour (world F G) s)
  | asrData (l) : SameRule (.asrData l) (@Maps.MapRule.asrData (world F G) l)
  | active (a) : SameRule (.active a) (@Maps.MapRule.active (world F G) a)
  | andActive (a) : SameRule (.andActive a) (@Maps.MapRule.andActive (world F G) a)
  | global : SameRule .global (@Maps.MapRule.global (world F G))
  | screenSpecific : SameRule .screenSpecific (@Maps.MapRule.screenSpecific (world F G))
  | hidden : SameRule .hidden (@Maps.MapRule.hidden (world F G))
  | layer (x) : SameRule (.layer x) (@Maps.MapRule.layer (world F G) x)
  | zoom (x) : SameRule (.zoom x) (@Maps.MapRule.zoom (world F G) x)
  | sizeExact (x) : SameRule (.fontSize (.exact x)) (@Maps.MapRule.fontSize (world F G) (@Maps.FontSize.exact (world F G) x))
  | sizeAdd (x) : SameRule (.fontSize (.add x)) (@Maps.MapRule.fontSize (world F G) (@Maps.FontSize.add (world F G) x))
  | sizeSubtract (x) : SameRule (.fontSize (.subtract x)) (@Maps.MapRule.fontSize (world F G) (@Maps.FontSize.subtract (world F G) x))
  | sizeMultiply (x) : SameRule (.fontSize (.multiply x)) (@Maps.MapRule.fontSize (world F G) (@Maps.FontSize.multiply (world F G) x))
  | sizeDefault : SameRule (.fontSize .default) (@Maps.MapRule.fontSize (world F G) (@Maps.FontSize.default (world F G)))
  | lineStyle (s) : SameRule (.lineStyle s) (@Maps.MapRule.lineStyle (world F G) s)
  | line (l) : SameRule (.line l) (@Maps.MapRule.line (world F G) l)
  | coordPoly (s) : SameRule (.coordPoly s) (@Maps.MapRule.coordPoly (world F G) s)
  | coordLine : SameRule .coordLine (@Maps.MapRule.coordLine (world F G))
  | coord (l) : SameRule (.coord l) (@Maps.MapRule.coord (world F G) l)
  | text (t : Parse.Topsky.Text F) : SameRule (.text t) (@Maps.MapRule.text (world F G) (@Maps.Text.mk (world F G) t.location t.content none))
  | bareSymbol (s : Parse.Topsky.MapSymbol F) (h : s.label = none) :
    SameRule (.symbol s) (@Maps.MapRule.symbol (world F G) (@Maps.MapSymbol.mk (world F G) s.name s.location none none))
  | symbol (s : Parse.Topsky.MapSymbol F) (l) (h : s.label = some l) :
    SameRule (.symbol s) (@Maps.MapRule.symbol (world F G) (@Maps.MapSymbol.mk (world F G) s.name s.location (some (l.text, l.pos)) none))

/-- The same map: the same name and the same rules. -/
def SameMap (d : Parse.Topsky.MapDef F G) (d' : @Maps.MapDef (world F G)) : Prop :=
  @Maps.MapDef.name (world F G) d' = d.name ∧ List.Forall₂ SameRule d.rules (@Maps.MapDef.rules (world F G) d')

end

section
open Verif.Maps Verif.Maps.Spec Verif.Maps.World
variable [World]

/-- `m` is the map made from the definition `d` and named `n`.  Missing for polygons are their attributes, see
`C29_attributes_partial`. -/
def IsMapOf (s : Maps.Settings) (getColour : Str → Option Col) (conv : Loc → Option Point) (d : MapDef) (n : Str) (m : MapV) : Prop :=
  m.name = n ∧ m.folder = folderOf s d.rules ∧ (m.hidden = true ↔ isHidden d.rules) ∧ m.active = activeGroups d.rules ∧
  ∃ c, (d.rules.filterMap fun | .colour n => getColour n | _ => none).head? = some c ∧
    let all := expected s getColour conv (initial s c) d.rules
    (m.groups.flatMap fun g => g.lines.map fun x => (g.attr, x)) = linesOf all ∧
    (m.groups.flatMap fun g => g.symbols.map fun x => (g.attr, x)) = symbolsOf all ∧
    (m.groups.flatMap fun g => g.labels.map fun x => (g.attr, x)) = labelsOf all ∧
    m.groups.flatMap (·.polygons) = (polygonsOf all).map (·.2)

end
end Verif.Spec.Adaptation
