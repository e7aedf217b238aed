import Verif.Model.AdaptationJson
/-!
# `/repo/src/adaptation/mod.rs`: overlays

Models `apply_jsonnet_overlays` and `from_prf_with_overlays`.  What Jsonnet computes is the parameter `Env.evaluate`.
-/

namespace Verif.Adaptation
open Verif.PrfPaths (Prf Path)
open Verif.Json (JsonFloat)
open Verif.Display (F32Ops)
open Verif.Dms (DmsArith)
open Verif.Parse.SymbolRule (Close)
open Verif.Locations (FloatOps)

variable {F G : Type} [F64 F] [DmsArith F] [DecidableEq F] [FloatOps F] [Close F] [F64 G] [F32Ops G] [UnicodeTables]
  [LE F] [DecidableLE F] [JsonFloat F] [JsonFloat G]

/-- The adaptation is written as JSON, merged with the overlays by Jsonnet, and read again, mod.rs 283-306. -/
def merge (env : Env F G) (a : Adaptation F G) (overlays : List Path) : Option (Adaptation F G) :=
  (env.evaluate ((AdaptationJson.adaptation F G).to a) overlays).bind (AdaptationJson.adaptation F G).of

/-- `apply_jsonnet_overlays`, mod.rs 275-313 -/
def applyOverlays (env : Env F G) (a : Adaptation F G) (overlays : List Path) : Except Failure (Adaptation F G) :=
  if overlays.isEmpty then .ok a
  else
    match merge env a overlays with
    | none => .error .overlays
    | some merged => .ok (rebuild env merged)

/-- `from_prf_with_overlays`, mod.rs 345-351 -/
def fromPrfWithOverlays (env : Env F G) (prf : Prf) (overlays : List Path) : Except Failure (Adaptation F G) := do
  let a ← fromPrf env prf
  applyOverlays env a overlays

end Verif.Adaptation
