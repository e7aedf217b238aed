import Verif.Props.SchemaFields
import Verif.Props.AdaptationJsonExample
/-!
# C92 for the adaptation that is loaded
-/

namespace Verif.Props.AdaptationExample
open Verif.Adaptation Verif.Json Verif.Spec.Jsonnet Verif.Spec.Schema

attribute [local instance] asciiTables

/-- Not everything has the shape of an adaptation. -/
example : ¬ Fits Spec.Schema.adaptation (.obj []) := by
  intro h
  cases h with
  | record h => cases h

/-- A colour is written with `#`. -/
example : ¬ Fits .colour (.str c!"ff0000") := by
  intro h
  cases h

/-- The names are found where the specification says. -/
example : loaded (fromPrf richEnv richPrf) (fun a =>
      let j := (AdaptationJson.adaptation Int Int).to a
      let text (path : List Str) : Str := match lookup j path with | some (.str s) => s | _ => []
      let number (path : List Str) : Int := match lookup j path with | some (.num q) => q.num | _ => 0
      decide (text [c!"settings", c!"maps", c!"auto_folder"] = a.settings.maps.autoFolder) &&
      decide (number [c!"settings", c!"maps", c!"font_size"] = a.settings.maps.fontSize) &&
      decide (0 < a.settings.maps.fontSize) && decide (a.settings.maps.autoFolder ≠ []) &&
      decide (text [c!"colours", c!"map", c!"sid"] = Colours.serialize (a.mapColours .sid))) = .inr true := by decide +kernel

end Verif.Props.AdaptationExample
