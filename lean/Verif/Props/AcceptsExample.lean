import Verif.Props.Accepts
import Verif.Props.AdaptationJsonExample
/-!
# C93 for the adaptation that is loaded
-/

namespace Verif.Props.AdaptationExample
open Verif.Adaptation Verif.Json Verif.Spec.Jsonnet Verif.Spec.Schema
open Verif.PrfPaths (Path)

attribute [local instance] asciiTables

/-- An empty document is not an adaptation. -/
example : ¬ Accepts Spec.Schema.adaptation (.obj []) := by
  rw [← C93_accepts (F := Int) (G := Int)]
  simp [show (AdaptationJson.adaptation Int Int).of (.obj []) = none from rfl]

/-- What is loaded is accepted. -/
example : ∃ a, fromPrf richEnv richPrf = .ok a ∧ Accepts Spec.Schema.adaptation ((AdaptationJson.adaptation Int Int).to a) := by
  obtain ⟨a, h1, h2⟩ := rich_keeps
  refine ⟨a, h1, (C93_accepts (F := Int) (G := Int) _).1 ?_⟩
  rw [C88_json_round_trip_partial a h2]
  rfl

/-- The same files with one other overlay -/
def envWith (d : Doc) : Env Int Int := { richEnv with evaluate := fun j _ => plus j d }

def one : List Path := [[c!"home", c!"one.jsonnet"]]

theorem one_evaluates {d : Doc} (h : d.Proper) : Evaluates (envWith d) one [d] :=
  ⟨by simpa using h, rfl, fun j r hr => by
    rw [List.foldlM_cons] at hr
    obtain ⟨j', h1, h2⟩ := Option.bind_eq_some_iff.1 hr
    cases h2
    exact h1⟩

/-- An overlay that replaces the coordination times, with an unknown field and without `fir_overrides`; the times are in another
order. -/
def times : Doc := .object [(c!"settings", true, .object [(c!"coordination", false, .value (.obj [
  (c!"lam_timeout", .num 5), (c!"act_time", .num 1), (c!"unknown", .null), (c!"abi_time", .num 2), (c!"rev_time", .num 3)]))])]

/-- It is accepted, and there are no overrides. -/
example : loaded (fromPrfWithOverlays (envWith times) richPrf one) (fun a =>
    decide (a.settings.coordination.act = 1) && decide (a.settings.coordination.lamTimeout = 5) &&
    decide (a.settings.coordination.firOverrides = [])) = .inr true := by decide +kernel

/-- The same as an array, where the last field may be left out too -/
def timesArray : Doc := .object [(c!"settings", true, .object [(c!"coordination", false, .value (.arr [
  .num 1, .num 2, .num 3, .num 5]))])]

example : loaded (fromPrfWithOverlays (envWith timesArray) richPrf one) (fun a =>
    decide (a.settings.coordination.act = 1) && decide (a.settings.coordination.lamTimeout = 5) &&
    decide (a.settings.coordination.firOverrides = [])) = .inr true := by decide +kernel

/-- The specification says that these are the same. -/
example : Completes Spec.Schema.coordination
    (.arr [.num 1, .num 2, .num 3, .num 5])
    (.obj [(c!"act_time", .num 1), (c!"abi_time", .num 2), (c!"rev_time", .num 3), (c!"lam_timeout", .num 5), (c!"fir_overrides", .obj [])]) :=
  .sequence (.cons (.same ..) rfl <| .cons (.same ..) rfl <| .cons (.same ..) rfl <| .cons (.same ..) rfl <| .ended rfl rfl <| .nil _)

/-- An overlay with a text for a number -/
def mistake : Doc := .object [(c!"settings", true, .object [(c!"coordination", true, .object [
  (c!"act_time", false, .value (.str c!"soon"))])])]

/-- It is refused: the sum is not accepted. -/
example : ∃ a r, fromPrf (envWith mistake) richPrf = .ok a ∧ plus ((AdaptationJson.adaptation Int Int).to a) mistake = some r ∧
    applyOverlays (envWith mistake) a one = .error .overlays ∧ ¬ Accepts Spec.Schema.adaptation r := by
  obtain ⟨a, h1, h2⟩ := of_loaded (r := fromPrf (envWith mistake) richPrf) (f := fun a =>
    (plus ((AdaptationJson.adaptation Int Int).to a) mistake).isSome && match applyOverlays (envWith mistake) a one with
      | .error .overlays => true
      | _ => false) (by decide +kernel)
  simp only [Bool.and_eq_true] at h2
  obtain ⟨r, hr⟩ := Option.isSome_iff_exists.1 h2.1
  have h3 : applyOverlays (envWith mistake) a one = .error .overlays := by
    have := h2.2
    split at this
    · assumption
    · cases this
  exact ⟨a, r, h1, hr, h3, (C93_overlays (one_evaluates (by simp [mistake, Doc.Proper, ProperFields])) (by simp [one])
    (by rw [List.foldlM_cons]; exact Option.bind_eq_some_iff.2 ⟨r, hr, rfl⟩)).2.1 h3⟩

end Verif.Props.AdaptationExample
