import Verif.Props.JsonFloat
import Verif.Props.AdaptationJsonExample
/-!
# Coordinates that are changed by an overlay that says nothing

The world of `Verif.Props.AdaptationContentsExample`, with numbers of which only the tens are read: the hypotheses of `C105_airport` are
met.
-/

namespace Verif.Props.JsonFloatExample
open Verif.Adaptation Verif.Spec.Adaptation Verif.Json Verif.Spec.Json Verif.Spec.Jsonnet Verif.Props.AdaptationExample
open Verif.PrfPaths (Prf Path)

attribute [local instance] asciiTables

/-- Whole numbers of which the last digit is lost -/
def tens : JsonFloat Int := ⟨fun n => some n, fun q => q.num / 10 * 10⟩

attribute [local instance] tens

def empty : List Path := [[c!"home", c!"empty.jsonnet"]]

theorem empty_evaluates : Evaluates richEnv empty [.object []] := evaluates rfl (by simp [Doc.Proper, ProperFields])

example : ∃ a b, fromPrf richEnv richPrf = .ok a ∧ applyOverlays richEnv a empty = .ok b ∧
    (Map.get? a.locations.airports c!"EDDM").map (·.coordinate) = some (11, 48) ∧
    (Map.get? b.locations.airports c!"EDDM").map (·.coordinate) = some (10, 40) := by
  obtain ⟨a, h1, h2⟩ := of_loaded (r := fromPrf richEnv richPrf)
    (f := fun a => decide ((Map.get? a.locations.airports c!"EDDM").map (·.coordinate) = some (11, 48))) (by decide +kernel)
  obtain ⟨b, h3, _⟩ := of_loaded (r := fromPrfWithOverlays richEnv richPrf empty) (f := fun _ => true) (by decide +kernel)
  have hb : applyOverlays richEnv a empty = .ok b := by
    unfold fromPrfWithOverlays at h3
    rw [h1] at h3
    exact h3
  rw [decide_eq_true_eq] at h2
  refine ⟨a, b, h1, hb, h2, ?_⟩
  obtain ⟨p, hp, hc⟩ := Option.map_eq_some_iff.1 h2
  exact C105_airport empty_evaluates (by simp [empty]) (sum_empty (docs := [.object []]) (by simp) a) hb (k := c!"EDDM")
    (by intro d hd ht; obtain rfl := List.mem_singleton.1 hd; cases ht with | replace _ hm => simp at hm | add hm _ => simp at hm)
    hp (q := 11) (q' := 48) (by rw [hc]; rfl) (by rw [hc]; rfl)

/-- Texts with 15 digits are read as the nearest double: `C105_short_partial`. -/
example : JsonFloat.read c!"48.3537833333333" = some (Model.Binary64.rnd (483537833333333 / 10 ^ 13)) := by
  have h := C105_short_partial (n := ⟨false, c!"48", some c!"3537833333333", none⟩) (x := Model.Binary64.rnd _)
    ⟨rfl, (by intro h; cases h), (by intro f h; cases h; rfl), (by intro _ _ _ h; cases h)⟩ (Model.Binary64.rnd_rounded _)
    (by decide +kernel) (by decide) (by decide)
  refine (Eq.trans (congrArg JsonFloat.read ?_) h).trans (congrArg some (congrArg _ ?_))
  · decide
  · rw [Proofs.JsonFloat.value_eq]
    have : digitsValue (c!"48" ++ (some c!"3537833333333").getD []) = 483537833333333 := by decide +kernel
    rw [this]
    norm_num [Spec.JsonText.Numeral.power, zpow_neg]

end Verif.Props.JsonFloatExample
