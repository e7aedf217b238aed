import Verif.Props.SetupErrors
import Verif.Props.SetupExample
/-!
# The hypotheses of the theorems about errors of `adaptation.toml` are met
-/

namespace Verif.Props.AdaptationExample
open Verif.Adaptation Verif.Spec.Setup
open Verif.PrfPaths (Path)

attribute [local instance] asciiTables

/-- `/home` and `/copy` as before, and a setup that names a profile and overlays at will. -/
def naming (profile : Str) (overlays : List Str) : SetupEnv Int Int :=
  { setupEnv [] with toml := fun b => if b = bytes tomlFile then some (profile, overlays) else none }

/-- A directory without `adaptation.toml`. -/
example : fromAdaptationToml (setupEnv []) [c!"etc", c!"adaptation.toml"] = .error (.unreadable [c!"etc", c!"adaptation.toml"]) :=
  C90_no_file (by decide +kernel)

/-- A profile in the place of `adaptation.toml`. -/
example : fromAdaptationToml (setupEnv []) [c!"home", c!"edmm.prf"] = .error .toml :=
  C90_bad_toml (bytes := bytes profile) (by decide +kernel) (by decide +kernel)

/-- A simple name is in the directory. -/
theorem named {s : Str} (h : Proper s) : Named [c!"home"] s [c!"home", s] := by
  have := Named.relative (dir := [c!"home"]) (n := s) (ns := []) (by simpa using h)
  simpa using this

/-- A profile that is missing -/
example : fromAdaptationToml (naming c!"lost.prf" [c!"x.jsonnet"]) [c!"home", c!"adaptation.toml"] = .error (.unreadable [c!"home", c!"lost.prf"]) :=
  C90_profile_missing (dir := [c!"home"]) (bytes := bytes tomlFile) (by decide +kernel) (overlays := [c!"x.jsonnet"]) (by decide +kernel)
    (named (by simp [Proper])) (by decide +kernel)

/-- The second of three overlays is missing, and so is the third. -/
example : fromAdaptationToml (naming c!"edmm.prf" [c!"x.jsonnet", c!"y.jsonnet", c!"z.jsonnet"]) [c!"home", c!"adaptation.toml"] =
    .error (.unreadable [c!"home", c!"y.jsonnet"]) :=
  C90_overlay_missing (dir := [c!"home"]) (bytes := bytes tomlFile) (by decide +kernel) (before := [c!"x.jsonnet"]) (after := [c!"z.jsonnet"])
    (profile := c!"edmm.prf") (q := [c!"home", c!"edmm.prf"]) (by decide +kernel) ⟨_, named (by simp [Proper]), by decide +kernel⟩
    (by intro t ht; cases List.mem_singleton.1 ht; exact ⟨[c!"home", c!"x.jsonnet"], _, named (by simp [Proper]), by decide +kernel⟩) (named (by simp [Proper])) (by decide +kernel)

/-- Something else in the place of the profile -/
example : fromAdaptationToml (naming c!"x.jsonnet" []) [c!"home", c!"adaptation.toml"] = .error .prf := by
  refine (C90_profile_unusable (env := naming c!"x.jsonnet" []) (dir := [c!"home"]) (bytes := bytes tomlFile) (by decide +kernel) (overlays := [])
    (profile := c!"x.jsonnet") (p := [c!"home", c!"x.jsonnet"]) (by decide +kernel) ⟨_, named (by simp [Proper]), by decide +kernel⟩ (by simp)).2 (bytes c!"…") (by decide +kernel) ?_
  rw [← (C07_prf_no_panic _).2]
  rintro ⟨m, hm⟩
  have : Parse.Prf.parsePrf (Decode.readToString (naming c!"x.jsonnet" []).lossy (bytes c!"…")) = .error .parseError := by decide +kernel
  rw [this] at hm
  cases hm

example : (setupEnv []).read [] = none := rfl

end Verif.Props.AdaptationExample
