import Verif.Props.Setup
import Verif.Props.AdaptationExample
/-!
# An adaptation given by `adaptation.toml`, and its copy
-/

namespace Verif.Props.AdaptationExample
open Verif.Adaptation Verif.Spec.Adaptation Verif.Spec.PrfPaths Verif.Spec.Moved Verif.Spec.Setup
open Verif.PrfPaths (Prf Path isWhitespace)

attribute [local instance] asciiTables

def profile : Str := lines [c!"Settings\tsector\t\\edmm.sct", c!"Settings\tairways\t\\airway.txt",
  c!"Settings\tSettingsfileSYMBOLOGY\t\\sym.txt", c!"Settings\tairports\t\\airports.txt", c!"Settings\tairportcoords\t\\coords.txt",
  c!"Settings\taircraft\t\\aircraft.txt", c!"Settings\tairlines\t\\airlines.txt", c!"Plugins\tPlugin0\t\\TopSky.dll",
  c!"RecentFiles\tRecent1\t\\x.asr"]

def tomlFile : Str := c!"prf = \"edmm.prf\"\noverlays = []\n"

def setupFiles : List (Str × Str) := [(c!"edmm.prf", profile), (c!"adaptation.toml", tomlFile), (c!"x.jsonnet", c!"…")] ++ files

/-- The same files are in `/home` and in `/copy`. -/
def setupEnv (overlays : List Str) : SetupEnv Int Int where
  toEnv := { env setupFiles with
    read := fun p => match p with
      | [d, n] => if d = c!"home" ∨ d = c!"copy" then (Map.get? setupFiles n).map bytes else none
      | _ => none }
  toml b := if b = bytes tomlFile then some (c!"edmm.prf", overlays) else none
  canonicalize p := match p with
    | [d, n] => if (d = c!"home" ∨ d = c!"copy") ∧ (Map.get? setupFiles n).isSome then some p else none
    | _ => none
  cwd := some [c!"tmp"]

def loadedSetup {A : Type} (r : Except SetupFailure (Adaptation Int Int)) (f : Adaptation Int Int → A) : SetupFailure ⊕ A :=
  match r with
  | .ok a => .inr (f a)
  | .error e => .inl e

/-- Both can be loaded. -/
example : loadedSetup (fromAdaptationToml (setupEnv []) [c!"home", c!"adaptation.toml"]) (fun a => (a.name, a.settings.asrFiles)) =
    .inr (c!"EDMM 2401", [[c!"home", c!"x.asr"]]) := by decide +kernel

example : loadedSetup (fromAdaptationToml (setupEnv []) [c!"copy", c!"adaptation.toml"]) (fun a => (a.name, a.settings.asrFiles)) =
    .inr (c!"EDMM 2401", [[c!"copy", c!"x.asr"]]) := by decide +kernel

/-- With an overlay, and with an overlay that is missing. -/
example : loadedSetup (fromAdaptationToml (setupEnv [c!"x.jsonnet"]) [c!"home", c!"adaptation.toml"]) (fun a => a.name) =
    .inr c!"merged" := by decide +kernel

example : loadedSetup (fromAdaptationToml (setupEnv [c!"x.jsonnet", c!"y.jsonnet"]) [c!"home", c!"adaptation.toml"]) (fun a => a.name) =
    .inl (.unreadable [c!"home", c!"y.jsonnet"]) := by decide +kernel

/-! ## The hypotheses of C91 are met -/

theorem same_tree : SameTree (setupEnv []).toEnv [c!"home"] [c!"copy"] := by
  intro rel _
  match rel with
  | [] => rfl
  | [n] => rfl
  | _ :: _ :: _ => rfl

theorem same_links : SameLinks (setupEnv []) [c!"home"] [c!"copy"] := by
  intro rel hd
  match rel with
  | [] => exact .inl ⟨rfl, rfl⟩
  | _ :: _ :: _ => exact .inl ⟨rfl, rfl⟩
  | [n] =>
    cases hn : Map.get? setupFiles n with
    | none => exact .inl ⟨by simp [setupEnv, hn], by simp [setupEnv, hn]⟩
    | some b => exact .inr ⟨[n], hd, by simp [setupEnv, hn], by simp [setupEnv, hn]⟩

theorem canonical (p q : Path) (h : (setupEnv []).canonicalize p = some q) : (setupEnv []).canonicalize q = some q := by
  have : p = q := by
    simp only [setupEnv] at h
    split at h
    · split at h
      · cases h; rfl
      · cases h
    · cases h
  subst this
  exact h

/-- The values of the profile name files in its directory. -/
theorem inside_of {v : Str} {name : Str} (hv : v = '\\' :: name) (hn : ∀ c ∈ name, ¬ IsSep c) (hw : ∀ c, name.getLast? = some c → isWhitespace c = false)
    (h1 : name ≠ []) (h2 : name ≠ ['.']) (h3 : name ≠ ['.', '.']) : Inside v := by
  subst hv
  intro c rel cs ht hs hr hd
  have e1 : Trimmed isWhitespace ('\\' :: name) ('\\' :: name) := ⟨[], by simp, by simp, fun c hc => by
    rw [List.getLast?_cons] at hc
    cases hg : name.getLast? with
    | none => rw [List.getLast?_eq_none_iff] at hg; exact absurd hg h1
    | some x => rw [hg] at hc; cases hc; exact hw _ hg⟩
  have e2 := (PrfPaths.trimEnd_of ht).symm.trans (PrfPaths.trimEnd_of e1)
  cases e2
  have e3 : Denotes name [name] := ⟨[name], .last name hn, by simp [h1, h2]⟩
  have e4 := (PrfPaths.components_of hd).symm.trans (PrfPaths.components_of e3)
  subst e4
  exact ⟨by simp, by simpa [eq_comm] using h3⟩

def settings : Parse.Prf.Settings := [((c!"Settings", c!"sector"), c!"\\edmm.sct"), ((c!"Settings", c!"airways"), c!"\\airway.txt"),
  ((c!"Settings", c!"SettingsfileSYMBOLOGY"), c!"\\sym.txt"), ((c!"Settings", c!"airports"), c!"\\airports.txt"),
  ((c!"Settings", c!"airportcoords"), c!"\\coords.txt"), ((c!"Settings", c!"aircraft"), c!"\\aircraft.txt"),
  ((c!"Settings", c!"airlines"), c!"\\airlines.txt"), ((c!"Plugins", c!"Plugin0"), c!"\\TopSky.dll"),
  ((c!"RecentFiles", c!"Recent1"), c!"\\x.asr")]

theorem settings_parsed : Parse.Prf.parsePrf (Decode.readToString (setupEnv []).lossy (bytes profile)) = .ok settings := by decide +kernel

instance (c : Char) : Decidable (IsSep c) := inferInstanceAs (Decidable (_ ∨ _))

theorem settings_inside : ∀ e ∈ settings, Inside e.2 := by
  have : ∀ e ∈ settings, e.2 = '\\' :: e.2.drop 1 ∧ (∀ c ∈ e.2.drop 1, ¬ IsSep c) ∧ ((e.2.drop 1).getLast?.all fun c => !isWhitespace c) = true ∧
      e.2.drop 1 ≠ [] ∧ e.2.drop 1 ≠ ['.'] ∧ e.2.drop 1 ≠ ['.', '.'] := by decide +kernel
  intro e he
  obtain ⟨h1, h2, h3, h4, h5, h6⟩ := this e he
  refine inside_of h1 h2 (fun c hc => ?_) h4 h5 h6
  rw [hc] at h3
  simpa using h3

/-- C91 for the example: what is loaded from the copy -/
example : ∃ a paths, fromAdaptationToml (setupEnv []) [c!"home", c!"adaptation.toml"] = .ok a ∧
    fromAdaptationToml (setupEnv []) [c!"copy", c!"adaptation.toml"] = .ok (withAsrFiles a paths) := by
  have h : loadedSetup (fromAdaptationToml (setupEnv []) [c!"home", c!"adaptation.toml"]) (fun _ => ()) = .inr () := by decide +kernel
  cases ha : fromAdaptationToml (setupEnv []) [c!"home", c!"adaptation.toml"] with
  | error e => rw [ha] at h; cases h
  | ok a =>
    obtain ⟨paths, hp, _⟩ := C91_moved_setup (dir := [c!"home"]) (dir' := [c!"copy"]) (name := c!"adaptation.toml") (bytes := bytes tomlFile)
      (n := c!"edmm.prf") (rel := []) (cwd := [c!"tmp"]) (fun _ _ _ l => List.reverse_perm l) same_tree same_links canonical rfl rfl (by decide)
      (by decide +kernel) (by simp [Proper]) (by decide +kernel) (by
        intro p content st h1 h2 h3
        have : (setupEnv []).canonicalize ([c!"home"] ++ [c!"edmm.prf"]) = some [c!"home", c!"edmm.prf"] := by decide +kernel
        rw [this] at h1
        cases h1
        have : (setupEnv []).read [c!"home", c!"edmm.prf"] = some (bytes profile) := by decide +kernel
        rw [this] at h2
        cases h2
        have h3' := settings_parsed.symm.trans h3
        cases h3'
        exact settings_inside) ha
    exact ⟨a, paths, rfl, hp⟩

end Verif.Props.AdaptationExample
