import Verif.Props.TwoRuns
import Verif.Props.StableExample
import Verif.Props.AdaptationContentsExample
/-!
# Two runs of the program: the hypotheses of C110 are met, and are needed
-/

namespace Verif.Props.AdaptationExample
open Verif.Adaptation Verif.Spec.Adaptation Verif.Proofs.Adaptation Verif.Spec.TwoRuns
open Verif.PrfPaths (Prf Path)

attribute [local instance] asciiTables

/-- Another run: hash maps are iterated over forwards, and hash sets begin with their last element. -/
def rerun (e : Env Int Int) : Env Int Int := { e with choose := List.getLast?, order := fun _ _ _ l => l }

theorem otherRun (fs : List (Str × Str)) : OtherRun (env fs) (rerun (env fs)) where
  same := rfl
  sane := ⟨anyOrder fs, Polygon.chooses_head?⟩
  sane' := ⟨fun _ _ _ _ => .refl _, chooses_getLast?⟩

theorem oneFile_of {prf : Prf} {name : Str}
    (h : ∀ x ∈ prf.settings, ∀ y ∈ prf.settings,
      (match PrfPaths.joinSettingsPath prf x.2 with | .ok p => p.getLast? | .error _ => none) = some name →
      (match PrfPaths.joinSettingsPath prf y.2 with | .ok p => p.getLast? | .error _ => none) = some name →
      (match PrfPaths.joinSettingsPath prf x.2 with | .ok p => p.dropLast | .error _ => []) =
      (match PrfPaths.joinSettingsPath prf y.2 with | .ok p => p.dropLast | .error _ => [])) : OneFile prf name := by
  intro k v d k' v' d' hm hm' hv hv'
  have := h _ hm _ hm'
  simp only [hv, hv', List.getLast?_concat, List.dropLast_concat] at this
  exact this trivial trivial

/-- The profile with a TopSky and squawks names one place for each. -/
theorem rich_one : richPrf.path ≠ [] ∧ richPrf.cwd ≠ none ∧ OneFile richPrf c!"TopSky.dll" ∧ OneFile richPrf c!"Squawks.dll" :=
  ⟨by decide, by decide, oneFile_of (by decide +kernel), oneFile_of (by decide +kernel)⟩

theorem rich_run : OtherRun richEnv (rerun richEnv) := otherRun richFiles

/-- C110 says something: both runs load an adaptation. -/
example : ∃ a a', fromPrf richEnv richPrf = .ok a ∧ fromPrf (rerun richEnv) richPrf = .ok a' ∧ SameContents a a' := by
  obtain ⟨a, ha⟩ := rich_loads
  obtain ⟨a', ha', h⟩ := C110_loads rich_run rich_one.1 rich_one.2.1 rich_one.2.2.1 rich_one.2.2.2 ha
  exact ⟨a, a', ha, ha', h⟩

/-- Line styles whose names are the same in upper case -/
def styled : List (Str × Str) :=
  (c!"TopSkyMaps.txt", lines [c!"LINESTYLEDEF:FINE:255:-:1,5", c!"LINESTYLEDEF:fine:255:-:2,6", c!"MAP:x", c!"COLOR:red", c!"TEXT:MUN:abc"]) ::
    files

/-- The same world with upper case for ASCII. -/
def upperEnv : Env Int Int := { env styled with upper := fun s => s.map Char.toUpper }

theorem loaded_inr {A : Type} {r : Except Failure (Adaptation Int Int)} {f : Adaptation Int Int → A} {x : A} (h : loaded r f = .inr x) :
    ∃ a, r = .ok a ∧ f a = x := by
  cases r with
  | error e => cases h
  | ok a => exact ⟨a, rfl, Sum.inr.inj h⟩

/-- **C110 does not hold for line styles whose names are the same in upper case.** -/
theorem C110_line_styles_depend : ∃ (env env' : Env Int Int) (prf : Prf) (a a' : Adaptation Int Int), OtherRun env env' ∧
    prf.path ≠ [] ∧ prf.cwd ≠ none ∧ OneFile prf c!"TopSky.dll" ∧ OneFile prf c!"Squawks.dll" ∧
    fromPrf env prf = .ok a ∧ fromPrf env' prf = .ok a' ∧
    a.lineStyles.get? c!"FINE" = some (some [(1, 5)]) ∧ a'.lineStyles.get? c!"FINE" = some (some [(2, 6)]) := by
  obtain ⟨a, h1, h2⟩ := loaded_inr (r := fromPrf upperEnv richPrf) (f := fun a => a.lineStyles.get? c!"FINE") (x := some (some [(1, 5)]))
    (by decide +kernel)
  obtain ⟨a', h3, h4⟩ := loaded_inr (r := fromPrf (rerun upperEnv) richPrf) (f := fun a => a.lineStyles.get? c!"FINE")
    (x := some (some [(2, 6)])) (by decide +kernel)
  exact ⟨upperEnv, rerun upperEnv, richPrf, a, a',
    ⟨rfl, ⟨fun _ _ _ l => List.reverse_perm l, Polygon.chooses_head?⟩, ⟨fun _ _ _ _ => .refl _, chooses_getLast?⟩⟩,
    rich_one.1, rich_one.2.1, rich_one.2.2.1, rich_one.2.2.2, h1, h3, h2, h4⟩

/-- A profile with two places for TopSky -/
def twoTopskys : Prf := { richPrf with settings := richPrf.settings ++ [((c!"Plugins", c!"Plugin9"), c!"\\old\\TopSky.dll")] }

/-- **C110 does not hold for profiles that name two places for TopSky.** Which one is used depends on the order of the settings. -/
theorem C110_two_topskys_depend : ∃ (env env' : Env Int Int) (prf : Prf) (a a' : Adaptation Int Int), OtherRun env env' ∧
    prf.path ≠ [] ∧ prf.cwd ≠ none ∧ OneFile prf c!"Squawks.dll" ∧
    fromPrf env prf = .ok a ∧ fromPrf env' prf = .ok a' ∧ a.settings.coopans = true ∧ a'.settings.coopans = false := by
  obtain ⟨a, h1, h2⟩ := loaded_inr (r := fromPrf richEnv twoTopskys) (f := fun a => a.settings.coopans) (x := true) (by decide +kernel)
  obtain ⟨a', h3, h4⟩ := loaded_inr (r := fromPrf (rerun richEnv) twoTopskys) (f := fun a => a.settings.coopans) (x := false)
    (by decide +kernel)
  exact ⟨richEnv, rerun richEnv, twoTopskys, a, a', otherRun richFiles, by decide, by decide, oneFile_of (by decide +kernel), h1, h3, h2, h4⟩

/-- **C110: the names of sectors depend on the order.** -/
theorem C110_sector_names_depend : ∃ (env env' : Env Int Int) (prf : Prf) (a a' : Adaptation Int Int), OtherRun env env' ∧
    prf.path ≠ [] ∧ prf.cwd ≠ none ∧ OneFile prf c!"TopSky.dll" ∧ OneFile prf c!"Squawks.dll" ∧
    fromPrf env prf = .ok a ∧ fromPrf env' prf = .ok a' ∧ a.sectors.keys = [c!"HIGH"] ∧ a'.sectors.keys = [c!"LOW"] := by
  obtain ⟨a, h1, h2⟩ := loaded_inr (r := fromPrf richEnv richPrf) (f := fun a => a.sectors.keys) (x := [c!"HIGH"]) (by decide +kernel)
  obtain ⟨a', h3, h4⟩ := loaded_inr (r := fromPrf (rerun richEnv) richPrf) (f := fun a => a.sectors.keys) (x := [c!"LOW"])
    (by decide +kernel)
  exact ⟨richEnv, rerun richEnv, richPrf, a, a', otherRun richFiles, rich_one.1, rich_one.2.1, rich_one.2.2.1, rich_one.2.2.2, h1, h3, h2, h4⟩

end Verif.Props.AdaptationExample
