import Verif.Props.AdaptationExample
import Verif.Props.AdaptationLoad
/-!
# A world in which loading cannot panic
-/

namespace Verif.Props.AdaptationExample
open Verif.Adaptation Verif.Spec.Adaptation
open Verif.PrfPaths (Path)

attribute [local instance] asciiTables

def airwayText : Str := c!"ASPAT\t49.1\t10.7\t14\tL603\tH\tRODIX\t49.5\t10.25\t5000\tY\t0\t0\t\t0\t0N\n"

/-- The files are those for which the theorems about the single parsers are shown to have content. -/
def safeFiles : List (Str × Str) := [
  (c!"edmm.sct", sctFile.text), (c!"edmm.ese", eseFile.text),
  (c!"airway.txt", airwayText),
  (c!"sym.txt", (Symbology.sample Symbology.arc c!"ARC 0 -1.5:3 90 450").text),
  (c!"airports.txt", c!"EDDM\tMunich\tGERMANY\n"), (c!"coords.txt", c!"EDDM 48.353783 11.786086 Munich Intl\n"),
  (c!"aircraft.txt", c!"A20N\tML2J\tAIRBUS\tA-320neo\n"), (c!"airlines.txt", c!"DLH\tLufthansa\tLUFTHANSA\tGERMANY\n"),
  (c!"TopSkySettings.txt", c!"Setup_COOPANS=1\n"), (c!"TopSkySymbols.txt", (Topsky.symbolSample c!"-30").text),
  (c!"TopSkyMaps.txt", (Topsky.mapSample (.dms Topsky.east)).text)]

theorem text_eq {p : Path} {s t : Str} (h : TextAt (env safeFiles) p s) (ht : text (env safeFiles) p = some t) : s = t := by
  obtain ⟨b, h1, h2⟩ := h
  unfold text at ht
  rw [h1] at ht
  cases ht
  exact h2

theorem textOf {f : File} {p : Path} {s t : Str} (h : TextOf (env safeFiles) prf f s) (hp : path prf f = .ok p)
    (ht : text (env safeFiles) p = some t) : s = t := by
  obtain ⟨q, hq, h⟩ := h
  rw [hp] at hq
  cases hq
  exact text_eq h ht

theorem topskyText {n : Str} {s t : Str} (h : TopskyText (env safeFiles) prf n s)
    (ht : text (env safeFiles) (PrfPaths.join [c!"home"] n) = some t) : s = t := by
  obtain ⟨q, hq, h⟩ := h
  have : PrfPaths.topskyPath prf ((env safeFiles).order .settings prf.settings) = .ok (some [c!"home"]) := by decide +kernel
  rw [this] at hq
  cases hq
  exact text_eq h ht

def panics {A : Type} : Run A → Bool
  | .error .panic => true
  | _ => false

theorem airways_fit : ∀ lines, Spec.Airway.IsFile airwayText lines →
    ∀ l ∈ lines, Spec.Airway.LevelsFit l := by
  obtain ⟨num, hnum⟩ := ese_reads Int
  letI : AirwayGraph.Quantize (Parse.Point Int) := ⟨fun p => (p.x, p.y)⟩
  intro lines hf
  refine Classical.byContradiction fun hn => ?_
  have h := C08_airway_panic num (fun s hs => hnum s (Parse.Isec.isCoord_isDecimal hs)) _ lines hf hn
  have : panics (Parse.Airway.parseAirwayTxt (F := Int)
    airwayText) = false := by decide +kernel
  rw [h] at this
  cases this

/-- The hypotheses of `C80_no_panic` are met. -/
theorem safe_sane : Sane (env safeFiles) where
  order := anyOrder _
  choose l := by cases l <;> simp [env]

theorem safe_complete : Complete prf := ⟨by decide, by decide, by decide⟩

theorem safe_harmless : Harmless (env safeFiles) prf where
  sct s h := Or.inl ⟨sctFile, sctFile_valid, by decide, (textOf h (p := [c!"home", c!"edmm.sct"]) (by decide +kernel) (by decide +kernel)).symm⟩
  ese s h := Or.inl ⟨eseFile, eseFile_valid, by decide, (textOf h (p := [c!"home", c!"edmm.ese"]) (by decide +kernel) (by decide +kernel)).symm⟩
  airways s h := by
    rw [textOf h (p := [c!"home", c!"airway.txt"]) (t := airwayText) (by decide +kernel) (by decide +kernel)]
    exact airways_fit
  symbology s h f hf := by
    rw [textOf h (p := [c!"home", c!"sym.txt"]) (t := (Symbology.sample Symbology.arc c!"ARC 0 -1.5:3 90 450").text) (by decide +kernel)
      (by decide +kernel)] at hf
    exact Symbology.fits_of_fits ⟨Symbology.sample_valid Symbology.arc_text, Symbology.text_spaced _⟩ (by decide) hf
  symbols s h f hv ht := by
    have hs := Topsky.symbolSample_valid (a := c!"-30") (by decide)
    rw [topskyText h (t := (Topsky.symbolSample c!"-30").text) (by decide +kernel)] at ht
    exact Topsky.fits_of_fits hs (by decide) hv ht
  maps s h := Or.inl ⟨_, Topsky.mapSample_valid (lng := .dms Topsky.east) Topsky.east_valid, by decide, (topskyText h (by decide +kernel)).symm⟩
  digits s h := by
    rw [topskyText h (t := (Topsky.mapSample (.dms Topsky.east)).text) (by decide +kernel)]
    intro c _ hc
    exact hc

/-- So loading gives an adaptation … -/
example : ∃ a, fromPrf (env safeFiles) prf = .ok a := by
  rcases C80_outcome safe_sane safe_complete safe_harmless with ⟨_, h⟩ | ⟨f, p, _, _, h⟩ | ⟨f, _, _, h⟩
  · exact h
  all_goals
    have : loaded (fromPrf (env safeFiles) prf) (fun _ => ()) = .inr () := by decide +kernel
    rw [h] at this
    cases this

/-- … and without the setting for the sector file it panics, … -/
example : fromPrf (env safeFiles) { prf with settings := prf.settings.drop 1 } = .error (.fault .panic) :=
  C80_missing_setting _ _ (by decide)

/-- … as it does with a colour that is too large in the sector file. -/
example : loaded (fromPrf (env ((c!"edmm.sct", sctOverflow.text) :: safeFiles)) prf) (fun _ => ()) = .inl (.fault .panic) := by
  decide +kernel

end Verif.Props.AdaptationExample
