import Verif.Proofs.PrfPaths
/-!
# C49, C57, C58: the paths of a profile

`Spec/PrfPaths.lean` says what a value denotes.  `hp` says that the profile lies in the directory
`dir` (a canonical path of a file is never the root) and `hc` that there is a current directory.
-/

namespace Verif.Props
open Verif.PrfPaths Verif.Spec.PrfPaths

/-- **C49, partial.** Trailing white space does not count and both slashes separate.  A value with one
leading separator denotes a path below the directory of the profile, one without leading separator a
path below the current directory.  Missing: values that start with two separators, for which the
claim is false, see `C49_double_separator_escapes`. -/
theorem C49_prf_paths_partial (prf : Prf) (dir cwd : Path) (file : Str) (hp : prf.path = dir ++ [file])
    (hc : prf.cwd = some cwd) (v u : Str) (hv : Trimmed isWhitespace v u) :
    (∀ c rel cs, u = c :: rel → IsSep c → ¬ Rooted rel → Denotes rel cs →
      joinSettingsPath prf v = .ok (dir ++ cs)) ∧
    (∀ cs, ¬ Rooted u → Denotes u cs → joinSettingsPath prf v = .ok (cwd ++ cs)) := by
  constructor
  · rintro c rel cs rfl hs hr hd
    rw [resolve_rooted hp hv hs, join_norm _ hd, if_neg (fun h => hr (head_norm.1 h))]
  · intro cs hr hd
    rw [resolve_unrooted hc hv hr, join_norm _ hd, if_neg (fun h => hr (head_norm.1 h))]

/-- Every value has a trimmed form, and every text denotes a path, so the cases above and below are
exhaustive. -/
theorem C49_cases (v : Str) : (∃ u, Trimmed isWhitespace v u) ∧ ∀ u, ∃ cs, Denotes u cs :=
  ⟨trim_exists v, fun u => let ⟨ps, h⟩ := names_exists u; ⟨_, ps, h, rfl⟩⟩

/-- **C49 is false for two leading separators**: then the path is taken from the file system root and
does not depend on the profile. -/
theorem C49_double_separator_escapes (prf : Prf) (dir : Path) (file : Str) (hp : prf.path = dir ++ [file])
    (v : Str) (c : Char) (rel : Str) (hv : Trimmed isWhitespace v (c :: rel)) (hs : IsSep c) (hr : Rooted rel)
    (cs : List Str) (hd : Denotes rel cs) : joinSettingsPath prf v = .ok cs := by
  rw [resolve_rooted hp hv hs, join_norm _ hd, if_pos (head_norm.2 hr)]

/-- The three cases with a concrete profile. -/
def prfAt : Prf where
  settings := [((c!"Settings", c!"sector"), c!"\\EDMM\\EDMM.sct \t"), ((c!"Settings", c!"airways"), c!"ICAO/.\\airway.txt"),
    ((c!"Plugins", c!"Plugin0"), c!"\\Plugins\\TopSky\\TopSky.dll")]
  path := [c!"home", c!"x", c!"a.prf"]
  cwd := some [c!"tmp"]

example : prfAt.path = [c!"home", c!"x"] ++ [c!"a.prf"] := rfl

example : Trimmed isWhitespace c!"\\EDMM\\EDMM.sct \t" c!"\\EDMM\\EDMM.sct" :=
  ⟨c!" \t", rfl, by decide, by simp; decide⟩

example : Denotes c!"EDMM\\EDMM.sct" [c!"EDMM", c!"EDMM.sct"] :=
  ⟨_, .cons c!"EDMM" '\\' c!"EDMM.sct" _ (by simp [IsSep]) (Or.inr rfl) (.last _ (by simp [IsSep])), by decide⟩

example : joinSettingsPath prfAt c!"\\EDMM\\EDMM.sct \t" = .ok [c!"home", c!"x", c!"EDMM", c!"EDMM.sct"] := by
  decide +kernel

example : joinSettingsPath prfAt c!"ICAO/.\\airway.txt" = .ok [c!"tmp", c!"ICAO", c!"airway.txt"] := by
  decide +kernel

example : joinSettingsPath prfAt c!"\\\\server\\EDMM.sct" = .ok [c!"server", c!"EDMM.sct"] := by
  decide +kernel

/-- **C57, missing settings.** Each path that is read from the category `Settings` is the resolved
value of its key, and asking for it panics exactly if the profile has no such setting. -/
theorem C57_setting_paths (prf : Prf) (dir cwd : Path) (file : Str) (hp : prf.path = dir ++ [file])
    (hc : prf.cwd = some cwd) :
    ∀ e ∈ [(sctPath, c!"sector"), (airwaysPath, c!"airways"), (navdataAirportsPath, c!"airportcoords"),
        (airlinesPath, c!"airlines"), (aircraftPath, c!"aircraft"), (airportsPath, c!"airports"),
        (symbologyPath, c!"SettingsfileSYMBOLOGY")],
      (∀ v, Map.get? prf.settings (c!"Settings", e.2) = some v → e.1 prf = joinSettingsPath prf v ∧
        ∃ p, e.1 prf = .ok p) ∧
      (Map.get? prf.settings (c!"Settings", e.2) = none → e.1 prf = .error .panic) := by
  intro e he
  simp only [List.mem_cons, List.not_mem_nil, or_false] at he
  have key : ∀ k : Str, ∀ f : Prf → Run Path, (∀ q, f q = (do joinSettingsPath q (← setting q k))) →
      (∀ v, Map.get? prf.settings (c!"Settings", k) = some v → f prf = joinSettingsPath prf v ∧
        ∃ p, f prf = .ok p) ∧
      (Map.get? prf.settings (c!"Settings", k) = none → f prf = .error .panic) := by
    intro k f hf
    constructor
    · intro v h
      have : f prf = joinSettingsPath prf v := by rw [hf, setting, h]; rfl
      exact ⟨this, by rw [this]; exact resolve_total hp hc v⟩
    · intro h
      rw [hf, setting, h]; rfl
  rcases he with rfl | rfl | rfl | rfl | rfl | rfl | rfl <;> exact key _ _ fun _ => rfl

/-- **C57, derived files.** If the sector file setting resolves to the file `n` of a directory, the ESE
file is the file of that directory with the extension, if any, replaced by `ese`; if the airway
setting resolves to a file of a directory, the intersection file is `isec.txt` in that directory.
Both panic exactly if their setting is missing. -/
theorem C57_derived_paths (prf : Prf) (dir cwd : Path) (file : Str) (hp : prf.path = dir ++ [file])
    (hc : prf.cwd = some cwd) :
    (∀ v d base ext, Map.get? prf.settings (c!"Settings", c!"sector") = some v →
      joinSettingsPath prf v = .ok (d ++ [base ++ '.' :: ext]) → base ≠ [] → (∀ c ∈ ext, c ≠ '.') →
      base ++ '.' :: ext ≠ c!".." → esePath prf = .ok (d ++ [base ++ c!".ese"])) ∧
    (∀ v d n, Map.get? prf.settings (c!"Settings", c!"sector") = some v →
      joinSettingsPath prf v = .ok (d ++ [n]) → (∀ c ∈ n, c ≠ '.') →
      esePath prf = .ok (d ++ [n ++ c!".ese"])) ∧
    (∀ v d n, Map.get? prf.settings (c!"Settings", c!"airways") = some v →
      joinSettingsPath prf v = .ok (d ++ [n]) → n ≠ c!".." → isecPath prf = .ok (d ++ [c!"isec.txt"])) ∧
    (esePath prf = .error .panic ↔ Map.get? prf.settings (c!"Settings", c!"sector") = none) ∧
    (isecPath prf = .error .panic ↔ Map.get? prf.settings (c!"Settings", c!"airways") = none) := by
  refine ⟨?_, ?_, ?_, ?_, ?_⟩
  · intro v d base ext h1 h2 hb he hn
    simp only [esePath, setting, h1, unwrap_some, run_ok_bind, h2, withExtension, fileName_append hn,
      stem_dot hb he, List.dropLast_concat, run_pure]
  · intro v d n h1 h2 he
    have hn : n ≠ ['.', '.'] := by rintro rfl; exact he '.' (by simp) rfl
    simp only [esePath, setting, h1, unwrap_some, run_ok_bind, h2, withExtension, fileName_append hn,
      stem_plain he, List.dropLast_concat, run_pure]
  · intro v d n h1 h2 hn
    simp only [isecPath, setting, h1, unwrap_some, run_ok_bind, h2, withFileName, fileName_append hn,
      List.dropLast_concat, run_pure]
    rfl
  · cases h : Map.get? prf.settings (c!"Settings", c!"sector") with
    | none => simp [esePath, setting, h]
    | some v =>
      obtain ⟨p, hr⟩ := resolve_total hp hc v
      simp [esePath, setting, h, hr]
  · cases h : Map.get? prf.settings (c!"Settings", c!"airways") with
    | none => simp [isecPath, setting, h]
    | some v =>
      obtain ⟨p, hr⟩ := resolve_total hp hc v
      simp [isecPath, setting, h, hr]

example : sctPath prfAt = .ok ([c!"home", c!"x", c!"EDMM"] ++ [c!"EDMM" ++ '.' :: c!"sct"]) := by decide +kernel
example : esePath prfAt = .ok [c!"home", c!"x", c!"EDMM", c!"EDMM.ese"] := by decide +kernel
example : isecPath prfAt = .ok [c!"tmp", c!"ICAO", c!"isec.txt"] := by decide +kernel
example : airlinesPath prfAt = .error .panic := by decide +kernel

/-- **C58.** The plugin directories: for every order in which the settings may be visited, the search
does not panic; it finds a directory exactly if some value resolves to the plugin's library, and then
the directory of such a library (the squawk file lies in it).  If all such values agree on the
directory the order does not matter. -/
theorem C58_plugin_paths (prf : Prf) (dir cwd : Path) (file : Str) (hp : prf.path = dir ++ [file])
    (hc : prf.cwd = some cwd) (es : List ((Str × Str) × Str)) (hes : es.Perm prf.settings) :
    (∃ o, topskyPath prf es = .ok o ∧
      (o = none ↔ ∀ k v d, (k, v) ∈ prf.settings → joinSettingsPath prf v ≠ .ok (d ++ [c!"TopSky.dll"])) ∧
      ∀ d, o = some d → ∃ k v, (k, v) ∈ prf.settings ∧ joinSettingsPath prf v = .ok (d ++ [c!"TopSky.dll"])) ∧
    (∃ o, squawksPath prf es = .ok o ∧
      (o = none ↔ ∀ k v d, (k, v) ∈ prf.settings → joinSettingsPath prf v ≠ .ok (d ++ [c!"Squawks.dll"])) ∧
      ∀ f, o = some f → ∃ d k v, f = d ++ [c!"squawks.json"] ∧ (k, v) ∈ prf.settings ∧
        joinSettingsPath prf v = .ok (d ++ [c!"Squawks.dll"])) := by
  constructor
  · rcases findFile_spec (name := c!"TopSky.dll") hp hc (by decide) es with ⟨h1, h2⟩ | ⟨d, k, v, h1, h2, h3⟩
    · exact ⟨none, h1, by simpa using fun k1 k2 v d hm => h2 _ v d (hes.mem_iff.2 hm), by simp⟩
    · refine ⟨some d, h1, ?_, ?_⟩
      · simp only [reduceCtorEq, false_iff]
        exact fun h => h k v d (hes.mem_iff.1 h2) h3
      · rintro _ ⟨⟩
        exact ⟨k, v, hes.mem_iff.1 h2, h3⟩
  · rcases findFile_spec (name := c!"Squawks.dll") hp hc (by decide) es with ⟨h1, h2⟩ | ⟨d, k, v, h1, h2, h3⟩
    · exact ⟨none, by rw [squawksPath, h1]; rfl, by simpa using fun k1 k2 v d hm => h2 _ v d (hes.mem_iff.2 hm),
        by simp⟩
    · refine ⟨some (d ++ [c!"squawks.json"]), by rw [squawksPath, h1]; rfl, ?_, ?_⟩
      · simp only [reduceCtorEq, false_iff]
        exact fun h => h k v d (hes.mem_iff.1 h2) h3
      · rintro _ ⟨⟩
        exact ⟨d, k, v, rfl, hes.mem_iff.1 h2, h3⟩

/-- **C58, determinacy.** -/
theorem C58_plugin_paths_determined (prf : Prf) (dir cwd : Path) (file : Str) (hp : prf.path = dir ++ [file])
    (hc : prf.cwd = some cwd) (es : List ((Str × Str) × Str)) (hes : es.Perm prf.settings) (d : Path)
    (k : Str × Str) (v : Str) (hm : (k, v) ∈ prf.settings)
    (hv : joinSettingsPath prf v = .ok (d ++ [c!"TopSky.dll"]))
    (hu : ∀ k' v' d', (k', v') ∈ prf.settings → joinSettingsPath prf v' = .ok (d' ++ [c!"TopSky.dll"]) → d' = d) :
    topskyPath prf es = .ok (some d) := by
  obtain ⟨⟨o, h1, h2, h3⟩, _⟩ := C58_plugin_paths prf dir cwd file hp hc es hes
  cases o with
  | none => exact absurd hv (h2.1 rfl k v d hm)
  | some d' =>
    obtain ⟨k', v', hm', hv'⟩ := h3 d' rfl
    rw [h1, hu k' v' d' hm' hv']

example : topskyPath prfAt prfAt.settings.reverse = .ok (some [c!"home", c!"x", c!"Plugins", c!"TopSky"]) := by
  decide +kernel
example : squawksPath prfAt prfAt.settings = .ok none := by decide +kernel

end Verif.Props
