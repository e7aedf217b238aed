import Verif.Props.Sources
import Verif.Props.AdaptationContentsExample
/-!
# One file is changed: the hypotheses of C111 are met, and what it leaves open does change
-/

namespace Verif.Props.AdaptationExample
open Verif.Adaptation Verif.Spec.Adaptation Verif.Proofs.Adaptation Verif.Spec.Sources
open Verif.PrfPaths (Prf Path)

attribute [local instance] asciiTables

/-- The files with other contents of one of them -/
def edited (name text : Str) : List (Str × Str) := (name, text) :: richFiles

theorem edited_read {name text n : Str} (h : n ≠ name) : (env (edited name text)).read [c!"home", n] = richEnv.read [c!"home", n] := by
  have h' : Map.get? (edited name text) n = Map.get? richFiles n := by simp [edited, Map.get?, h.symm]
  simp [env, richEnv, h']

/-- Where the files are -/
def fileName : File → Str
  | .sct => c!"edmm.sct"
  | .ese => c!"edmm.ese"
  | .airways => c!"airway.txt"
  | .symbology => c!"sym.txt"
  | .airports => c!"airports.txt"
  | .navdata => c!"coords.txt"
  | .aircraft => c!"aircraft.txt"
  | .airlines => c!"airlines.txt"

theorem fileName_path (f : File) : path richPrf f = .ok [c!"home", fileName f] := by cases f <;> decide +kernel

theorem agree_file {name text : Str} {f : File} (h : fileName f ≠ name) :
    Agree richEnv (env (edited name text)).read richPrf (.file f) := by
  intro p hp
  rw [fileName_path] at hp
  cases hp
  exact edited_read h

theorem agree_squawks {name text : Str} (h : c!"squawks.json" ≠ name) : Agree richEnv (env (edited name text)).read richPrf .squawks := by
  intro p hp
  have : PrfPaths.squawksPath richPrf (richEnv.order .settings richPrf.settings) = .ok (some [c!"home", c!"squawks.json"]) := by decide +kernel
  rw [this] at hp
  cases hp
  exact edited_read h

theorem agree_topsky {name text : Str} (h : name ∉ [c!"TopSkySettings.txt", c!"TopSkySymbols.txt", c!"TopSkyMaps.txt"]) :
    Agree richEnv (env (edited name text)).read richPrf .topsky := by
  intro dir hd n hn
  have : PrfPaths.topskyPath richPrf (richEnv.order .settings richPrf.settings) = .ok (some [c!"home"]) := by decide +kernel
  rw [this] at hd
  cases hd
  have hj : PrfPaths.join [c!"home"] n = [c!"home", n] := by
    revert hn n
    decide
  rw [hj]
  exact edited_read fun he : n = name => h (he ▸ hn)

/-- Only the required file `f` is changed. -/
theorem only_file (f : File) (text : Str) : OnlyChanged richEnv (env (edited (fileName f) text)).read richPrf (.file f) := by
  intro t ht
  cases t with
  | file g =>
    refine agree_file fun h => ht ?_
    cases f <;> cases g <;> first | rfl | (exfalso; revert h; decide)
  | squawks => exact agree_squawks (by cases f <;> decide)
  | topsky => exact agree_topsky (by cases f <;> decide)

/-- Only TopSky is changed: its settings. -/
theorem only_topsky (text : Str) : OnlyChanged richEnv (env (edited c!"TopSkySettings.txt" text)).read richPrf .topsky := by
  intro t ht
  cases t with
  | file g => exact agree_file (by cases g <;> decide)
  | squawks => exact agree_squawks (by decide)
  | topsky => exact absurd rfl ht

/-- Only the squawks are changed. -/
theorem only_squawks (text : Str) : OnlyChanged richEnv (env (edited c!"squawks.json" text)).read richPrf .squawks := by
  intro t ht
  cases t with
  | file g => exact agree_file (by cases g <;> decide)
  | topsky => exact agree_topsky (by decide)
  | squawks => exact absurd rfl ht

theorem gives_ok {r : Except Failure (Adaptation Int Int)} {p : Adaptation Int Int → Bool} (h : gives r p = true) :
    ∃ a, r = .ok a ∧ p a = true := by
  cases r with
  | error e => cases h
  | ok a => exact ⟨a, rfl, h⟩

/-- Each file: what it decides is another afterwards, and by C111 the rest is kept. -/
theorem changed {s : Source} {name text : Str} {p : Adaptation Int Int → Bool}
    (h : OnlyChanged richEnv (env (edited name text)).read richPrf s) (h' : gives (fromPrf (env (edited name text)) richPrf) p = true) :
    ∃ a a', fromPrf richEnv richPrf = .ok a ∧ fromPrf (env (edited name text)) richPrf = .ok a' ∧ p a' = true ∧ Keeps s a a' := by
  obtain ⟨a, ha⟩ := rich_loads
  obtain ⟨a', ha', hp⟩ := gives_ok h'
  exact ⟨a, a', ha, ha', hp, C111_keeps h ha ha'⟩

example := changed (only_file .airlines c!"AUA\tAustrian\tAUSTRIAN\tAUSTRIA\n") (p := fun a => decide (a.airlines.keys = [c!"AUA"]))
  (by decide +kernel)

example := changed (only_file .aircraft c!"A388\tJL4J\tAIRBUS\tA-380\n") (p := fun a => decide (a.aircraft.keys = [c!"A388"])) (by decide +kernel)

example := changed (only_file .airports c!"EDDM\tMunich\tBAVARIA\n")
  (p := fun a => decide ((a.locations.airports.get? c!"EDDM").bind (·.country) = some c!"BAVARIA")) (by decide +kernel)

example := changed (only_file .navdata c!"EDDM 49.353783 11.786086 Munich\n")
  (p := fun a => decide ((a.locations.airports.get? c!"EDDM").map (·.coordinate) = some (11, 49))) (by decide +kernel)

example := changed (only_file .symbology (lines [c!"SYMBOLOGY", c!"SYMBOLSIZE", c!"Sids:line:511:3:0:5:7", c!"SYMBOL:0", c!"SYMBOLITEM:MOVETO 1 2",
  c!"m_ClipArea:5", c!"END"]))
  (p := fun a => decide ((a.settings.maps.lineStyles .sid).width = 5)) (by decide +kernel)

example := changed (only_file .ese (lines [c!"[POSITIONS]", c!"EDMM_CTR:Muenchen Radar:131.000:MX:::CTR:-:-:"]))
  (p := fun a => decide (a.positions.keys = [c!"MX"]) && decide (a.sectors.keys = [])) (by decide +kernel)

example := changed (only_file .sct (lines [c!"[INFO]", c!"LOVV 2401", c!"EDMM_CTR", c!"EDDM", c!"N048.00.00.000", c!"E011.00.00.000",
  c!"60", c!"40", c!"-3", c!"1"])) (p := fun a => decide (a.name = c!"LOVV 2401")) (by decide +kernel)

example := changed (only_topsky c!"Setup_COOPANS=1\n") (p := fun a => a.settings.coopans) (by decide +kernel)

example := changed (only_squawks c!"") (p := fun a => decide (a.settings.specialUseCodes.keys = [])) (by decide +kernel)

end Verif.Props.AdaptationExample
