import Verif.Proofs.LineEndsEse
import Verif.Proofs.LineEndsPrf
import Verif.Proofs.LineEndsSct
/-!
# C97: what is read does not depend on whether lines end with LF or with CR LF

`Spec/LineEnds.lean` says when two texts have the same lines: `SameLines s t`.
-/

namespace Verif.Props
open Verif.Parse Verif.Spec Verif.Proofs.LineEnds Verif.Dms

section
variable {F G : Type} [F64 F] [F64 G] {s t : Str}

/-! ## Files that are read the same -/

theorem C97_isec (h : SameLines s t) : Isec.parseIsecTxt (F := F) s = Isec.parseIsecTxt t := isec_same h

theorem C97_airways [AirwayGraph.Quantize (Point F)] (h : SameLines s t) :
    Airway.parseAirwayTxt (F := F) s = Airway.parseAirwayTxt t := airway_same h

theorem C97_icao [UnicodeTables] (h : SameLines s t) :
    Icao.parseAircraft s = Icao.parseAircraft t ∧ Icao.parseAirports s = Icao.parseAirports t ∧
      Icao.parseNavdataAirports (F := F) s = Icao.parseNavdataAirports t ∧ Icao.parseAirlines s = Icao.parseAirlines t :=
  ⟨aircraft_same h, airports_same h, navdata_same h, airlines_same h⟩

theorem C97_symbology [SymbolRule.Close F] (h : SameLines s t) :
    Symbology.parse (F := F) (G := G) s = Symbology.parse t := symbology_same h

theorem C97_ese [UnicodeTables] [DmsArith F] (h : SameLines s t) : Ese.parse (F := F) G s = Ese.parse G t := ese_same h

/-- The TopSky files.  `upper` is `str::to_uppercase`. -/
theorem C97_topsky [SymbolRule.Close F] [DmsArith F] [DecidableEq F] (upper : Str → Str) (h : SameLines s t) :
    TopskySettings.parse s = TopskySettings.parse t ∧
      Topsky.parseSymbols (F := F) s = Topsky.parseSymbols t ∧
      Topsky.parseMaps (F := F) (G := G) upper s = Topsky.parseMaps upper t :=
  ⟨settings_same h, symbols_same h, maps_same upper h⟩

/-! ## Sector files and ASR files: up to carriage returns within some names -/

/-- **C97, partial.** The outcome is the same up to carriage returns within the names of drawings.
Missing: equality; `C97_sct_differs` shows that it fails. -/
theorem C97_sct_partial [UnicodeTables] [DmsArith F] [DecidableEq F] (h : SameLines s t) :
    (Sct.parse (F := F) s).map (sctNames withoutReturns) = (Sct.parse t).map (sctNames withoutReturns) := sct_same h

theorem drawingName_eq {F : Type} {l : List (Sct.Drawing F)} (h : ∀ d ∈ l, '\r' ∉ d.name) :
    l.map (drawingName withoutReturns) = l := by
  refine (List.map_congr_left fun d hd => ?_).trans (List.map_id l)
  have : withoutReturns d.name = d.name := by
    refine List.filter_eq_self.2 fun c hc => bne_iff_ne.2 ?_
    rintro rfl
    exact h d hd hc
  simp only [drawingName, this, id]

/-- If no drawing has a carriage return in its name, the results are equal. -/
theorem C97_sct [UnicodeTables] [DmsArith F] [DecidableEq F] (h : SameLines s t) {x y : Sct.Sct F}
    (hx : Sct.parse s = .ok x) (hy : Sct.parse t = .ok y) (nx : ∀ d ∈ drawings x, '\r' ∉ d.name)
    (ny : ∀ d ∈ drawings y, '\r' ∉ d.name) : x = y := by
  have key : ∀ x : Sct.Sct F, (∀ d ∈ drawings x, '\r' ∉ d.name) → sctNames withoutReturns x = x := by
    intro x hx
    have h1 : ∀ l : List (Sct.Drawing F), (∀ d ∈ l, d ∈ drawings x) → l.map (drawingName withoutReturns) = l :=
      fun l hl => drawingName_eq fun d hd => hx d (hl d hd)
    simp only [sctNames]
    rw [h1 x.sids, h1 x.stars, h1 x.artccsHigh, h1 x.artccs, h1 x.artccsLow, h1 x.geo] <;>
      (intro d hd; simp [drawings, hd])
  have := C97_sct_partial (F := F) h
  rw [hx, hy] at this
  have : sctNames withoutReturns x = sctNames withoutReturns y := Except.ok.inj this
  rwa [key x nx, key y ny] at this

/-- Rejections and panics are the same. -/
theorem C97_sct_error [UnicodeTables] [DmsArith F] [DecidableEq F] (h : SameLines s t) (e : Fault) :
    Sct.parse (F := F) s = .error e ↔ Sct.parse (F := F) t = .error e := by
  have := C97_sct_partial (F := F) h
  cases hx : Sct.parse (F := F) s <;> cases hy : Sct.parse (F := F) t <;> rw [hx, hy] at this <;>
    simp [Except.map] at this ⊢
  rw [this]

/-- **C97, partial.** The outcome is the same up to carriage returns within the airports of runways and
the groups of free texts.  Missing: equality; `C97_asr_differs` shows that it fails. -/
theorem C97_asr_partial (h : SameLines s t) :
    (Asr.parse (F := F) s).map (asrNames withoutReturns) = (Asr.parse t).map (asrNames withoutReturns) := asr_same h

/-- If none of these has a carriage return, the results are equal. -/
theorem C97_asr (h : SameLines s t) {x y : Asr.Asr F} (hx : Asr.parse s = .ok x) (hy : Asr.parse t = .ok y)
    (nx : (∀ r ∈ x.map.runways, '\r' ∉ r.1) ∧ ∀ r ∈ x.map.freeText, '\r' ∉ r.1)
    (ny : (∀ r ∈ y.map.runways, '\r' ∉ r.1) ∧ ∀ r ∈ y.map.freeText, '\r' ∉ r.1) : x = y := by
  have key1 : ∀ {A : Type} (l : List (Str × A)), (∀ r ∈ l, '\r' ∉ r.1) → l.map (fun r => (withoutReturns r.1, r.2)) = l := by
    intro A l h
    refine (List.map_congr_left fun d hd => ?_).trans (List.map_id l)
    have : withoutReturns d.1 = d.1 := by
      refine List.filter_eq_self.2 fun c hc => bne_iff_ne.2 ?_
      rintro rfl
      exact h d hd hc
    simp only [this, id]
  have key : ∀ x : Asr.Asr F, ((∀ r ∈ x.map.runways, '\r' ∉ r.1) ∧ ∀ r ∈ x.map.freeText, '\r' ∉ r.1) →
      asrNames withoutReturns x = x := by
    intro x hx
    simp only [asrNames]
    rw [key1 _ hx.1, key1 _ hx.2]
  have := C97_asr_partial (F := F) h
  rw [hx, hy] at this
  have : asrNames withoutReturns x = asrNames withoutReturns y := Except.ok.inj this
  rwa [key x nx, key y ny] at this
end

/-! ## Profiles: up to carriage returns at the ends of values -/
section
open Verif.Spec.Prf Verif.Parse.Prf Verif.PrfPaths
variable [UnicodeTables]

/-- **C97, partial.** A profile in which no value is a mere carriage return is read with other line ends, and
gives the same settings, up to a carriage return at the end of each value.  Missing: equality, and
profiles with such values; see `C97_prf_differs` and `C97_prf_rejected`. -/
theorem C97_prf_partial {s t : Str} {ws : List Setting} (h : SameLines s t) (hf : IsFile s ws) (hne : ws ≠ [])
    (hv : ∀ w ∈ ws, w.value ≠ ['\r']) : ∃ m m', parsePrf s = .ok m ∧ parsePrf t = .ok m' ∧ SameEntries m m' :=
  parse_other h hf hne hv

omit [UnicodeTables] in
/-- Every path taken from such a profile is the same.  `es` and `es'` are the orders in which the
settings are searched for the plug-ins. -/
theorem C97_prf_paths {m m' : Settings} (h : SameEntries m m') (path : Path) (cwd : Option Path) :
    (∀ f ∈ [sctPath, esePath, airwaysPath, isecPath, navdataAirportsPath, airlinesPath, aircraftPath, airportsPath,
        symbologyPath], f ⟨m, path, cwd⟩ = f ⟨m', path, cwd⟩) ∧
      (∀ n, recentPath ⟨m, path, cwd⟩ n = recentPath ⟨m', path, cwd⟩ n) ∧
      (∀ es, es.Perm m → ∃ es', es'.Perm m' ∧ topskyPath ⟨m, path, cwd⟩ es = topskyPath ⟨m', path, cwd⟩ es' ∧
        squawksPath ⟨m, path, cwd⟩ es = squawksPath ⟨m', path, cwd⟩ es') := by
  refine ⟨?_, sameEntries_recent h path cwd, fun es hp => ?_⟩
  · have key := sameEntries_setting h path cwd
    have key2 : ∀ (k : Str) (g : Path → Path),
        (setting ⟨m, path, cwd⟩ k >>= fun v => joinSettingsPath ⟨m, path, cwd⟩ v >>= fun p => pure (g p)) =
          (setting ⟨m', path, cwd⟩ k >>= fun v => joinSettingsPath ⟨m', path, cwd⟩ v >>= fun p => pure (g p)) := by
      intro k g
      have := congrArg (fun x => x >>= fun p => (pure (g p) : Run Path)) (key k)
      simpa only [bind_assoc] using this
    intro f hf
    simp only [List.mem_cons, List.not_mem_nil, or_false] at hf
    rcases hf with rfl | rfl | rfl | rfl | rfl | rfl | rfl | rfl | rfl
    · exact key _
    · exact key2 _ fun p => withExtension p c!"ese"
    · exact key _
    · exact key2 _ fun p => withFileName p c!"isec.txt"
    all_goals exact key _
  · obtain ⟨es', h1, h2⟩ := sameEntries_perm hp h
    exact ⟨es', h1, sameEntries_find h2 m m' path cwd _, by
      simp only [squawksPath, sameEntries_find h2 m m' path cwd]⟩

end

/-! ## Examples and counterexamples -/
section Examples
attribute [local instance] asciiTables
local instance lineEndsF64 : F64 Str := ⟨some, fun _ _ => rfl⟩
local instance lineEndsDms : DmsArith Str := ⟨fun d => d.sec⟩

/-- Every line end of a text as CR LF. -/
def crlf : Str → Str
  | [] => []
  | '\n' :: s => '\r' :: '\n' :: crlf s
  | c :: s => c :: crlf s

/-- A text without carriage returns has the same lines as the text with CR LF. -/
theorem sameLines_crlf (s : Str) (h : '\r' ∉ s) : SameLines s (crlf s) := by
  induction s with
  | nil => exact .nil
  | cons c s ih =>
    have h1 : c ≠ '\r' := fun e => h (by simp [e])
    have ih := ih fun e => h (List.mem_cons_of_mem _ e)
    rcases Classical.em (c = '\n') with rfl | hc
    · exact SameLines.lineEnd (e := ['\n']) (f := ['\r', '\n']) (Or.inl rfl) (Or.inr rfl) ih
    · rw [crlf]
      · exact .char c h1 hc ih
      · exact hc

/-- A profile. -/
def prfLines : Str := c!"Settings\tsector\t\\A.sct\n\nSettings\tairways\tB.txt\n"

example : SameLines prfLines (crlf prfLines) ∧ crlf prfLines ≠ prfLines := ⟨sameLines_crlf _ (by decide), by decide⟩

/-- C97 is false of profiles: the values contain the carriage returns. -/
theorem C97_prf_differs : SameLines prfLines (crlf prfLines) ∧
    Parse.Prf.parsePrf prfLines = .ok [((c!"Settings", c!"sector"), c!"\\A.sct"), ((c!"Settings", c!"airways"), c!"B.txt")] ∧
    Parse.Prf.parsePrf (crlf prfLines) =
      .ok [((c!"Settings", c!"sector"), c!"\\A.sct\r"), ((c!"Settings", c!"airways"), c!"B.txt\r")] :=
  ⟨sameLines_crlf _ (by decide), by decide +kernel, by decide +kernel⟩

/-- C97 is false of profiles: a line without a value is read if it ends with CR LF only. -/
theorem C97_prf_rejected : SameLines c!"Settings\tsector\t\n" (crlf c!"Settings\tsector\t\n") ∧
    Parse.Prf.parsePrf c!"Settings\tsector\t\n" = .error .parseError ∧
    Parse.Prf.parsePrf (crlf c!"Settings\tsector\t\n") = .ok [((c!"Settings", c!"sector"), ['\r'])] :=
  ⟨sameLines_crlf _ (by decide), by decide +kernel, by decide +kernel⟩

/-- The hypotheses of `C97_prf_partial` are met. -/
example : Spec.Prf.IsFile prfLines [⟨c!"Settings", c!"sector", c!"\\A.sct"⟩, ⟨c!"Settings", c!"airways", c!"B.txt"⟩] := by
  refine .line _ c!"Settings\tsector\t\\A.sct" _ _ ⟨[], ['\t'], ['\t'], rfl, by decide, by decide, by decide, by decide, by decide,
    by decide, by decide, by decide, by decide, by simp; decide, by simp, by simp⟩ ?_
  refine .blank [] _ _ (by decide) ?_
  refine .line _ c!"Settings\tairways\tB.txt" _ _ ⟨[], ['\t'], ['\t'], rfl, by decide, by decide, by decide, by decide, by decide,
    by decide, by decide, by decide, by decide, by simp; decide, by simp, by simp⟩ ?_
  exact .last [] (by decide)

/-- A path that `C97_prf_paths` is about. -/
example : PrfPaths.sctPath ⟨[((c!"Settings", c!"sector"), c!"\\A.sct\r"), ((c!"Settings", c!"airways"), c!"B.txt\r")],
    [c!"home", c!"x.prf"], none⟩ = .ok [c!"home", c!"A.sct"] := by decide

/-- A drawing. -/
def geoLines : Str := c!"[GEO]\nX ; c\n N048.21.14.000 E011.47.10.000 N048.21.14.000 E011.47.10.001\n"

def geoNames (names : List Str) : Run (Sct.Sct Str) → Bool
  | .ok e => e.geo.map (·.name) = names
  | _ => false

/-- C97 is false of sector files: the name of a drawing contains the line end before its first line. -/
theorem C97_sct_differs : SameLines geoLines (crlf geoLines) ∧
    geoNames [c!"X ; c\n"] (Sct.parse geoLines) = true ∧ geoNames [c!"X ; c\r\n"] (Sct.parse (crlf geoLines)) = true :=
  ⟨sameLines_crlf _ (by decide), by decide +kernel, by decide +kernel⟩

/-- A sector file to which `C97_sct` applies. -/
def plainLines : Str := c!"[GEO]\nX N048.21.14.000 E011.47.10.000 N048.21.14.000 E011.47.10.001\n"

example : SameLines plainLines (crlf plainLines) ∧ geoNames [c!"X"] (Sct.parse plainLines) = true ∧
    geoNames [c!"X"] (Sct.parse (crlf plainLines)) = true :=
  ⟨sameLines_crlf _ (by decide), by decide +kernel, by decide +kernel⟩

/-- An ASR file. -/
def asrLines : Str := c!"Free Text:A\nB\\C:freetext\n"

def freeTexts (texts : List (Str × Str)) : Run (Asr.Asr Str) → Bool
  | .ok e => e.map.freeText = texts
  | _ => false

/-- C97 is false of ASR files: the group of a free text may extend over several lines. -/
theorem C97_asr_differs : SameLines asrLines (crlf asrLines) ∧
    freeTexts [(c!"A\nB", c!"C")] (Asr.parse asrLines) = true ∧
    freeTexts [(c!"A\r\nB", c!"C")] (Asr.parse (crlf asrLines)) = true :=
  ⟨sameLines_crlf _ (by decide), by decide +kernel, by decide +kernel⟩

/-- An ASR file to which `C97_asr` applies. -/
example : freeTexts [(c!"A", c!"C")] (Asr.parse c!"Free Text:A\\C:freetext\n") = true ∧
    freeTexts [(c!"A", c!"C")] (Asr.parse (crlf c!"Free Text:A\\C:freetext\n")) = true :=
  ⟨by decide +kernel, by decide +kernel⟩

/-- Fixes that are read, whatever the line ends. -/
example : (Isec.parseIsecTxt (F := Str) (crlf c!"ABAMI\t48.5\t11.25\t15\n;c\nRUDNO\t48.25\t11.5\t15\n")).map (·.length) = .ok 2 := by
  decide +kernel

end Examples
end Verif.Props
