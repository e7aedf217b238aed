import Verif.Spec.ReorderedMore
import Verif.Props.Reordered
import Verif.Props.AsrExact
import Verif.Props.Symbology
import Verif.Props.Topsky
import Verif.Props.TopskySettings
/-!
# C115: lines and definitions in another order, in .asr, symbology and TopSky files
-/

namespace Verif.Props
open Verif.Spec (SameOrder)
open Verif.Dms (DmsArith)
open Verif.Parse.SymbolRule (Close)

/-- Numbers can be read. -/
theorem reads (G : Type) [F64 G] : ∃ num : Str → G, ∀ s, IsDecimal s → F64.ofText s = some (num s) := by
  have hz : IsDecimal c!"0" := ⟨[], c!"0", [], rfl, Or.inl rfl, by decide, Or.inl ⟨rfl, by decide⟩⟩
  obtain ⟨x0, hx0⟩ := F64.some_of_decimal (F := G) hz
  refine ⟨fun s => (F64.ofText s).getD x0, fun s hs => ?_⟩
  obtain ⟨v, hv⟩ := F64.some_of_decimal (F := G) hs
  show _ = some ((F64.ofText s).getD x0)
  rw [hv]; rfl

section Asr
open Verif.Parse.Asr Verif.Spec.Asr

variable {F : Type} [F64 F]

/-- What is read from an .asr file, apart from the order in which the settings of plugins stand in the table. -/
theorem means_same {num : Str → F} {ws ws' : List Line} {a a' : Asr F} (ho : SameOrder Line.subject ws ws') (h : Means num ws a)
    (h' : Means num ws' a') : { a' with pluginSettings := [] } = { a with pluginSettings := [] } ∧
      ∀ k, a'.pluginSettings.get? k = a.pluginSettings.get? k := by
  have int : ∀ {B : Type} (k : IntKey) (g : Str → B) (d : B),
      first ws' (fun w => (w.int? k).map g) d = first ws (fun w => (w.int? k).map g) d := by
    intro B k g d
    unfold first
    rw [same_filterMap ho (k := [k.key])]
    intro x b hx
    cases x <;> simp only [Line.int?, Option.map_none, reduceCtorEq] at hx
    split at hx
    · subst_vars; rfl
    · cases hx
  have text : ∀ {B : Type} (k : TextKey) (g : Str → B) (d : B),
      first ws' (fun w => (w.text? k).map g) d = first ws (fun w => (w.text? k).map g) d := by
    intro B k g d
    unfold first
    rw [same_filterMap ho (k := [k.key])]
    intro x b hx
    cases x <;> simp only [Line.text?, Option.map_none, reduceCtorEq] at hx
    split at hx
    · subst_vars; rfl
    · cases hx
  have text' : ∀ (k : TextKey) (d : Str), first ws' (Line.text? k) d = first ws (Line.text? k) d := by
    intro k d
    have := text k id d
    simpa only [Option.map_id_fun, id] using this
  have flag : ∀ (k : Flag) (d : Bool), first ws' (Line.flag? k) d = first ws (Line.flag? k) d := by
    intro k d
    unfold first
    rw [same_filterMap ho (k := [k.key])]
    intro x b hx
    cases x <;> simp only [Line.flag?, reduceCtorEq] at hx
    split at hx
    · subst_vars; rfl
    · cases hx
  have name : ∀ (k : NameKey), ws'.filterMap (Line.name? k) = ws.filterMap (Line.name? k) := by
    intro k
    refine same_filterMap ho (k := [k.key]) ?_
    intro x b hx
    cases x <;> simp only [Line.name?, reduceCtorEq] at hx
    split at hx
    · subst_vars; rfl
    · cases hx
  have rot : ∀ d, first ws' Line.rotation? d = first ws Line.rotation? d := by
    intro d
    unfold first
    rw [same_filterMap ho (k := [c!"DISPLAYROTATION:"])]
    intro x b hx
    cases x <;> cases hx
    rfl
  have win : ∀ d, first ws' Line.window? d = first ws Line.window? d := by
    intro d
    unfold first
    rw [same_filterMap ho (k := [c!"WINDOWAREA:"])]
    intro x b hx
    cases x <;> cases hx
    rfl
  refine ⟨?_, fun (p, k) => ?_⟩
  · have hm : a'.map = a.map := by
      have h1 := h'.runways.trans ((same_filterMap ho (k := [c!"Runways:"]) fun x b hx => by
        cases x <;> first | rfl | cases hx).trans h.runways.symm)
      have h2 := h'.airports.trans ((same_filterMap ho (k := [c!"Airports:"]) fun x b hx => by
        cases x <;> first | rfl | cases hx).trans h.airports.symm)
      have h3 := h'.fixes.trans ((same_filterMap ho (k := [c!"Fixes:"]) fun x b hx => by
        cases x <;> first | rfl | cases hx).trans h.fixes.symm)
      have h4 := h'.ndbs.trans ((same_filterMap ho (k := [c!"NDBs:"]) fun x b hx => by
        cases x <;> first | rfl | cases hx).trans h.ndbs.symm)
      have h5 := h'.vors.trans ((same_filterMap ho (k := [c!"VORs:"]) fun x b hx => by
        cases x <;> first | rfl | cases hx).trans h.vors.symm)
      have h6 := h'.lowAirways.trans ((same_filterMap ho (k := [c!"Low airways:"]) fun x b hx => by
        cases x <;> first | rfl | cases hx).trans h.lowAirways.symm)
      have h7 := h'.highAirways.trans ((same_filterMap ho (k := [c!"High airways:"]) fun x b hx => by
        cases x <;> first | rfl | cases hx).trans h.highAirways.symm)
      have h8 := h'.groundNetwork.trans ((same_filterMap ho (k := [c!"Ground network:"]) fun x b hx => by
        cases x <;> first | rfl | cases hx).trans h.groundNetwork.symm)
      have h9 := h'.freeText.trans ((same_filterMap ho (k := [c!"Free Text:"]) fun x b hx => by
        cases x <;> first | rfl | cases hx).trans h.freeText.symm)
      have n1 := h'.sids.trans ((name _).trans h.sids.symm)
      have n2 := h'.stars.trans ((name _).trans h.stars.symm)
      have n3 := h'.geo.trans ((name _).trans h.geo.symm)
      have n4 := h'.regions.trans ((name _).trans h.regions.symm)
      have n5 := h'.artccBoundary.trans ((name _).trans h.artccBoundary.symm)
      have n6 := h'.artccLowBoundary.trans ((name _).trans h.artccLowBoundary.symm)
      have n7 := h'.artccHighBoundary.trans ((name _).trans h.artccHighBoundary.symm)
      generalize a.map = m at *
      generalize a'.map = m' at *
      cases m
      cases m'
      simp only at h1 h2 h3 h4 h5 h6 h7 h8 h9 n1 n2 n3 n4 n5 n6 n7
      subst_vars
      rfl
    have hh : a'.historyDots = a.historyDots := by
      have := h'.historyDots
      rw [int, ← h.historyDots] at this
      exact Int.ofNat.inj this
    have hw : a'.windowArea = a.windowArea := by
      have w' := h'.windowArea
      rw [win] at w'
      exact w'.trans h.windowArea.symm
    have e1 := h'.above.trans ((int _ _ _).trans h.above.symm)
    have e2 := h'.below.trans ((int _ _ _).trans h.below.symm)
    have e3 := h'.leader.trans ((int _ _ _).trans h.leader.symm)
    have e4 := h'.simulationMode.trans ((int _ _ _).trans h.simulationMode.symm)
    have f1 := h'.disablePanning.trans ((flag _ _).trans h.disablePanning.symm)
    have f2 := h'.disableZooming.trans ((flag _ _).trans h.disableZooming.symm)
    have f3 := h'.geoReferenced.trans ((flag _ _).trans h.geoReferenced.symm)
    have f4 := h'.needRadarContent.trans ((flag _ _).trans h.needRadarContent.symm)
    have f5 := h'.showLeader.trans ((flag _ _).trans h.showLeader.symm)
    have f6 := h'.showC.trans ((flag _ _).trans h.showC.symm)
    have f7 := h'.showStandby.trans ((flag _ _).trans h.showStandby.symm)
    have f8 := h'.turnLeader.trans ((flag _ _).trans h.turnLeader.symm)
    have t1 := h'.displayType.trans ((text _ _ _).trans h.displayType.symm)
    have t2 := h'.sectorFile.trans ((text' _ _).trans h.sectorFile.symm)
    have t3 := h'.sectorTitle.trans ((text' _ _).trans h.sectorTitle.symm)
    have t4 := h'.tagFamily.trans ((text' _ _).trans h.tagFamily.symm)
    have r := h'.displayRotation.trans ((congrArg num (rot _)).trans h.displayRotation.symm)
    rw [hm, hh, hw, e1, e2, e3, e4, f1, f2, f3, f4, f5, f6, f7, f8, t1, t2, t3, t4, r]
  · rw [h.plugins, h'.plugins, same_filterMap ho (k := [c!"PLUGIN:", p, k])]
    intro x b hx
    cases x <;> simp only [reduceCtorEq] at hx
    split at hx
    · next e => rw [← e.1, ← e.2]; rfl
    · cases hx

/-- **C115.** Two .asr files with the same settings, those with the same key in the same order: both make the parser panic, or the
same is read from both. -/
theorem C115_asr (num : Str → F) (hnum : ∀ s, IsNumber s → F64.ofText s = some (num s))
    (hdms : ∀ s, IsDms s → (F64.ofText s : Option F) = none) {t t' : Str} {ws ws' : List Line} (h : IsAsr t ws) (h' : IsAsr t' ws')
    (ho : SameOrder Line.subject ws ws') :
    (parse (F := F) t = .error .panic ∧ parse (F := F) t' = .error .panic) ∨
    ∃ a a' : Asr F, parse t = .ok a ∧ parse t' = .ok a' ∧ { a' with pluginSettings := [] } = { a with pluginSettings := [] } ∧
      ∀ k, a'.pluginSettings.get? k = a.pluginSettings.get? k := by
  by_cases hr : ∀ w ∈ ws, w.Readable
  · obtain ⟨a, e, k⟩ := C43_asr_value num hnum hdms t ws h hr
    obtain ⟨a', e', k'⟩ := C43_asr_value num hnum hdms t' ws' h' fun w hw => hr w (same_mem ho hw)
    exact Or.inr ⟨a, a', e, e', means_same ho k k'⟩
  · have : ∃ w ∈ ws, ¬ w.Readable := by
      refine Classical.byContradiction fun hn => hr fun w hw => Classical.byContradiction fun hx => hn ⟨w, hw, hx⟩
    obtain ⟨w, hw, hx⟩ := this
    exact Or.inl ⟨(C44_asr_panics_exactly num hnum hdms t).2 ⟨ws, h, w, hw, hx⟩,
      (C44_asr_panics_exactly num hnum hdms t').2 ⟨ws', h', w, (same_mem_iff ho w).2 hw, hx⟩⟩

end Asr

section Symbology
open Verif.Parse.Symbology Verif.Spec.Symbology

variable {F G : Type} [F64 F] [F64 G] [Close F]

/-- **C115.** Two symbology files with the same items and symbols, those of the same folder and name and those of the same type in the
same order: both make the parser panic, or the same is found in both. -/
theorem C115_symbology {f f' : File} {t t' : Str} (h : f.IsText t) (h' : f'.IsText t')
    (hi : SameOrder (fun i => (i.1.folder, i.1.name)) f.items f'.items) (hs : SameOrder SymbolDef.type f.symbols f'.symbols) :
    (parse (F := F) (G := G) t = .error .panic ∧ parse (F := F) (G := G) t' = .error .panic) ∨
    ∃ m m' : Symbology F G, parse t = .ok m ∧ parse t' = .ok m' ∧ (∀ k, m'.items.get? k = m.items.get? k) ∧
      ∀ y, m'.symbols.get? y = m.symbols.get? y := by
  obtain ⟨num, hnum⟩ := reads F
  obtain ⟨numG, hnumG⟩ := reads G
  have fits : f'.Fits ↔ f.Fits := by
    unfold File.Fits
    simp only [same_mem_iff hi, same_mem_iff hs]
  by_cases hf : f.Fits
  · obtain ⟨m, e, k1, k2⟩ := C62_symbology (F := F) (G := G) num numG hnum hnumG h hf
    obtain ⟨m', e', k1', k2'⟩ := C62_symbology (F := F) (G := G) num numG hnum hnumG h' (fits.2 hf)
    refine Or.inr ⟨m, m', e, e', fun (x, y) => ?_, fun y => ?_⟩
    · rw [k1, k1']
      unfold File.itemsNamed
      rw [same_filterMap hi (k := (x, y))]
      intro i b hb
      split at hb
      · next e => exact Prod.ext e.1 e.2
      · cases hb
    · rw [k2, k2']
      unfold File.symbolsOf
      rw [same_filterMap hs (k := some y)]
      intro i b hb
      split at hb
      · assumption
      · cases hb
  · exact Or.inl ⟨C62_symbology_panics num numG hnum hnumG h hf, C62_symbology_panics num numG hnum hnumG h' (fun x => hf (fits.1 x))⟩

end Symbology

section TopskySettings
open Verif.Parse.TopskySettings Verif.Spec.TopskySettings

/-- **C115.** Two TopSky settings files with the same lines, those of the same name in the same order: the same is found in both. -/
theorem C115_topsky_settings {es es' : List Entry} {t t' : Str} (h : IsFile es t) (h' : IsFile es' t') (ho : SameOrder Entry.name es es') :
    ∃ c s c' s', parse t = .ok (c, s) ∧ parse t' = .ok (c', s') ∧ ∀ n, c'.get? n = c.get? n ∧ s'.get? n = s.get? n := by
  obtain ⟨c, s, e, k⟩ := C61_topsky_settings h
  obtain ⟨c', s', e', k'⟩ := C61_topsky_settings h'
  refine ⟨c, s, c', s', e, e', fun n => ⟨?_, ?_⟩⟩
  · rw [(k n).1, (k' n).1, same_filterMap ho (k := n)]
    intro x b hx
    cases x <;> simp only [colourOf, reduceCtorEq] at hx
    split at hx
    · assumption
    · cases hx
  · rw [(k n).2, (k' n).2, same_filterMap ho (k := n)]
    intro x b hx
    cases x <;> simp only [valueOf, reduceCtorEq] at hx
    split at hx
    · assumption
    · cases hx

end TopskySettings

section Topsky
open Verif.Parse.Topsky Verif.Spec.Topsky

/-- The last of the elements with the name. -/
theorem lastNamed_filterMap {A B : Type} (name : B → Str) (p : A → Option B) (l : List A) (n : Str) :
    lastNamed name (l.filterMap p) n = (l.filterMap fun a => (p a).filter (name · == n)).getLast? := by
  unfold lastNamed
  rw [← List.head?_filter, List.filter_reverse, List.head?_reverse, List.filter_filterMap]

/-- **C115.** Two TopSky symbol files with the same symbols, those of the same name in the same order: both make the parser panic, or
the same is found in both. -/
theorem C115_topsky_symbols {F : Type} [F64 F] [Close F] {f f' : SymbolFile} (h : f.Valid) (h' : f'.Valid)
    (ho : SameOrder Symbol.name f.symbols f'.symbols) :
    (parseSymbols (F := F) f.text = .error .panic ∧ parseSymbols (F := F) f'.text = .error .panic) ∨
    ∃ m m' : Map Str (SymbolDef F), parseSymbols f.text = .ok m ∧ parseSymbols f'.text = .ok m' ∧ ∀ n, m'.get? n = m.get? n := by
  obtain ⟨num, hnum⟩ := reads F
  have fits : f'.Fits ↔ f.Fits := by
    unfold SymbolFile.Fits
    simp only [same_mem_iff ho]
  by_cases hf : f.Fits
  · obtain ⟨m, e, k⟩ := (C63_topsky_symbols num hnum h).1 hf
    obtain ⟨m', e', k'⟩ := (C63_topsky_symbols num hnum h').1 (fits.2 hf)
    refine Or.inr ⟨m, m', e, e', fun n => ?_⟩
    rw [k, k', ← List.filterMap_eq_map, lastNamed_filterMap, lastNamed_filterMap, same_filterMap ho (k := n)]
    intro x b hx
    obtain ⟨hx, hn⟩ := Option.filter_eq_some_iff.1 hx
    cases hx
    exact eq_of_beq hn
  · exact Or.inl ⟨(C63_topsky_symbols num hnum h).2 hf, (C63_topsky_symbols num hnum h').2 fun x => hf (fits.1 x)⟩

/-- **C115.** Two TopSky map files with the same definitions; the maps, the overrides, and the symbols, colours and line styles of the
same name are in the same order: both make the parser panic, or the same is read from both. -/
theorem C115_topsky_maps {F G : Type} [F64 F] [DmsArith F] [DecidableEq F] [F64 G] [Close F] (upper : Str → Str) {f f' : MapFile}
    (h : f.Valid) (h' : f'.Valid) (ho : SameOrder Def.subject f.defs f'.defs) :
    (parseMaps (F := F) (G := G) upper f.text = .error .panic ∧ parseMaps (F := F) (G := G) upper f'.text = .error .panic) ∨
    ∃ m m' : Maps F G, parseMaps upper f.text = .ok m ∧ parseMaps upper f'.text = .ok m' ∧ m'.maps = m.maps ∧
      m'.overrides = m.overrides ∧ ∀ n, m'.symbols.get? n = m.symbols.get? n ∧ m'.colours.get? n = m.colours.get? n ∧
        m'.lineStyles.get? n = m.lineStyles.get? n := by
  obtain ⟨num, hnum⟩ := reads F
  obtain ⟨numG, hnumG⟩ := reads G
  have fits : f'.Fits ↔ f.Fits := by
    unfold MapFile.Fits
    simp only [same_mem_iff ho]
  by_cases hf : f.Fits
  · obtain ⟨m, e, k1, k2, k⟩ := (C64_topsky_maps num numG upper hnum hnumG h).1 hf
    obtain ⟨m', e', k1', k2', k'⟩ := (C64_topsky_maps num numG upper hnum hnumG h').1 (fits.2 hf)
    refine Or.inr ⟨m, m', e, e', ?_, ?_, fun n => ⟨?_, ?_, ?_⟩⟩
    · rw [k1, k1']
      exact same_filterMap ho (k := [c!"MAP"]) fun x b hx => by cases x <;> first | rfl | cases hx
    · rw [k2, k2']
      exact same_filterMap ho (k := [c!"OVERRIDE_SCT_MAP"]) fun x b hx => by cases x <;> first | rfl | cases hx
    · rw [(k n).1, (k' n).1]
      unfold MapFile.symbols
      rw [lastNamed_filterMap, lastNamed_filterMap, same_filterMap ho (k := [c!"SYMBOLDEF", n])]
      intro x b hx
      obtain ⟨hx, hn⟩ := Option.filter_eq_some_iff.1 hx
      cases x <;> cases hx
      rw [← eq_of_beq hn]
      rfl
    · rw [(k n).2.1, (k' n).2.1]
      unfold MapFile.colours
      rw [lastNamed_filterMap, lastNamed_filterMap, same_filterMap ho (k := [c!"COLORDEF", n])]
      intro x b hx
      obtain ⟨hx, hn⟩ := Option.filter_eq_some_iff.1 hx
      cases x <;> cases hx
      rw [← eq_of_beq hn]
      rfl
    · rw [(k n).2.2, (k' n).2.2]
      unfold MapFile.lineStyles
      rw [lastNamed_filterMap, lastNamed_filterMap, same_filterMap ho (k := [c!"LINESTYLEDEF", n])]
      intro x b hx
      obtain ⟨hx, hn⟩ := Option.filter_eq_some_iff.1 hx
      cases x <;> cases hx
      rw [← eq_of_beq hn]
      rfl
  · exact Or.inl ⟨(C64_topsky_maps num numG upper hnum hnumG h).2 hf, (C64_topsky_maps num numG upper hnum hnumG h').2 fun x => hf (fits.1 x)⟩

end Topsky

section Examples

/-- Two neighbours about different things change places. -/
theorem sameOrder_swap {A K : Type} [DecidableEq K] {key : A → K} (l : List A) (a b : A) (r : List A) (h : key a ≠ key b) :
    SameOrder key (l ++ a :: b :: r) (l ++ b :: a :: r) := by
  intro k
  simp only [List.filter_append, List.filter_cons]
  congr 1
  by_cases ha : key a = k
  · have hb : ¬ key b = k := fun e => h (ha.trans e.symm)
    simp [ha, hb]
  · simp [ha]

section
open Verif.Spec.Asr

/-- Two settings, in both orders. -/
example : IsAsr c!"LEADER:5\nSHOWC:1" [.int .leader c!"5", .flag .showC true] ∧ IsAsr c!"SHOWC:1\nLEADER:5" [.flag .showC true, .int .leader c!"5"] ∧
    SameOrder Line.subject [.int .leader c!"5", .flag .showC true] [.flag .showC true, .int .leader c!"5"] := by
  refine ⟨⟨[], c!"LEADER:5\nSHOWC:1", rfl, .nil, .cons _ c!"LEADER:5" c!"\n" _ _ ⟨⟨[], c!"5", rfl, ⟨.nil, Or.inl rfl, by decide⟩, rfl⟩, Or.inl (by decide)⟩
      (.newline _ _ (Or.inl rfl) .nil) (.last _ c!"SHOWC:1" [] ⟨⟨[], c!"1", rfl, ⟨.nil, Or.inl rfl, by decide⟩, rfl⟩, trivial⟩ .nil)⟩,
    ⟨[], c!"SHOWC:1\nLEADER:5", rfl, .nil, .cons _ c!"SHOWC:1" c!"\n" _ _ ⟨⟨[], c!"1", rfl, ⟨.nil, Or.inl rfl, by decide⟩, rfl⟩, trivial⟩
      (.newline _ _ (Or.inl rfl) .nil) (.last _ c!"LEADER:5" [] ⟨⟨[], c!"5", rfl, ⟨.nil, Or.inl rfl, by decide⟩, rfl⟩, Or.inl (by decide)⟩ .nil)⟩,
    sameOrder_swap [] _ _ [] (by decide)⟩

end

section
open Verif.Spec.Symbology

/-- The symbols of a file in the reverse order. -/
example : ∃ f f' : File, f.IsText f.text ∧ f'.IsText f'.text ∧ f'.symbols = f.symbols.reverse ∧ f'.text ≠ f.text ∧
    SameOrder (fun i => (i.1.folder, i.1.name)) f.items f'.items ∧ SameOrder SymbolDef.type f.symbols f'.symbols := by
  have h := Symbology.sample_valid Symbology.arc_text
  refine ⟨Symbology.sample Symbology.arc c!"ARC 0 -1.5:3 90 450", { Symbology.sample Symbology.arc c!"ARC 0 -1.5:3 90 450" with
    symbols := (Symbology.sample Symbology.arc c!"ARC 0 -1.5:3 90 450").symbols.reverse }, ⟨h, Symbology.text_spaced _⟩, ⟨?_, Symbology.text_spaced _⟩, rfl,
    by decide +kernel, fun _ => rfl, sameOrder_swap [] _ _ [] (by decide)⟩
  obtain ⟨h1, h2, h3, h4, h5, h6, h7, h8⟩ := h
  exact ⟨h1, h2, h3, h4, h5, by simp [Symbology.sample], fun s hs => h7 s (List.mem_reverse.1 hs), h8⟩

end

section
open Verif.Spec.TopskySettings

/-- Two settings, in both orders. -/
example : IsFile [.setting c!"X" c!"1", .setting c!"Y" c!"2"] c!"X=1\nY=2" ∧ IsFile [.setting c!"Y" c!"2", .setting c!"X" c!"1"] c!"Y=2\nX=1" ∧
    SameOrder Entry.name [.setting c!"X" c!"1", .setting c!"Y" c!"2"] [.setting c!"Y" c!"2", .setting c!"X" c!"1"] := by
  have nl : Spec.IsBreak marks c!"\n" := ⟨'\n', [], rfl, by decide, .nil⟩
  have lx := IsLine.setting c!"X" [] [] c!"1" [] (by decide) (by decide) (by decide) (by decide)
    ⟨by decide, by decide, by decide, by decide⟩ ⟨[], [], rfl, by decide, Or.inl rfl⟩ (by decide)
  have ly := IsLine.setting c!"Y" [] [] c!"2" [] (by decide) (by decide) (by decide) (by decide)
    ⟨by decide, by decide, by decide, by decide⟩ ⟨[], [], rfl, by decide, Or.inl rfl⟩ (by decide)
  exact ⟨IsFile.line _ _ _ _ [] [] lx (.cons _ _ _ _ _ nl ly .nil) .nil (Or.inl rfl),
    IsFile.line _ _ _ _ [] [] ly (.cons _ _ _ _ _ nl lx .nil) .nil (Or.inl rfl), sameOrder_swap [] _ _ [] (by decide)⟩

end

section
open Verif.Spec.Topsky Topsky

/-- Two symbols of different names change places; the two of the same name stay in their order. -/
example : (symbolSample c!"-30").Valid ∧ (⟨c!" ; strong\n\n", [sign c!"VOR" c!"90", sign c!"VOR" c!"-30", sign c!"My NDB" c!"720"]⟩ : SymbolFile).Valid ∧
    SameOrder Symbol.name (symbolSample c!"-30").symbols [sign c!"VOR" c!"90", sign c!"VOR" c!"-30", sign c!"My NDB" c!"720"] :=
  ⟨symbolSample_valid (by decide), ⟨remark_end, by simp, sign_valid (by decide) (by decide) (by decide) _,
    sign_valid (by decide) (by decide) (by decide) _, sign_valid (by decide) (by decide) (by decide) _, trivial⟩,
    sameOrder_swap [_] _ _ [] (by decide)⟩

/-- A line style and a symbol change places. -/
example : (⟨[], [.lineStyle c!"Dotted" c!"255" c!"-" [c!"1", c!"5"] c!"\n", .symbol (sign c!"VOR" c!"45")]⟩ : MapFile).Valid ∧
    (⟨[], [.symbol (sign c!"VOR" c!"45"), .lineStyle c!"Dotted" c!"255" c!"-" [c!"1", c!"5"] c!"\n"]⟩ : MapFile).Valid ∧
    SameOrder Def.subject [.lineStyle c!"Dotted" c!"255" c!"-" [c!"1", c!"5"] c!"\n", .symbol (sign c!"VOR" c!"45")]
      [.symbol (sign c!"VOR" c!"45"), .lineStyle c!"Dotted" c!"255" c!"-" [c!"1", c!"5"] c!"\n"] :=
  ⟨⟨.nil, by simp, ⟨by decide, by decide, by decide, by decide, as_plain _ _⟩, sign_valid (by decide) (by decide) (by decide) _, trivial⟩,
    ⟨.nil, by simp, sign_valid (by decide) (by decide) (by decide) _, ⟨by decide, by decide, by decide, by decide, as_plain _ _⟩, trivial⟩,
    sameOrder_swap [] _ _ [] (by decide)⟩

end

end Examples
end Verif.Props
