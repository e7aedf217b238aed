import Verif.Proofs.Display
import Verif.Proofs.PrfPaths
import Verif.Props.Symbology
import Verif.Props.TopskySettings
/-!
# C72, C73: the settings of an adaptation

`Spec/Display.lean` has the tables of the items that are used, and the numerals.  What the files mean is said in
`Spec/Symbology.lean` and `Spec/TopskySettings.lean`.  As elsewhere `num` and `numG` give the number a numeral stands for.
-/

namespace Verif.Props
open Verif.Display Verif.Spec.Display Verif.Proofs.Display
open Verif.PrfPaths (Prf Path joinSettingsPath)
open Verif.Parse.SymbolRule (Close)
open Verif.Parse.Symbology (Item Symbology)
open Verif.Spec.Symbology (File)
open Verif.Settings (SquawkDef)

namespace Display

theorem lit_eq {G : Type} [F64 G] {numG : Str → G} (hnumG : ∀ s, IsDecimal s → F64.ofText s = some (numG s)) {ds fs : Str}
    (h : IsDigits ds ∧ IsDigits fs) : Parse.Asr.lit G ds fs h = numG (ds ++ '.' :: fs) := by
  have := hnumG (ds ++ '.' :: fs) ⟨[], ds, '.' :: fs, rfl, Or.inl rfl, h.1.2, Or.inr ⟨fs, rfl, h.2⟩⟩
  unfold Parse.Asr.lit
  simp [this]

theorem fields {F G : Type} [F64 F] [F64 G] [F32Ops G] {items : Map (Str × Str) (Item G)} {topsky : Option (Map Str Str)}
    {squawks : Option (List SquawkDef)} {prf : Prf} {s : Settings F G} :
    Settings.fromEuroscope items topsky squawks prf = .ok s → ∃ asrFiles, recentPaths prf [1, 2, 3, 4, 5, 6, 7, 8, 9] = .ok asrFiles ∧ s =
      { maps := MapsSettings.fromEuroscope items topsky
        vector := match topsky with | some t => Vector.fromTopsky t | none => Vector.default G
        historyDots := match topsky with | some t => HistoryDots.fromTopsky t | none => HistoryDots.default
        coopans := Display.coopans topsky
        specialUseCodes := match squawks with | some s => Verif.Settings.specialUseCodes s | none => []
        asrFiles
        coordination := defaultCoordination } := by
  intro h
  unfold Settings.fromEuroscope at h
  cases hr : recentPaths prf [1, 2, 3, 4, 5, 6, 7, 8, 9] with
  | error e => rw [hr] at h; cases h
  | ok l =>
    rw [hr] at h
    simp only [bind, Except.bind, Except.ok.injEq] at h
    refine ⟨l, rfl, ?_⟩
    exact h.symm

end Display

variable {F G : Type} [F64 F] [F64 G] [F32Ops G] [Close F] (num : Str → F) (numG : Str → G)
  (hnum : ∀ s, IsDecimal s → F64.ofText s = some (num s)) (hnumG : ∀ s, IsDecimal s → F64.ofText s = some (numG s))

include hnum hnumG

/-- **C72.** The symbology file sets the lines and labels: for every kind of lines, width and style are those of the last
item with the folder and name of this kind, and 1 and solid if there is none; for every kind of labels, the alignment is
that of the last item with the folder and name of this kind, and the size is 3.5 times its scale; without such an item
the label is centred and the scale is 3.0.  Nothing else changes them. -/
theorem C72_lines_and_labels {f : File} {content : Str} (h : f.IsText content) (hf : f.Fits) :
    ∃ m : Symbology F G, Parse.Symbology.parse content = .ok m ∧
      ∀ (topsky : Option (Map Str Str)) (squawks : Option (List SquawkDef)) (prf : Prf) (s : Settings F G),
        Settings.fromEuroscope m.items topsky squawks prf = .ok s →
        (∀ kind folder name, (kind, folder, name) ∈ lineItems →
          (∀ i, (f.itemsNamed numG folder name).getLast? = some i → s.maps.lineStyles kind = ⟨i.lineWeight, i.lineStyle⟩) ∧
          (f.itemsNamed numG folder name = [] → s.maps.lineStyles kind = ⟨1, c!"SOLID"⟩)) ∧
        (∀ kind folder name, (kind, folder, name) ∈ labelItems →
          (∀ i, (f.itemsNamed numG folder name).getLast? = some i →
            s.maps.labelAlignments kind = i.alignment ∧ s.maps.labelSizes kind = F32Ops.mul i.scale (numG c!"3.5")) ∧
          (f.itemsNamed numG folder name = [] →
            s.maps.labelAlignments kind = ⟨.center, .center⟩ ∧
            s.maps.labelSizes kind = F32Ops.mul (numG c!"3.0") (numG c!"3.5"))) := by
  obtain ⟨m, h1, h2, _⟩ := C62_symbology num numG hnum hnumG h hf
  refine ⟨m, h1, fun topsky squawks prf s hs => ?_⟩
  obtain ⟨_, _, rfl⟩ := Display.fields hs
  constructor
  · intro kind folder name hk
    have key : lineKey kind = (folder, name) := by
      revert hk; simp only [lineItems, List.mem_cons, List.not_mem_nil, or_false, Prod.mk.injEq]
      rintro (⟨rfl, rfl, rfl⟩ | ⟨rfl, rfl, rfl⟩ | ⟨rfl, rfl, rfl⟩ | ⟨rfl, rfl, rfl⟩ | ⟨rfl, rfl, rfl⟩ | ⟨rfl, rfl, rfl⟩ |
        ⟨rfl, rfl, rfl⟩ | ⟨rfl, rfl, rfl⟩ | ⟨rfl, rfl, rfl⟩) <;> rfl
    show (∀ i, _ → lineStyle m.items kind = _) ∧ (_ → lineStyle m.items kind = _)
    unfold lineStyle
    rw [key, h2]
    exact ⟨fun i hi => by rw [hi], fun hn => by rw [hn]; rfl⟩
  · intro kind folder name hk
    have key : labelKey kind = (folder, name) := by
      revert hk; simp only [labelItems, List.mem_cons, List.not_mem_nil, or_false, Prod.mk.injEq]
      rintro (⟨rfl, rfl, rfl⟩ | ⟨rfl, rfl, rfl⟩ | ⟨rfl, rfl, rfl⟩ | ⟨rfl, rfl, rfl⟩ | ⟨rfl, rfl, rfl⟩) <;> rfl
    show (∀ i, _ → labelAlignment m.items kind = _ ∧ labelSize m.items kind = _) ∧
      (_ → labelAlignment m.items kind = _ ∧ labelSize m.items kind = _)
    unfold labelAlignment labelSize
    rw [key, h2, Display.lit_eq hnumG, Display.lit_eq hnumG]
    exact ⟨fun i hi => by rw [hi]; exact ⟨rfl, rfl⟩, fun hn => by rw [hn]; exact ⟨rfl, rfl⟩⟩

omit [F64 F] [F64 G] [F32Ops G] [Close F] hnum hnumG in
/-- **C72, all kinds.** The tables have every kind of lines and every kind of labels exactly once, and no two kinds share an
item. -/
theorem C72_all_kinds :
    (∀ k, ∃ e, lineItems.filter (fun e => e.1 = k) = [e]) ∧ (∀ k, ∃ e, labelItems.filter (fun e => e.1 = k) = [e]) ∧
    (lineItems.map (·.2)).Nodup ∧ (labelItems.map (·.2)).Nodup := by
  refine ⟨?_, ?_, by decide, by decide⟩
  · rintro (_ | _ | _ | _ | _ | _ | _ | _ | _) <;> exact ⟨_, rfl⟩
  · rintro (_ | _ | _ | _ | _) <;> exact ⟨_, rfl⟩

omit hnum [Close F] in
/-- **C73.** What the settings file of TopSky sets.  The value of a name is that of the last line for it.

* History dots: a whole number other than 0 is their count; 0 turns them off; without a number there are 6.
* Vectors: a number other than 0 is their length in minutes; 0 turns them off; without a number the length is 1.
* The font size of maps is the number given, or 12.
* COOPANS is on unless the value is `0`. -/
theorem C73_topsky_settings {es : List Spec.TopskySettings.Entry} {content : Str} (h : Spec.TopskySettings.IsFile es content) :
    ∃ colours settings, Parse.TopskySettings.parse content = .ok (colours, settings) ∧
      ∀ (items : Map (Str × Str) (Item G)) (squawks : Option (List SquawkDef)) (prf : Prf) (s : Settings F G),
        Settings.fromEuroscope items (some settings) squawks prf = .ok s →
        ∀ value : Str → Option Str, (∀ n, value n = (es.filterMap (Spec.TopskySettings.valueOf n)).getLast?) →
        (∀ v n, value c!"Track_HistoryDots" = some v → IsU32 v n → n ≠ 0 → s.historyDots = ⟨true, n, List.range 9⟩) ∧
        (∀ v, value c!"Track_HistoryDots" = some v → IsU32 v 0 → s.historyDots = ⟨false, 6, List.range 9⟩) ∧
        ((∀ v n, value c!"Track_HistoryDots" = some v → ¬ IsU32 v n) → s.historyDots = ⟨true, 6, List.range 9⟩) ∧
        (∀ v x, value c!"Track_PredictionLine" = some v → F64.ofText v = some x → F32Ops.eq x (numG c!"0.0") = false →
          s.vector.enabled = true ∧ s.vector.length = x) ∧
        (∀ v x, value c!"Track_PredictionLine" = some v → F64.ofText v = some x → F32Ops.eq x (numG c!"0.0") = true →
          s.vector.enabled = false ∧ s.vector.length = numG c!"1.0") ∧
        ((∀ v, value c!"Track_PredictionLine" = some v → F64.ofText (F := G) v = none) →
          F32Ops.eq (numG c!"1.0") (numG c!"0.0") = false →
          s.vector.enabled = true ∧ s.vector.length = numG c!"1.0") ∧
        (∀ v x, value c!"Maps_FontSize" = some v → F64.ofText v = some x → s.maps.fontSize = x) ∧
        ((∀ v, value c!"Maps_FontSize" = some v → F64.ofText (F := G) v = none) → s.maps.fontSize = numG c!"12.0") ∧
        (s.coopans = false ↔ value c!"Setup_COOPANS" = some c!"0") := by
  obtain ⟨colours, settings, h1, h2⟩ := C61_topsky_settings h
  refine ⟨colours, settings, h1, fun items squawks prf s hs value hv => ?_⟩
  have hget : ∀ n, settings.get? n = value n := fun n => by rw [hv, (h2 n).2]
  obtain ⟨_, _, rfl⟩ := Display.fields hs
  have e0 : ∀ hd, Parse.Asr.lit G c!"0" c!"0" hd = numG c!"0.0" := fun hd => Display.lit_eq hnumG hd
  have e1 : ∀ hd, Parse.Asr.lit G c!"1" c!"0" hd = numG c!"1.0" := fun hd => Display.lit_eq hnumG hd
  have e12 : ∀ hd, Parse.Asr.lit G c!"12" c!"0" hd = numG c!"12.0" := fun hd => Display.lit_eq hnumG hd
  have hr : List.range 9 = HistoryDots.default.options := rfl
  simp only [HistoryDots.fromTopsky, Vector.fromTopsky, MapsSettings.fromEuroscope, mapsFontSize, Display.coopans, parseWithDefault,
    hget, e0, e1, e12, hr, Option.bind_some]
  refine ⟨?_, ?_, ?_, ?_, ?_, ?_, ?_, ?_, ?_⟩
  · intro v n hv hn h0
    rw [hv, Option.bind_some, (u32_iff v n).2 hn]
    simp [h0]
  · intro v hv hn
    rw [hv, Option.bind_some, (u32_iff v 0).2 hn]
    rfl
  · intro hno
    have : (value c!"Track_HistoryDots").bind (parseUnsigned 10 (2 ^ 32)) = none := by
      cases hv : value c!"Track_HistoryDots" with
      | none => rfl
      | some v => exact (u32_none v).2 (hno v · hv)
    rw [this]; rfl
  · intro v x hv hx h0
    rw [hv, Option.bind_some, hx]
    simp [h0]
  · intro v x hv hx h0
    rw [hv, Option.bind_some, hx]
    simp [h0]
  · intro hno h0
    have : (value c!"Track_PredictionLine").bind (F64.ofText (F := G)) = none := by
      cases hv : value c!"Track_PredictionLine" with
      | none => rfl
      | some v => exact hno v hv
    rw [this]
    simp [h0]
  · intro v x hv hx
    rw [hv, Option.bind_some, hx]; rfl
  · intro hno
    have : (value c!"Maps_FontSize").bind (F64.ofText (F := G)) = none := by
      cases hv : value c!"Maps_FontSize" with
      | none => rfl
      | some v => exact hno v hv
    rw [this]; rfl
  · cases hv : value c!"Setup_COOPANS" with
    | none => simp
    | some v => simp

omit hnum [Close F] in
/-- **C73, without TopSky.** History dots and vectors are off, with 6 dots and a length of 1; the font size of maps is 12 and
COOPANS is on. -/
theorem C73_without_topsky (items : Map (Str × Str) (Item G)) (squawks : Option (List SquawkDef)) (prf : Prf) (s : Settings F G)
    (hs : Settings.fromEuroscope items none squawks prf = .ok s) :
    s.historyDots = ⟨false, 6, List.range 9⟩ ∧ s.vector.enabled = false ∧ s.vector.length = numG c!"1.0" ∧
    s.maps.fontSize = numG c!"12.0" ∧ s.coopans = true := by
  obtain ⟨_, _, rfl⟩ := Display.fields hs
  refine ⟨rfl, rfl, ?_, ?_, rfl⟩
  · exact Display.lit_eq hnumG (ds := c!"1") (fs := c!"0") (by decide)
  · exact Display.lit_eq hnumG (ds := c!"12") (fs := c!"0") (by decide)

omit hnum [Close F] in
/-- **C73, the same everywhere.** Neither file changes the automatic folder, the layer, the label offset, the font of maps, the
lengths of vectors offered, the times of coordination and the timeout for logical acknowledgements. -/
theorem C73_fixed (hnum : ∀ s, IsDecimal s → F64.ofText s = some (num s)) (items : Map (Str × Str) (Item G))
    (topsky : Option (Map Str Str)) (squawks : Option (List SquawkDef)) (prf : Prf) (s : Settings F G)
    (hs : Settings.fromEuroscope items topsky squawks prf = .ok s) :
    s.maps.autoFolder = c!"AUTO" ∧ s.maps.layer = numG c!"1.0" ∧ s.maps.labelOffset = (num c!"3.0", num c!"3.0") ∧
    s.vector.options = ([c!"0.5", c!"1.0", c!"2.0", c!"3.0", c!"4.0", c!"5.0", c!"6.0", c!"7.0", c!"8.0", c!"9.0", c!"10.0", c!"15.0",
      c!"20.0"]).map numG ∧
    s.coordination.act = F32Ops.minutes (numG c!"15.0") ∧ s.coordination.abi = F32Ops.minutes (numG c!"30.0") ∧
    s.coordination.rev = F32Ops.minutes (numG c!"5.0") ∧ s.coordination.firOverrides = [] ∧
    s.coordination.lamTimeout = numG c!"5.0" ∧ s.maps.font = none := by
  obtain ⟨_, _, rfl⟩ := Display.fields hs
  refine ⟨rfl, ?_, ?_, ?_, ?_, ?_, ?_, rfl, Display.lit_eq hnumG (ds := c!"5") (fs := c!"0") (by decide), rfl⟩
  · exact Display.lit_eq hnumG (ds := c!"1") (fs := c!"0") (by decide)
  · exact Prod.ext (Display.lit_eq hnum (ds := c!"3") (fs := c!"0") (by decide))
      (Display.lit_eq hnum (ds := c!"3") (fs := c!"0") (by decide))
  · have : ∀ t : Option (Map Str Str), (match t with | some t => Vector.fromTopsky t | none => Vector.default G).options =
        (Vector.default G).options := by rintro (_ | _) <;> rfl
    refine (this topsky).trans ?_
    simp only [Vector.default, Display.lit_eq hnumG]
    rfl
  · exact congrArg _ (Display.lit_eq hnumG (ds := c!"15") (fs := c!"0") (by decide))
  · exact congrArg _ (Display.lit_eq hnumG (ds := c!"30") (fs := c!"0") (by decide))
  · exact congrArg _ (Display.lit_eq hnumG (ds := c!"5") (fs := c!"0") (by decide))

omit hnum hnumG [Close F] in
/-- **C73, recent files.** With a profile in a directory and a current directory there are always settings, and their ASR
files are the resolved values of `Recent1` to `Recent9`, in this order, without those that are missing. -/
theorem C73_asr_files (prf : Prf) (dir cwd : Path) (file : Str) (hp : prf.path = dir ++ [file]) (hc : prf.cwd = some cwd)
    (items : Map (Str × Str) (Item G)) (topsky : Option (Map Str Str)) (squawks : Option (List SquawkDef)) :
    ∃ s : Settings F G, Settings.fromEuroscope items topsky squawks prf = .ok s ∧
      s.asrFiles.map Except.ok =
        ([c!"Recent1", c!"Recent2", c!"Recent3", c!"Recent4", c!"Recent5", c!"Recent6", c!"Recent7", c!"Recent8", c!"Recent9"].filterMap
          fun key => prf.settings.get? (c!"RecentFiles", key)).map (joinSettingsPath prf) := by
  have hok : ∀ i, ∃ p, PrfPaths.recentPath prf i = .ok p ∧
      (prf.settings.get? (c!"RecentFiles", c!"Recent" ++ showNat i)).map (joinSettingsPath prf) = p.map Except.ok := by
    intro i
    unfold PrfPaths.recentPath
    cases Map.get? prf.settings (c!"RecentFiles", c!"Recent" ++ showNat i) with
    | none => exact ⟨none, rfl, rfl⟩
    | some v =>
      obtain ⟨p, hp'⟩ := PrfPaths.resolve_total hp hc v
      exact ⟨some p, by show (do return some (← joinSettingsPath prf v)) = _; rw [hp']; rfl, by simp [hp']⟩
  obtain ⟨ps, h1, h2⟩ := recentPaths_ok (prf := prf) (l := [1, 2, 3, 4, 5, 6, 7, 8, 9]) fun i _ => ⟨_, (hok i).choose_spec.1⟩
  refine ⟨_, by unfold Settings.fromEuroscope; rw [h1]; rfl, ?_⟩
  show ps.map Except.ok = _
  have keys : [c!"Recent1", c!"Recent2", c!"Recent3", c!"Recent4", c!"Recent5", c!"Recent6", c!"Recent7", c!"Recent8", c!"Recent9"] =
      [1, 2, 3, 4, 5, 6, 7, 8, 9].map fun i => c!"Recent" ++ showNat i := by decide +kernel
  rw [keys, h2, List.filterMap_map, List.map_filterMap, List.map_filterMap]
  apply congrArg (fun f => List.filterMap f _)
  funext i
  obtain ⟨p, h3, h4⟩ := hok i
  rw [h3]
  exact h4.symm

/-! ## Examples -/

namespace Display
open Verif.Spec.Symbology (ItemLine)

/-- Two items for SIDs and one for the names of VORs. -/
def file : File :=
  { Symbology.sample Symbology.arc c!"ARC 0 -1.5:3 90 450" with
    items := [(⟨c!"Sids", c!"line", c!"255", c!"1", (c!"0", c!"SOLID"), c!"4", (c!"0", ⟨.left, .top⟩)⟩, c!"\n"),
      (⟨c!"Sids", c!"line", c!"255", c!"1", (c!"2", c!"DOT"), c!"2", (c!"0", ⟨.left, .top⟩)⟩, c!"\n"),
      (⟨c!"VORs", c!"name", c!"255", c!"1.5", (c!"0", c!"SOLID"), c!"1", (c!"14", ⟨.right, .bottom⟩)⟩, c!"\n")] }

omit hnum hnumG in
theorem file_valid : file.Valid := by
  obtain ⟨h1, h2, h3, h4, h5, h6⟩ := Symbology.sample_valid Symbology.arc_text
  refine ⟨h1, h2, h3, by simp [file], ?_, h6⟩
  intro i hi
  simp only [file, List.mem_cons, List.not_mem_nil, or_false] at hi
  rcases hi with rfl | rfl | rfl <;>
  exact ⟨⟨Symbology.field (by decide) (by decide), Symbology.field (by decide) (by decide), by decide,
    isDecimal_of_check (by decide), by decide, by decide, by decide⟩, Symbology.brk1⟩

/-- A file that is read, with what it sets: dotted SIDs of width 2, names of VORs to the lower right. -/
example : file.IsText file.text ∧ file.Fits ∧
    ((file.itemsNamed (G := Str) id c!"Sids" c!"line").getLast?.map fun i => (i.lineWeight, i.lineStyle)) = some (2, c!"DOT") ∧
    ((file.itemsNamed (G := Str) id c!"VORs" c!"name").getLast?.map fun i => (i.scale, i.alignment)) =
      some (c!"1.5", ⟨.right, .bottom⟩) ∧
    file.itemsNamed (G := Str) id c!"Stars" c!"line" = [] :=
  ⟨⟨file_valid, Symbology.text_spaced _⟩, by decide, by decide, by decide, by decide⟩

example : IsU32 c!"12" 12 ∧ IsU32 c!"+0" 0 ∧ ∀ n, ¬ IsU32 c!"-1" n :=
  ⟨⟨by decide, [1, 2], by decide⟩, ⟨by decide, [0], by decide⟩, (u32_none _).1 (by decide)⟩

/-- A settings file: no history dots. -/
example : Spec.TopskySettings.IsFile [.setting c!"Track_HistoryDots" c!"0"] c!"Track_HistoryDots=0" :=
  .line _ [] c!"Track_HistoryDots=0" [] [] [] (.setting c!"Track_HistoryDots" [] [] c!"0" [] (by decide) (by decide) (by decide)
    (by decide) ⟨by decide, by decide, by decide, by decide⟩ ⟨[], [], rfl, by decide, Or.inl rfl⟩ (by decide)) .nil .nil (Or.inl rfl)

end Display
end Verif.Props
