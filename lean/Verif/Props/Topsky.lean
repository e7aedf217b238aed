import Verif.Proofs.TopskyPanic
import Verif.Proofs.TopskySymbolsSound
import Verif.Props.TopskySettings
import Verif.Base.NumDec
/-!
# C63, C64, C65: TopSky symbols, maps and all three files
-/

namespace Verif.Props
open Verif.Dms Verif.Spec.Topsky Verif.Proofs.Topsky
open Verif.Parse.Topsky
open Verif.Parse.SymbolRule (Close)
open Verif.Parse.TopskySettings (ColourDef)

set_option linter.unusedSectionVars false

namespace Topsky

/-- Inserting elements under their names: the last one wins. -/
theorem get_named {A : Type} (name : A → Str) (l : List A) (m : Map Str A) (n : Str) :
    (l.foldl (fun m a => m.insert (name a) a) m).get? n = (lastNamed name l n).or (m.get? n) := by
  rw [show (fun (m : Map Str A) (a : A) => m.insert (name a) a) = fun m a => m.insert (name a) (id a) from rfl,
    Map.get?_foldl_insert l name id]
  unfold lastNamed
  have : (fun e : A => decide (name e = n)) = fun a => name a == n := by
    funext e
    by_cases h : name e = n <;> simp [h]
  rw [this]
  cases l.reverse.find? fun a => name a == n <;> rfl

section
variable {F G : Type} [F64 F] [DmsArith F] [DecidableEq F] [F64 G] [Close F] (num : Str → F) (numG : Str → G) (upper : Str → Str)

/-- What reading the definitions collects. -/
theorem fold_defs (f : MapFile) (acc : Maps F G) :
    (f.defs.filterMap (defValue (F := F) (G := G) num numG upper)).foldl step acc =
      ⟨acc.maps ++ f.maps num numG upper,
        (f.symbols num Close.close).foldl (fun m a => m.insert a.name a) acc.symbols,
        f.colours.foldl (fun m a => m.insert a.name a) acc.colours,
        (f.lineStyles numG).foldl (fun m a => m.insert a.name a) acc.lineStyles,
        acc.overrides ++ f.overrides⟩ := by
  obtain ⟨lead, l⟩ := f
  simp only [MapFile.maps, MapFile.symbols, MapFile.colours, MapFile.lineStyles, MapFile.overrides]
  induction l generalizing acc with
  | nil => simp
  | cons d l ih =>
    cases d with
    | sctFilePath path f =>
      rw [List.filterMap_cons_none rfl, ih]
      simp
    | _ => simp [defValue, step, ih]

end

end Topsky

section
variable {F : Type} [F64 F] [Close F] (num : Str → F) (hnum : ∀ s, IsDecimal s → F64.ofText s = some (num s))
include hnum

/-- **C63, meaning.** A symbol file whose angles fit is read, and under every name stands the last symbol with this
name, with its drawing rules in the order of the file.  If an angle does not fit, reading panics. -/
theorem C63_topsky_symbols {f : SymbolFile} (h : f.Valid) :
    (f.Fits → ∃ m, parseSymbols f.text = .ok m ∧
      ∀ n, m.get? n = lastNamed SymbolDef.name (f.symbols.map (Symbol.value num Close.close)) n) ∧
    (¬ f.Fits → parseSymbols (F := F) f.text = .error .panic) := by
  rw [parse_symbols num hnum h]
  refine ⟨fun hf => ⟨_, if_pos hf, fun n => ?_⟩, fun hf => if_neg hf⟩
  have := Topsky.get_named SymbolDef.name (f.symbols.map (Symbol.value num Close.close)) [] n
  rw [Map.get?_nil, Option.or_none] at this
  rw [← this, Map.ofList, List.foldl_map, List.foldl_map]
  rfl

/-- **C63, which texts.** A text is read exactly if it is a symbol file whose angles fit; it makes the program panic
exactly if it is one with an angle that does not fit; and every other text is rejected with a parse error. -/
theorem C63_topsky_symbols_accepts (content : Str) :
    ((∃ m, parseSymbols (F := F) content = .ok m) ↔ ∃ f : SymbolFile, f.Valid ∧ f.text = content ∧ f.Fits) ∧
    (parseSymbols (F := F) content = .error .panic ↔ ∃ f : SymbolFile, f.Valid ∧ f.text = content ∧ ¬ f.Fits) ∧
    (parseSymbols (F := F) content = .error .parseError ↔ ¬ ∃ f : SymbolFile, f.Valid ∧ f.text = content) := by
  have fits : ∀ f : SymbolFile, f.Valid → f.text = content → f.Fits → ∃ m, parseSymbols (F := F) content = .ok m := by
    rintro f hv rfl hf
    obtain ⟨m, e, _⟩ := (C63_topsky_symbols num hnum hv).1 hf
    exact ⟨m, e⟩
  have panics : ∀ f : SymbolFile, f.Valid → f.text = content → ¬ f.Fits → parseSymbols (F := F) content = .error .panic := by
    rintro f hv rfl hf
    exact (C63_topsky_symbols num hnum hv).2 hf
  have rejects : (¬ ∃ f : SymbolFile, f.Valid ∧ f.text = content) → parseSymbols (F := F) content = .error .parseError :=
    fun h => symbols_rejected content fun f hv ht => h ⟨f, hv, ht⟩
  refine ⟨⟨fun ⟨m, e⟩ => ?_, fun ⟨f, hv, ht, hf⟩ => fits f hv ht hf⟩, ⟨fun e => ?_, fun ⟨f, hv, ht, hf⟩ => panics f hv ht hf⟩,
    ⟨fun e => ?_, rejects⟩⟩
  · by_cases h : ∃ f : SymbolFile, f.Valid ∧ f.text = content
    · obtain ⟨f, hv, ht⟩ := h
      refine ⟨f, hv, ht, ?_⟩
      by_cases hf : f.Fits
      · exact hf
      · rw [panics f hv ht hf] at e; cases e
    · rw [rejects h] at e; cases e
  · by_cases h : ∃ f : SymbolFile, f.Valid ∧ f.text = content
    · obtain ⟨f, hv, ht⟩ := h
      refine ⟨f, hv, ht, fun hf => ?_⟩
      obtain ⟨m, e'⟩ := fits f hv ht hf
      rw [e'] at e; cases e
    · rw [rejects h] at e; cases e
  · rintro ⟨f, hv, ht⟩
    by_cases hf : f.Fits
    · obtain ⟨m, e'⟩ := fits f hv ht hf
      rw [e'] at e; cases e
    · rw [panics f hv ht hf] at e; cases e

/-- **C63, any text.** Whatever the text is, reading it gives symbols or a parse error, unless a part of it is a
drawing rule with an angle that is no `i64`. -/
theorem C63_topsky_symbols_any_text (content : Str) (h1 : parseSymbols (F := F) content ≠ .error .parseError)
    (h2 : ∀ m, parseSymbols (F := F) content ≠ .ok m) :
    ∃ pre s post, content = pre ++ s ++ post ∧ ∃ d : Spec.Drawing.Drawing, d.IsText s ∧ ¬ d.Fits := by
  rcases symbols_safe num hnum (H := fun s => ∃ d : Spec.Drawing.Drawing, d.IsText s ∧ ¬ d.Fits)
    (fun d s h hf => ⟨d, h, hf⟩) content with h | ⟨m, h⟩ | ⟨s, ⟨pre, post, h⟩, hs⟩
  · exact absurd h h1
  · exact absurd h (h2 m)
  · exact ⟨pre, s, post, h.symm, hs⟩

end

section
variable {F G : Type} [F64 F] [DmsArith F] [DecidableEq F] [F64 G] [Close F] (num : Str → F) (numG : Str → G) (upper : Str → Str)
  (hnum : ∀ s, IsDecimal s → F64.ofText s = some (num s)) (hnumG : ∀ s, IsDecimal s → F64.ofText s = some (numG s))
include hnum hnumG

/-- **C64, meaning.** A map file whose numbers fit is read: the maps and overrides are those of the file in its
order, and under every name stand the last symbol, colour and line style with this name.  If a number does not fit or
a position is written in two ways, reading panics. -/
theorem C64_topsky_maps {f : MapFile} (h : f.Valid) :
    (f.Fits → ∃ m : Maps F G, parseMaps upper f.text = .ok m ∧ m.maps = f.maps num numG upper ∧ m.overrides = f.overrides ∧
      ∀ n, m.symbols.get? n = lastNamed SymbolDef.name (f.symbols num Close.close) n ∧
        m.colours.get? n = lastNamed ColourDef.name f.colours n ∧
        m.lineStyles.get? n = lastNamed LineStyleDef.name (f.lineStyles numG) n) ∧
    (¬ f.Fits → parseMaps (F := F) (G := G) upper f.text = .error .panic) := by
  rw [parse_maps num numG upper hnum hnumG h]
  refine ⟨fun hf => ⟨_, if_pos hf, ?_⟩, fun hf => if_neg hf⟩
  rw [Topsky.fold_defs]
  refine ⟨rfl, rfl, fun n => ⟨?_, ?_, ?_⟩⟩
  all_goals simp only [Topsky.get_named, Map.get?_nil, Option.or_none]

/-- **C64, any text.** Whatever the text is, reading it gives a result or a parse error, unless a part of it is a
colour with a component outside of 0 to 255, a position whose halves are written in two ways or have too many degrees
or minutes, or a drawing rule with an angle that is no `i64`. -/
theorem C64_topsky_maps_any_text (content : Str) (h1 : parseMaps (F := F) (G := G) upper content ≠ .error .parseError)
    (h2 : ∀ m, parseMaps (F := F) (G := G) upper content ≠ .ok m) :
    ∃ pre s post, content = pre ++ s ++ post ∧ Harmful s := by
  rcases maps_safe num numG upper hnum hnumG content with h | ⟨m, h⟩ | ⟨s, ⟨pre, post, h⟩, hs⟩
  · exact absurd h h1
  · exact absurd h (h2 m)
  · exact ⟨pre, s, post, h.symm, hs⟩

end

/-! ## The three files together -/

namespace Topsky

theorem get_extend {V : Type} (m new : Map Str V) (hn : (Map.keys new).Nodup) (n : Str) :
    (extend m new).get? n = (new.get? n).or (m.get? n) := by
  induction new generalizing m with
  | nil => rfl
  | cons e l ih =>
    obtain ⟨k, v⟩ := e
    have hn : (k :: Map.keys l).Nodup := hn
    rw [List.nodup_cons] at hn
    rw [show extend m ((k, v) :: l) = extend (m.insert k v) l from rfl, ih _ hn.2, Map.get?_insert]
    show _ = (if k = n then some v else Map.get? l n).or _
    by_cases h : k = n
    · subst h
      rw [Map.get?_eq_none_iff.2 hn.1, if_pos rfl, if_pos rfl]
      rfl
    · rw [if_neg h, if_neg h]

variable {F G : Type} [F64 F] [DmsArith F] [DecidableEq F] [F64 G] [Close F]

def Distinct (m : Maps F G) : Prop := (Map.keys m.symbols).Nodup ∧ (Map.keys m.colours).Nodup

theorem distinct_fold (l : List (MapDefinition F G)) (acc : Maps F G) (h : Distinct acc) : Distinct (l.foldl step acc) := by
  induction l generalizing acc with
  | nil => exact h
  | cons d l ih =>
    refine ih _ ?_
    cases d with
    | map | lineStyle | override => exact h
    | colour d => exact ⟨h.1, Map.nodup_insert h.2 _ _⟩
    | symbol d => exact ⟨Map.nodup_insert h.1 _ _, h.2⟩

theorem distinct_maps {upper : Str → Str} {content : Str} {m : Maps F G} (h : parseMaps upper content = .ok m) : Distinct m := by
  unfold parseMaps at h
  obtain ⟨ps, _, h⟩ := run_bind_ok_iff.1 h
  obtain ⟨⟨p, rest⟩, _, h⟩ := run_bind_ok_iff.1 h
  obtain ⟨found, _, h⟩ := run_bind_ok_iff.1 h
  cases h
  exact distinct_fold _ _ ⟨List.nodup_nil, List.nodup_nil⟩

end Topsky

section
variable {F G : Type} [F64 F] [DmsArith F] [DecidableEq F] [F64 G] [Close F] (upper : Str → Str)

/-- **C65, required files.** Without a settings file or without a map file there is no result.  Without a symbol file
the result is the same as with one that defines no symbols. -/
theorem C65_topsky_required (settings symbols maps : Option Str) {t : Topsky F G}
    (h : Parse.Topsky.parse upper settings symbols maps = .ok t) :
    (∃ s colours, settings = some s ∧ Parse.TopskySettings.parse s = .ok (colours, t.settings)) ∧
    (∃ s m, maps = some s ∧ parseMaps upper s = .ok m ∧ t.maps = m.maps ∧ t.overrides = m.overrides ∧ t.lineStyles = m.lineStyles) ∧
    (symbols = none ∨ ∃ s m, symbols = some s ∧ parseSymbols (F := F) s = .ok m) := by
  unfold Parse.Topsky.parse at h
  cases settings with
  | none => cases h
  | some s =>
  dsimp only at h
  cases hs : Parse.TopskySettings.parse s with
  | error f => rw [hs] at h; cases h
  | ok cs =>
  obtain ⟨colours, st⟩ := cs
  rw [hs] at h
  dsimp only at h
  cases symbols with
  | none =>
    dsimp only at h
    cases maps with
    | none => cases h
    | some ms =>
    dsimp only at h
    cases hm : parseMaps (F := F) (G := G) upper ms with
    | error f => rw [hm] at h; cases h
    | ok m =>
    rw [hm] at h
    cases h
    exact ⟨⟨s, colours, rfl, hs⟩, ⟨ms, m, rfl, hm, rfl, rfl, rfl⟩, Or.inl rfl⟩
  | some y =>
    dsimp only at h
    cases hy : parseSymbols (F := F) y with
    | error f => rw [hy] at h; cases h
    | ok sy =>
    rw [hy] at h
    dsimp only at h
    cases maps with
    | none => cases h
    | some ms =>
    dsimp only at h
    cases hm : parseMaps (F := F) (G := G) upper ms with
    | error f => rw [hm] at h; cases h
    | ok m =>
    rw [hm] at h
    cases h
    exact ⟨⟨s, colours, rfl, hs⟩, ⟨ms, m, rfl, hm, rfl, rfl, rfl⟩, Or.inr ⟨y, sy, rfl, hy⟩⟩

/-- **C65, precedence.** If all files can be read, the result has the maps, overrides and line styles of the map file
and the settings of the settings file; a symbol of the map file takes precedence over the one with the same name in
the symbol file, and a colour of the map file over the one in the settings file. -/
theorem C65_topsky_precedence {s ms : Str} {symbols : Option Str} {colours : Map Str ColourDef} {settings : Map Str Str}
    {sy : Map Str (SymbolDef F)} {m : Maps F G} (hs : Parse.TopskySettings.parse s = .ok (colours, settings))
    (hy : (symbols = none ∧ sy = []) ∨ ∃ y, symbols = some y ∧ parseSymbols y = .ok sy)
    (hm : parseMaps upper ms = .ok m) :
    ∃ t : Topsky F G, Parse.Topsky.parse upper (some s) symbols (some ms) = .ok t ∧
      t.maps = m.maps ∧ t.overrides = m.overrides ∧ t.lineStyles = m.lineStyles ∧ t.settings = settings ∧
      ∀ n, t.symbols.get? n = (m.symbols.get? n).or (sy.get? n) ∧ t.colours.get? n = (m.colours.get? n).or (colours.get? n) := by
  have hd := Topsky.distinct_maps hm
  refine ⟨⟨extend sy m.symbols, m.maps, extend colours m.colours, settings, m.lineStyles, m.overrides⟩, ?_, rfl, rfl, rfl, rfl, fun n =>
    ⟨Topsky.get_extend _ _ hd.1 n, Topsky.get_extend _ _ hd.2 n⟩⟩
  unfold Parse.Topsky.parse
  rcases hy with ⟨rfl, rfl⟩ | ⟨y, rfl, hy⟩
  · simp only [hs, hm]
  · simp only [hs, hy, hm]

end

section
variable {F G : Type} [F64 F] [DmsArith F] [DecidableEq F] [F64 G] [Close F] (num : Str → F) (numG : Str → G) (upper : Str → Str)
  (hnum : ∀ s, IsDecimal s → F64.ofText s = some (num s)) (hnumG : ∀ s, IsDecimal s → F64.ofText s = some (numG s))
include hnum hnumG

/-- **C65, meaning.** What the texts of the three files say is in the result: the maps in the order of the file, and
for every name the last symbol of the map file, otherwise that of the symbol file, and the last colour of the map
file, otherwise that of the settings file. -/
theorem C65_topsky_meaning {s : Str} {es : List Spec.TopskySettings.Entry} {y : SymbolFile} {f : MapFile}
    (hs : Spec.TopskySettings.IsFile es s) (hy : y.Valid) (hyf : y.Fits) (hf : f.Valid) (hff : f.Fits) :
    ∃ t : Topsky F G, Parse.Topsky.parse upper (some s) (some y.text) (some f.text) = .ok t ∧
      t.maps = f.maps num numG upper ∧ t.overrides = f.overrides ∧
      ∀ n, t.settings.get? n = (es.filterMap (Spec.TopskySettings.valueOf n)).getLast? ∧
        t.lineStyles.get? n = lastNamed LineStyleDef.name (f.lineStyles numG) n ∧
        t.symbols.get? n = (lastNamed SymbolDef.name (f.symbols num Close.close) n).or
          (lastNamed SymbolDef.name (y.symbols.map (Symbol.value num Close.close)) n) ∧
        t.colours.get? n = (lastNamed ColourDef.name f.colours n).or
          (((es.filterMap (Spec.TopskySettings.colourOf n)).getLast?).map fun c => ⟨n, c⟩) := by
  obtain ⟨colours, settings, h1, h2⟩ := C61_topsky_settings hs
  obtain ⟨sy, h3, h4⟩ := (C63_topsky_symbols num hnum hy).1 hyf
  obtain ⟨m, h5, h6, h7, h8⟩ := (C64_topsky_maps num numG upper hnum hnumG hf).1 hff
  obtain ⟨t, e, t1, t2, t3, t4, t5⟩ := C65_topsky_precedence upper h1 (Or.inr ⟨_, rfl, h3⟩) h5
  refine ⟨t, e, t1.trans h6, t2.trans h7, fun n => ⟨?_, ?_, ?_, ?_⟩⟩
  · rw [t4]; exact (h2 n).2
  · rw [t3]; exact (h8 n).2.2
  · rw [(t5 n).1, (h8 n).1, h4]
  · rw [(t5 n).2, (h8 n).2.1, (h2 n).1]

/-- **C65, any texts.** Whatever the three texts are, reading them gives a result, a missing file or a parse error,
unless a part of the symbols or of the maps is one that makes reading that file panic. -/
theorem C65_topsky_any_text (settings symbols maps : Option Str) (f : Fault)
    (h : Parse.Topsky.parse (F := F) (G := G) upper settings symbols maps = .fault f) (hf : f ≠ .parseError) :
    ∃ content pre s post, (symbols = some content ∨ maps = some content) ∧ content = pre ++ s ++ post ∧ Harmful s := by
  unfold Parse.Topsky.parse at h
  cases settings with
  | none => cases h
  | some t =>
  dsimp only at h
  cases hs : Parse.TopskySettings.parse t with
  | error g =>
    rw [hs] at h
    cases h
    rcases C61_topsky_settings_total t with e | ⟨v, e⟩
    · rw [e] at hs; cases hs; exact absurd rfl hf
    · rw [e] at hs; cases hs
  | ok p =>
  obtain ⟨colours, settings⟩ := p
  rw [hs] at h
  dsimp only at h
  cases symbols with
  | none =>
    dsimp only at h
    cases maps with
    | none => cases h
    | some c =>
    dsimp only at h
    cases hm : parseMaps (F := F) (G := G) upper c with
    | ok m => rw [hm] at h; cases h
    | error g =>
      rw [hm] at h
      cases h
      obtain ⟨pre, s, post, e, hh⟩ := C64_topsky_maps_any_text num numG upper hnum hnumG c
        (by rw [hm]; rintro ⟨⟩; exact hf rfl) (by rw [hm]; rintro m ⟨⟩)
      exact ⟨c, pre, s, post, Or.inr rfl, e, hh⟩
  | some y =>
    dsimp only at h
    cases hy : parseSymbols (F := F) y with
    | error g =>
      rw [hy] at h
      cases h
      obtain ⟨pre, s, post, e, d, hd, hh⟩ := C63_topsky_symbols_any_text num hnum y
        (by rw [hy]; rintro ⟨⟩; exact hf rfl) (by rw [hy]; rintro m ⟨⟩)
      exact ⟨y, pre, s, post, Or.inl rfl, e, .angle d s hd hh⟩
    | ok sy =>
      rw [hy] at h
      dsimp only at h
      cases maps with
      | none => cases h
      | some c =>
      dsimp only at h
      cases hm : parseMaps (F := F) (G := G) upper c with
      | ok m => rw [hm] at h; cases h
      | error g =>
        rw [hm] at h
        cases h
        obtain ⟨pre, s, post, e, hh⟩ := C64_topsky_maps_any_text num numG upper hnum hnumG c
          (by rw [hm]; rintro ⟨⟩; exact hf rfl) (by rw [hm]; rintro m ⟨⟩)
        exact ⟨c, pre, s, post, Or.inr rfl, e, hh⟩

end

/-! ## Examples -/

namespace Topsky
open Verif.Spec.Drawing (Drawing)

theorem digit_of_decimal {s : Str} (h : IsDecimal s) : ∃ c ∈ s, isAsciiDigit c = true := by
  obtain ⟨sg, ds, fs, rfl, _, h1, ⟨_, h2⟩ | ⟨d, rfl, h2⟩⟩ := h
  · obtain ⟨c, t, rfl⟩ := List.exists_cons_of_ne_nil h2
    exact ⟨c, by simp, h1 c (by simp)⟩
  · obtain ⟨c, t, rfl⟩ := List.exists_cons_of_ne_nil h2.1
    exact ⟨c, by simp, h2.2 c (by simp)⟩

/-- A name without digits is not read as degrees. -/
theorem fix_valid {name : Str} (h : IsName name) (hd : ∀ c ∈ name, isAsciiDigit c = false) : Location.Valid (.fix name) := by
  refine ⟨h, ?_⟩
  rintro (s | d) hp rfl
  · obtain ⟨c, hc, h1⟩ := digit_of_decimal hp
    rw [hd c hc] at h1; cases h1
  · obtain ⟨c, hc, h1⟩ := digit_of_decimal hp.2.1.isDecimal
    have : c ∈ d.text := by
      unfold Spec.Ese.DmsText.text
      simp [hc]
    rw [hd c this] at h1; cases h1

theorem line_end : AreLines c!"\n" := .line [] [] '\n' [] (by decide) (Or.inl rfl) (by decide) .nil
theorem remark_end : AreLines c!" ; strong\n\n" :=
  .line c!" " c!"; strong" '\n' _ (by decide) (Or.inr ⟨c!";", by decide, c!" strong", rfl, by decide⟩) (by decide) line_end
theorem name_end (r : Str) : NameEnds c!"\n" r := Or.inl ⟨[], '\n', [], rfl, by decide, by decide, .nil⟩
theorem ends_nl (r : Str) : Ends c!"\n" r := Or.inl ⟨line_end, by decide⟩

theorem as_name {text : Str} (h : NoTrail text) (r : Str) : EndsAs true text c!"\n" r :=
  ⟨fun _ => ⟨h, name_end r⟩, fun h => by cases h⟩
theorem as_plain (text r : Str) : EndsAs false text c!"\n" r := ⟨(fun h => by cases h), fun _ => ends_nl r⟩

/-- A drawing rule that moves the pen. -/
def pen : Drawing := .move c!"1" c!"-2.5"
def penText : Str := c!"MOVETO:1 -2.5"
theorem pen_text : pen.IsText penText := by
  refine ⟨⟨fun n hn => ?_, by decide⟩, c!":1 -2.5", ?_, by decide⟩
  · have : n ∈ [c!"1", c!"-2.5"] := hn
    simp only [List.mem_cons, List.not_mem_nil, or_false] at this
    rcases this with rfl | rfl <;> exact isDecimal_of_check (by decide)
  · exact .cons ':' c!"1" _ _ (Or.inl rfl) (.cons ' ' c!"-2.5" [] [] (Or.inr rfl) .nil)

/-- A filled arc; the end angle is `a`. -/
def arc (a : Str) : Drawing := .filledArc c!"0" c!"0" c!"3" c!"0" a
theorem arc_text {a : Str} (ha : IsInteger a) : (arc a).IsText (c!"FILLARC:0:0:3:0:" ++ a) := by
  refine ⟨⟨fun n hn => ?_, fun n hn => ?_⟩, c!":0:0:3:0:" ++ a, ?_, by simp [arc, Drawing.keyword]⟩
  · have : n ∈ [c!"0", c!"0", c!"3"] := hn
    simp only [List.mem_cons, List.not_mem_nil, or_false] at this
    rcases this with rfl | rfl | rfl <;> exact isDecimal_of_check (by decide)
  · have : n ∈ [c!"0", a] := hn
    simp only [List.mem_cons, List.not_mem_nil, or_false] at this
    rcases this with rfl | rfl
    · decide
    · exact ha
  · have := Spec.Drawing.IsArgs.cons ':' c!"0" _ _ (Or.inl rfl) (.cons ':' c!"0" _ _ (Or.inl rfl) (.cons ':' c!"3" _ _ (Or.inl rfl)
      (.cons ':' c!"0" _ _ (Or.inl rfl) (.cons ':' a [] [] (Or.inl rfl) .nil))))
    simpa [arc, Drawing.lengths, Drawing.angles] using this

/-- A symbol with the two rules. -/
def sign (name a : Str) : Symbol := ⟨name, c!"\n", [(pen, penText, c!"\n"), (arc a, c!"FILLARC:0:0:3:0:" ++ a, c!"\n")]⟩

theorem sign_valid {name a : Str} (hn : IsName name) (ht : NoTrail name) (ha : IsInteger a) (r : Str) : (sign name a).Valid r :=
  ⟨hn, ht, Or.inl (name_end _), by simp [sign], ⟨pen_text, Or.inl line_end⟩, ⟨arc_text ha, Or.inl line_end⟩, trivial⟩

/-- A symbol file in which one name is used twice. -/
def symbolSample (a : Str) : SymbolFile := ⟨c!" ; strong\n\n", [sign c!"VOR" c!"90", sign c!"My NDB" c!"720", sign c!"VOR" a]⟩

theorem symbolSample_valid {a : Str} (ha : IsInteger a) : (symbolSample a).Valid :=
  ⟨remark_end, by simp [symbolSample], sign_valid (by decide) (by decide) (by decide) _, sign_valid (by decide) (by decide) (by decide) _,
    sign_valid (by decide) (by decide) ha _, trivial⟩

example : (symbolSample c!"-30").Valid ∧ (symbolSample c!"-30").Fits ∧ (symbolSample c!"-30").text =
    c!" ; strong\n\nSYMBOL:VOR\nMOVETO:1 -2.5\nFILLARC:0:0:3:0:90\nSYMBOL:My NDB\nMOVETO:1 -2.5\nFILLARC:0:0:3:0:720\nSYMBOL:VOR\nMOVETO:1 -2.5\nFILLARC:0:0:3:0:-30\n" :=
  ⟨symbolSample_valid (by decide), by decide, by decide +kernel⟩

/-- The second definition of `VOR` counts. -/
example : lastNamed SymbolDef.name ((symbolSample c!"-30").symbols.map (Symbol.value (F := Str) id fun a b => a == b)) c!"VOR" =
    some ⟨c!"VOR", [.move (c!"1", c!"-2.5"), .filledArc (c!"0", c!"0") c!"3" 0 (-30)]⟩ := by decide

/-- An angle that is too large. -/
example : (symbolSample c!"9223372036854775808").Valid ∧ ¬ (symbolSample c!"9223372036854775808").Fits :=
  ⟨symbolSample_valid (by decide), by decide⟩

/-- If a text can be read as a symbol file whose angles fit, then it can only be read so. -/
theorem fits_of_fits {f f' : SymbolFile} (h : f.Valid) (hf : f.Fits) (h' : f'.Valid) (e : f'.text = f.text) : f'.Fits := by
  letI : F64 Str := ⟨some, fun _ _ => rfl⟩
  letI : Close Str := ⟨fun a b => a == b⟩
  refine Classical.byContradiction fun hn => ?_
  obtain ⟨m, h1, _⟩ := (C63_topsky_symbols (F := Str) id (fun _ _ => rfl) h).1 hf
  have h2 := (C63_topsky_symbols (F := Str) id (fun _ _ => rfl) h').2 hn
  rw [e, h1] at h2
  cases h2

/-- A symbol without a name whose first line ends with a comment, two rules in one line, and a last comment without a line end. -/
def oddSample : SymbolFile :=
  ⟨[], [⟨[], c!" // none\n", [(pen, penText, []), (arc c!"5", c!"FILLARC:0:0:3:0:" ++ c!"5", c!"\n ; end")]⟩]⟩

theorem oddSample_valid : oddSample.Valid := by
  refine ⟨.nil, by simp [oddSample], ⟨⟨by decide, by decide⟩, by decide, Or.inr ⟨rfl, ?_, by simp⟩, by simp, ⟨pen_text, Or.inl .nil⟩, ⟨arc_text (by decide),
    Or.inr ⟨rfl, c!"\n", c!" ; end", rfl, line_end, c!" ", c!"; end", rfl, by decide, Or.inr ⟨c!";", by decide, c!" end", rfl, by decide⟩, by simp⟩⟩, trivial⟩,
    trivial⟩
  exact .line c!" " c!"// none" '\n' [] (by decide) (Or.inr ⟨c!"//", by decide, c!" none", rfl, by decide⟩) (by decide) .nil

example : oddSample.Valid ∧ oddSample.Fits ∧ oddSample.text = c!"SYMBOL: // none\nMOVETO:1 -2.5FILLARC:0:0:3:0:5\n ; end" :=
  ⟨oddSample_valid, by decide, by decide +kernel⟩

/-- No symbol file has this text, as there are no drawing rules. -/
example : ¬ ∃ f : SymbolFile, f.Valid ∧ f.text = c!"SYMBOL:" := by
  rintro ⟨⟨lead, ss⟩, ⟨h1, h2, h3⟩, e⟩
  have e : lead ++ ss.flatMap (fun s : Symbol => c!"SYMBOL:" ++ s.text) = c!"SYMBOL:" := e
  have hl : lead = [] := by
    cases h1 with
    | nil => rfl
    | line sp rem c t a1 a2 a3 _ =>
      exfalso
      cases sp with
      | cons x sp =>
        have := a1 x List.mem_cons_self
        rw [(List.cons.inj e).1] at this
        revert this; decide
      | nil =>
        rcases a2 with rfl | ⟨w, hw, t', rfl, _⟩
        · rw [(List.cons.inj e).1] at a3
          revert a3; decide
        · simp only [marks, List.mem_cons, List.not_mem_nil, or_false] at hw
          rcases hw with rfl | rfl
          · cases (List.cons.inj e).1
          · cases (List.cons.inj e).1
  subst hl
  cases ss with
  | nil => cases e
  | cons s ss =>
    obtain ⟨⟨_, _, _, h4, h5⟩, _⟩ := h3
    cases hr : s.rules with
    | nil => exact h4 hr
    | cons x xs =>
      rw [hr] at h5
      obtain ⟨⟨⟨_, a, _, ha⟩, _⟩, _⟩ := h5
      have e : s.text ++ ss.flatMap (fun s : Symbol => c!"SYMBOL:" ++ s.text) = [] := List.append_cancel_left (as := c!"SYMBOL:") (by simpa using e)
      have hlen := congrArg List.length e
      simp only [Symbol.text, hr, List.flatMap_cons, ha] at hlen
      have hk : 0 < x.1.keyword.length := by cases x.1 <;> simp [Drawing.keyword]
      simp only [List.length_append, List.length_nil] at hlen
      omega

/-- Positions in a map. -/
def north : Spec.Ese.DmsText := ⟨'N', c!"048", c!"21", c!"14.000"⟩
def east : Spec.Ese.DmsText := ⟨'E', c!"011", c!"47", c!"10.500"⟩
theorem north_valid : north.Valid := ⟨by decide, by decide, by decide, isDecimal_of_check (by decide)⟩
theorem east_valid : east.Valid := ⟨by decide, by decide, by decide, isDecimal_of_check (by decide)⟩

/-- A map with the second half of a position as given. -/
def mapSample (lng : Part) : MapFile :=
  ⟨c!" ; strong\n\n", [
    .colour c!"Runway" c!"255" c!"0" c!"+7" c!" ; strong\n\n",
    .override c!"SIDs" (some c!"RWY 26") c!"\n",
    .map c!"EDDM" c!"\n" [
      ⟨[], .setting (.folder c!"Ground") c!"\n"⟩,
      ⟨c!"  ", .setting (.active (.id (some [c!"MTWR", c!"MTN"]) none none none)) c!" ; strong\n\n"⟩,
      ⟨[], .lines [(.named c!"ABC" c!"DEF", c!"\n"), (.named c!"DEF" c!"GHI", c!"\n")]⟩,
      ⟨[], .setting (.style c!"Dotted" (some c!"2")) c!"\n"⟩,
      ⟨[], .setting (.caption none (.coordinate (.dms north) lng) c!"Terminal 2") c!"\n"⟩,
      ⟨[], .override c!"STARs" none c!"\n"⟩],
    .symbol (sign c!"VOR" c!"45"),
    .lineStyle c!"Dotted" c!"255" c!"-" [c!"1", c!"5"] c!"\n",
    .colour c!"Runway" c!"1" c!"2" c!"3" c!"\n"]⟩

theorem mapSample_valid {lng : Part} (h : lng.Valid) : (mapSample lng).Valid := by
  refine ⟨remark_end, by simp [mapSample], ⟨by decide, by decide, by decide, by decide, Or.inl ⟨remark_end, by decide⟩⟩,
    ⟨⟨by decide, by decide⟩, as_name (by decide) _⟩, ⟨by decide, by decide, Or.inl (name_end _), by simp, ?_, by decide⟩,
    sign_valid (by decide) (by decide) (by decide) _,
    ⟨by decide, by decide, by decide, by decide, as_plain _ _⟩,
    ⟨by decide, by decide, by decide, by decide, ends_nl _⟩, trivial⟩
  refine ⟨⟨by decide, (by decide : IsName _), as_name (by decide) _⟩,
    ⟨by decide, ⟨by decide, by decide, by decide, by decide⟩, ⟨(fun h => by cases h), fun _ => Or.inl ⟨remark_end, by decide⟩⟩⟩,
    ⟨by decide, by simp, ?_, ⟨⟨fix_valid (by decide) (by decide), fix_valid (by decide) (by decide)⟩, as_name (by decide) _⟩,
      ⟨⟨fix_valid (by decide) (by decide), fix_valid (by decide) (by decide)⟩, as_name (by decide) _⟩, trivial⟩,
    ⟨by decide, ⟨by decide, fun w hw => by cases hw; decide⟩, as_plain _ _⟩,
    ⟨(by decide : AreBlanks []), ⟨(fun a h => by cases h), ⟨north_valid, h⟩, by decide, by decide, ?_, by decide, by decide⟩, as_plain _ _⟩,
    ⟨by decide, (by decide : IsPath _), as_name (by decide) _⟩, trivial⟩
  · rintro ⟨t, ht⟩
    cases ht
  · decide

example : (mapSample (.dms east)).Valid ∧ (mapSample (.dms east)).Fits ∧ (mapSample (.dms east)).text =
    c!" ; strong\n\nCOLORDEF:Runway:255:0:+7 ; strong\n\nOVERRIDE_SCT_MAP:SIDs\\RWY 26\nMAP:EDDM\nFOLDER:Ground\n  ACTIVE:ID:MTWR,MTN:*:*:* ; strong\n\nLINE:ABC:DEF\nLINE:DEF:GHI\nSTYLE:Dotted:2\nTEXT:N048.21.14.000:E011.47.10.500:Terminal 2\nOVERRIDE_SCT_MAP:STARs\nSYMBOLDEF:VOR\nMOVETO:1 -2.5\nFILLARC:0:0:3:0:45\nLINESTYLEDEF:Dotted:255:-:1,5\nCOLORDEF:Runway:1:2:3\n" :=
  ⟨mapSample_valid east_valid, by decide, by decide +kernel⟩

local instance topskyTextDms : DmsArith Str := ⟨fun d => d.sec⟩

/-- What the map stands for: the override inside the map and the condition's line end have no effect, the two lines
are joined. -/
example : (mapSample (.dms east)).maps (F := Str) (G := Str) id id id =
    [⟨c!"EDDM", [.folder c!"Ground", .active (.id ⟨some [c!"MTWR", c!"MTN"], none, none, none⟩),
      .line [[.fix c!"ABC", .fix c!"DEF", .fix c!"GHI"]], .lineStyle ⟨2, c!"Dotted"⟩,
      .text ⟨.coordinate { x := c!"10.500", y := c!"14.000" }, c!"Terminal 2"⟩]⟩] ∧
    (mapSample (.dms east)).overrides = [⟨c!"SIDs", some c!"RWY 26"⟩] ∧
    lastNamed ColourDef.name (mapSample (.dms east)).colours c!"Runway" = some ⟨c!"Runway", ⟨1, 2, 3, 255⟩⟩ ∧
    lastNamed LineStyleDef.name ((mapSample (.dms east)).lineStyles id) c!"Dotted" =
      some ⟨c!"Dotted", c!"255", c!"-", [c!"1", c!"5"]⟩ := by
  refine ⟨by decide +kernel, by decide, by decide, by decide⟩

/-- The same map with the longitude as a decimal number makes the program panic. -/
example : (mapSample (.decimal c!"11.5")).Valid ∧ ¬ (mapSample (.decimal c!"11.5")).Fits :=
  ⟨mapSample_valid (isDecimal_of_check (by decide) : IsDecimal c!"11.5"), by decide⟩

/-- Harmful parts of a map file. -/
example : Harmful c!"COLORDEF:Runway:0:256:0" ∧ Harmful c!"48.5:E011.47.10.500" ∧ Harmful c!"FILLARC:0:0:3:0:9223372036854775808" :=
  ⟨.colour c!"Runway" c!"0" c!"256" c!"0" (by decide) (by decide) (by decide) (by decide) (by decide),
    .position (.decimal c!"48.5") (.dms east) (isDecimal_of_check (by decide) : IsDecimal c!"48.5") east_valid (by decide),
    .angle (arc c!"9223372036854775808") _ (arc_text (by decide)) (by decide)⟩

end Topsky

end Verif.Props
