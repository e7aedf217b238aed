import Verif.Proofs.SymbologyAccepts
import Verif.Props.Ese
import Verif.Base.NumDec
/-!
# C62: symbology files

`Spec/Symbology.lean` and `Spec/SymbolRule.lean` say what a file looks like and what its lines mean, without
reference to the grammar or the parser.
-/

namespace Verif.Props
open Verif.Spec Verif.Spec.Symbology Verif.Parse.Symbology Verif.Proofs.Symbology
open Verif.Spec.Drawing (Drawing IsArgs)
open Verif.Parse.SymbolRule (Close)
open Verif.Settings (SymbolType Symbol SymbolRule)

namespace Symbology
variable {F G : Type} (num : Str → F) (numG : Str → G)

theorem items_symbols [F64 F] [Close F] (l : List SymbolDef) (acc : Symbology F G) : (l.foldl (addSymbol num) acc).items = acc.items := by
  induction l generalizing acc with
  | nil => rfl
  | cons s l ih =>
    rw [List.foldl_cons, ih]
    unfold addSymbol
    cases s.type <;> rfl

theorem symbols_items [F64 G] (l : List ItemLine) (acc : Symbology F G) : (l.foldl (addItem numG) acc).symbols = acc.symbols := by
  induction l generalizing acc with
  | nil => rfl
  | cons s l ih =>
    rw [List.foldl_cons, ih]
    unfold addItem
    cases s.value numG <;> rfl

theorem get_items [F64 G] (folder name : Str) (l : List ItemLine) (acc : Symbology F G) :
    (l.foldl (addItem numG) acc).items.get? (folder, name) =
      ((l.filterMap fun i => if i.folder = folder ∧ i.name = name then i.value numG else none).getLast?).or
        (acc.items.get? (folder, name)) := by
  induction l generalizing acc with
  | nil => simp
  | cons i l ih =>
    rw [List.foldl_cons, ih, List.filterMap_cons]
    have hv : ∀ v, i.value numG = some v → v.folder = i.folder ∧ v.name = i.name := by
      intro v hv
      unfold ItemLine.value at hv
      cases hc : colourOf (intValue i.colour) with
      | none => rw [hc] at hv; cases hv
      | some c => rw [hc] at hv; cases hv; exact ⟨rfl, rfl⟩
    unfold addItem
    cases he : i.value numG with
    | none => simp
    | some v =>
      obtain ⟨e1, e2⟩ := hv v he
      simp only [Map.get?_insert, e1, e2, Prod.mk.injEq]
      by_cases hk : i.folder = folder ∧ i.name = name
      · rw [if_pos hk, if_pos hk]
        simp only [List.getLast?_cons]
        cases (l.filterMap fun i => if i.folder = folder ∧ i.name = name then i.value numG else none).getLast? <;> rfl
      · rw [if_neg hk, if_neg hk]

theorem get_symbols [F64 F] [Close F] (t : SymbolType) (l : List SymbolDef) (acc : Symbology F G) :
    (l.foldl (addSymbol num) acc).symbols.get? t =
      ((l.filterMap fun s => if s.type = some t then some (s.value num Close.close) else none).getLast?).or
        (acc.symbols.get? t) := by
  induction l generalizing acc with
  | nil => simp
  | cons s l ih =>
    rw [List.foldl_cons, ih, List.filterMap_cons]
    unfold addSymbol
    cases he : s.type with
    | none => simp
    | some ty =>
      simp only [Map.get?_insert, Option.some.injEq]
      by_cases hk : ty = t
      · rw [if_pos hk, if_pos hk]
        simp only [List.getLast?_cons]
        cases (l.filterMap fun s => if s.type = some t then some (s.value num Close.close) else none).getLast? <;> rfl
      · rw [if_neg hk, if_neg hk]

end Symbology

variable {F G : Type} [F64 F] [F64 G] [Close F] (num : Str → F) (numG : Str → G)
  (hnum : ∀ s, IsDecimal s → F64.ofText s = some (num s)) (hnumG : ∀ s, IsDecimal s → F64.ofText s = some (numG s))

include hnum hnumG

/-- **C62, meaning.** A symbology file whose numbers fit their types is read.  Under a folder and a name stands the
last item with this folder and name that has a colour, and under a type stands the last symbol with the number of
that type; nothing else is in the tables. -/
theorem C62_symbology {f : File} {content : Str} (h : f.IsText content) (hf : f.Fits) :
    ∃ m : Symbology F G, parse content = .ok m ∧
      (∀ folder name, m.items.get? (folder, name) = (f.itemsNamed numG folder name).getLast?) ∧
      (∀ t, m.symbols.get? t = (f.symbolsOf num Close.close t).getLast?) := by
  refine ⟨tables num numG f, ?_, fun folder name => ?_, fun t => ?_⟩
  · rw [parse_file num numG hnum hnumG h.1 h.2]
    exact Proofs.gated_true hf
  · unfold tables
    rw [Symbology.items_symbols, Symbology.get_items]
    simp only [Map.get?_nil, Option.or_none, List.filterMap_map]
    rfl
  · unfold tables
    rw [Symbology.get_symbols, Symbology.symbols_items]
    simp only [Map.get?_nil, Option.or_none]
    rfl

/-- **C62, a defect.** If a number of the file does not fit its type, then reading it panics. -/
theorem C62_symbology_panics {f : File} {content : Str} (h : f.IsText content) (hf : ¬ f.Fits) :
    parse (F := F) (G := G) content = .error .panic := by
  rw [parse_file num numG hnum hnumG h.1 h.2]
  exact if_neg hf

/-- **C62, which texts.** A text is read exactly if it is a symbology file, with any blanks between its parts, whose
numbers fit their types; it makes the program panic exactly if it is one with a number that does not fit; and every
other text is rejected with a parse error. -/
theorem C62_symbology_accepts (content : Str) :
    ((∃ m, parse (F := F) (G := G) content = .ok m) ↔ ∃ f : File, f.IsText content ∧ f.Fits) ∧
    (parse (F := F) (G := G) content = .error .panic ↔ ∃ f : File, f.IsText content ∧ ¬ f.Fits) ∧
    (parse (F := F) (G := G) content = .error .parseError ↔ ¬ ∃ f : File, f.IsText content) := by
  by_cases h : ∃ f : File, f.IsText content
  · obtain ⟨f, hf⟩ := h
    have e := parse_file num numG hnum hnumG hf.1 hf.2
    by_cases ht : f.Fits
    · have e' : parse content = .ok (tables num numG f) := e.trans (Proofs.gated_true ht)
      refine ⟨⟨fun _ => ⟨f, hf, ht⟩, fun _ => ⟨_, e'⟩⟩, ⟨fun h => ?_, fun ⟨f', h', n'⟩ => ?_⟩, ⟨fun h => ?_, fun h => absurd ⟨f, hf⟩ h⟩⟩
      · rw [e'] at h; cases h
      · exact C62_symbology_panics num numG hnum hnumG h' n'
      · rw [e'] at h; cases h
    · have e' : parse (F := F) (G := G) content = .error .panic := e.trans (if_neg ht)
      refine ⟨⟨fun ⟨m, h⟩ => ?_, fun ⟨f', h', n'⟩ => ?_⟩, ⟨fun _ => ⟨f, hf, ht⟩, fun _ => e'⟩, ⟨fun h => ?_, fun h => absurd ⟨f, hf⟩ h⟩⟩
      · rw [e'] at h; cases h
      · obtain ⟨m, hm, _⟩ := C62_symbology num numG hnum hnumG h' n'
        exact ⟨m, hm⟩
      · rw [e'] at h; cases h
  · have e := rejected_unless (F := F) (G := G) content fun f hf => h ⟨f, hf⟩
    refine ⟨⟨fun ⟨m, hm⟩ => ?_, fun ⟨f, hf, _⟩ => absurd ⟨f, hf⟩ h⟩, ⟨fun hm => ?_, fun ⟨f, hf, _⟩ => absurd ⟨f, hf⟩ h⟩, ⟨fun _ => h, fun _ => e⟩⟩
    · rw [e] at hm; cases hm
    · rw [e] at hm; cases hm

/-- **C62, any text.** Whatever the text is, reading it gives a result or a parse error, unless a part of it is a
number between colons that is no `i32`, a symbol number that is no `u32`, or a drawing rule with an angle that is no
`i64`. -/
theorem C62_symbology_any_text (content : Str) (h1 : parse (F := F) (G := G) content ≠ .error .parseError)
    (h2 : ∀ m, parse (F := F) (G := G) content ≠ .ok m) :
    ∃ pre s post, content = pre ++ s ++ post ∧ Harmful s := by
  rcases parse_safe num numG hnum hnumG content with h | ⟨m, h⟩ | ⟨s, ⟨pre, post, h⟩, hs⟩
  · exact absurd h h1
  · exact absurd h (h2 m)
  · exact ⟨pre, s, post, h.symm, hs⟩

omit hnum hnumG

/-! ## The hypotheses can be met -/

namespace Symbology

local instance symbologyTextF64 : F64 Str := ⟨some, fun _ _ => rfl⟩
local instance symbologyTextClose : Close Str := ⟨fun a b => a == b⟩

def line1 : ItemLine := ⟨c!"Airports", c!"symbol", c!"16777215", c!"3.5", (c!"0", c!"SOLID"), c!"1", (c!"7", ⟨.center, .center⟩)⟩
def line2 : ItemLine := ⟨c!"Airports", c!"symbol", c!"255", c!"4", (c!"2", c!"DOT"), c!"-1", (c!"14", ⟨.right, .bottom⟩)⟩
def line3 : ItemLine := ⟨c!"Airports", c!"symbol", c!"-1", c!"4", (c!"2", c!"DOT"), c!"1", (c!"0", ⟨.left, .top⟩)⟩

def arc : Drawing := .arc c!"0" c!"-1.5" c!"3" c!"90" c!"450"
def big : Drawing := .arc c!"0" c!"0" c!"3" c!"0" c!"9223372036854775808"

def sample (d : Drawing) (s : Str) : File :=
  ⟨c!" \n", c!"\n", c!"\r\n", [(line1, c!"\n"), (line2, c!"\n \n"), (line3, c!"\n")],
   [⟨c!"0", c!"\n", [⟨.move c!"1" c!"2", c!"MOVETO 1 2", c!"\n"⟩, ⟨d, s, c!"\n"⟩]⟩, ⟨c!"99", c!"\n", [⟨.pixel c!"0" c!"0", c!"SETPIXEL:0:0", c!"\n"⟩]⟩],
   c!"5", c!"\n", c!"\n"⟩

theorem brk1 : IsBreak c!"\n" := ⟨'\n', [], rfl, Or.inl rfl, .nil⟩
theorem brk2 : IsBreak c!"\r\n" := ⟨'\r', c!"\n", rfl, Or.inr rfl, .newline _ _ (Or.inl rfl) .nil⟩
theorem brk3 : IsBreak c!"\n \n" := ⟨'\n', c!" \n", rfl, Or.inl rfl, .blank _ _ (Or.inl rfl) (.newline _ _ (Or.inl rfl) .nil)⟩

theorem decimals {l : List Str} (h : l.all checkDecimal = true) : ∀ n ∈ l, IsDecimal n := fun n hn =>
  isDecimal_of_check (List.all_eq_true.1 h n hn)

theorem args (l : List (Char × Str)) (h : ∀ e ∈ l, e.1 = ':' ∨ e.1 = ' ') : IsArgs (l.map (·.2)) (l.flatMap fun e => e.1 :: e.2) := by
  induction l with
  | nil => exact .nil
  | cons e l ih => exact .cons e.1 e.2 _ _ (h e List.mem_cons_self) (ih fun x hx => h x (List.mem_cons_of_mem _ hx))

theorem field {s : Str} (h1 : (∀ c ∈ s, c ≠ ':' ∧ ¬ IsNewline c)) (h2 : ∀ c ∈ s.head?, ¬ IsBlankChar c) : IsField s := ⟨h1, fun c hc => h2 c hc⟩

theorem flatten_flatMap' {A : Type} (g : A → List Str) (l : List A) : (l.flatMap g).flatten = l.flatMap fun a => (g a).flatten := by
  induction l with
  | nil => rfl
  | cons a l ih => simp [ih]

theorem text_spaced (f : File) : Spaced f.tokens f.text := by
  have h := Verif.Peg.spaced_flatten f.tokens
  have e1 : (fun i : ItemLine × Str => (i.1.tokens ++ [i.2]).flatten) = fun i => i.1.text ++ i.2 := by
    funext i; simp [ItemLine.tokens, ItemLine.text]
  have e1 : (fun i : ItemLine × Str => i.1.tokens.flatten ++ i.2) = fun i => i.1.text ++ i.2 := by
    rw [← e1]; funext i; simp
  have e2 : (fun d : DrawingLine => d.tokens.flatten) = DrawingLine.text := by
    funext d; simp [DrawingLine.tokens, DrawingLine.text]
  have e3 : (fun s : SymbolDef => s.tokens.flatten) = SymbolDef.text := by
    funext s; simp [SymbolDef.tokens, SymbolDef.text, flatten_flatMap', e2]
  have e : f.tokens.flatten = f.text := by
    simp only [File.tokens, File.text, List.flatten_append, flatten_flatMap', e3]
    simp [e1]
  rwa [e] at h

theorem spaced_of (l : List (Str × Str)) (h : ∀ e ∈ l, ∀ c ∈ e.2, IsBlankChar c) : Spaced (l.map (·.1)) (l.flatMap fun e => e.1 ++ e.2) := by
  induction l with
  | nil => exact .nil
  | cons e l ih =>
    have := Spaced.cons e.1 e.2 _ _ (h e List.mem_cons_self) (ih fun x hx => h x (List.mem_cons_of_mem _ hx))
    simpa using this

theorem sample_valid {d : Drawing} {s : Str} (h : d.IsText s) : (sample d s).Valid := by
  refine ⟨.blank _ _ (Or.inl rfl) (.newline _ _ (Or.inl rfl) .nil), brk1, brk2, by simp [sample], ?_, by simp [sample], ?_,
    (by decide : IsInteger c!"5"), brk1, Or.inr brk1⟩
  · intro i hi
    simp only [sample, List.mem_cons, List.not_mem_nil, or_false] at hi
    rcases hi with rfl | rfl | rfl
    · exact ⟨⟨field (by decide) (by decide), field (by decide) (by decide), by decide, isDecimal_of_check (by decide), by decide, by decide, by decide⟩, brk1⟩
    · exact ⟨⟨field (by decide) (by decide), field (by decide) (by decide), by decide, isDecimal_of_check (by decide), by decide, by decide, by decide⟩, brk3⟩
    · exact ⟨⟨field (by decide) (by decide), field (by decide) (by decide), by decide, isDecimal_of_check (by decide), by decide, by decide, by decide⟩, brk1⟩
  · intro i hi
    simp only [sample, List.mem_cons, List.not_mem_nil, or_false] at hi
    rcases hi with rfl | rfl
    · refine ⟨(by decide : IsInteger c!"0"), brk1, by simp, ?_⟩
      intro e he
      simp only [List.mem_cons, List.not_mem_nil, or_false] at he
      rcases he with rfl | rfl
      · exact ⟨⟨⟨decimals (by decide), by decide⟩, _, args [(' ', c!"1"), (' ', c!"2")] (by decide), rfl⟩, Or.inr brk1⟩
      · exact ⟨h, Or.inr brk1⟩
    · refine ⟨by decide, brk1, by simp, ?_⟩
      intro e he
      simp only [List.mem_cons, List.not_mem_nil, or_false] at he
      subst he
      exact ⟨⟨⟨decimals (by decide), by decide⟩, _, args [(':', c!"0"), (':', c!"0")] (by decide), rfl⟩, Or.inr brk1⟩

theorem arc_text : arc.IsText c!"ARC 0 -1.5:3 90 450" :=
  ⟨⟨decimals (by decide), by decide⟩, _, args [(' ', c!"0"), (' ', c!"-1.5"), (':', c!"3"), (' ', c!"90"), (' ', c!"450")] (by decide), rfl⟩

theorem big_text : big.IsText c!"ARC 0 0 3 0 9223372036854775808" :=
  ⟨⟨decimals (by decide), by decide⟩, _, args [(' ', c!"0"), (' ', c!"0"), (' ', c!"3"), (' ', c!"0"), (' ', c!"9223372036854775808")] (by decide), rfl⟩

/-- Whether the numbers fit depends on the text alone. -/
theorem fits_of_fits {f f' : File} {content : Str} (h : f.IsText content) (hf : f.Fits) (h' : f'.IsText content) : f'.Fits := by
  by_cases hn : f'.Fits
  · exact hn
  · obtain ⟨m, hm, _⟩ := C62_symbology (F := Str) (G := Str) id id (fun _ _ => rfl) (fun _ _ => rfl) h hf
    have := C62_symbology_panics (F := Str) (G := Str) id id (fun _ _ => rfl) (fun _ _ => rfl) h' hn
    rw [hm] at this
    cases this

/-- A file that is read: the second item replaces the first, the third has no colour, the second symbol has no type. -/
example : ∃ f : File, f.IsText f.text ∧ f.Fits ∧
    f.text = c!" \nSYMBOLOGY\nSYMBOLSIZE\r\nAirports:symbol:16777215:3.5:0:1:7\nAirports:symbol:255:4:2:-1:14\n \nAirports:symbol:-1:4:2:1:0\nSYMBOL:0\nSYMBOLITEM:MOVETO 1 2\nSYMBOLITEM:ARC 0 -1.5:3 90 450\nSYMBOL:99\nSYMBOLITEM:SETPIXEL:0:0\nm_ClipArea:5\nEND\n" ∧
    (f.itemsNamed (G := Str) id c!"Airports" c!"symbol").getLast? =
      some ⟨c!"Airports", c!"symbol", ⟨255, 0, 0, 255⟩, c!"4", c!"DOT", -1, ⟨.right, .bottom⟩⟩ ∧
    (f.symbolsOf (F := Str) id (fun a b => a == b) .airport).getLast? =
      some [.move (c!"1", c!"2"), .arc (c!"0", c!"-1.5") c!"3" 90 90] ∧
    (f.symbolsOf (F := Str) id (fun a b => a == b) .ndb).getLast? = none :=
  ⟨sample arc c!"ARC 0 -1.5:3 90 450", ⟨sample_valid arc_text, text_spaced _⟩, by decide, by decide +kernel, by decide, by decide, by decide⟩

/-- A file that makes the program panic. -/
example : ∃ f : File, f.IsText f.text ∧ ¬ f.Fits :=
  ⟨sample big c!"ARC 0 0 3 0 9223372036854775808", ⟨sample_valid big_text, text_spaced _⟩, by decide⟩

def small : File :=
  ⟨[], c!"\n", c!"\n", [(⟨c!"Airports ", c!"symbol", c!"255", c!"4", (c!"2", c!"DOT"), c!"1", (c!"14", ⟨.right, .bottom⟩)⟩, c!"\n")],
   [⟨c!"0", c!"\n", [⟨.move c!"1" c!"2", c!"MOVETO 1 2", []⟩, ⟨.line c!"1" c!"2", c!"LINETO 1 2", []⟩]⟩], c!"5", c!"\n", []⟩

/-- A file with blanks between its parts, whose drawing rules have no line ends: the blank behind the folder is part
of it, those in front of it and around the numbers are not. -/
example : small.IsText c!"SYMBOLOGY \nSYMBOLSIZE\n\tAirports : symbol:255 : 4:2:1:14 \nSYMBOL: 0\n SYMBOLITEM: MOVETO 1 2 SYMBOLITEM:LINETO 1 2m_ClipArea: 5\nEND  " := by
  refine ⟨⟨.nil, brk1, brk1, by simp [small], ?_, by simp [small], ?_, (by decide : IsInteger c!"5"), brk1, Or.inl rfl⟩, ?_⟩
  · intro i hi
    simp only [small, List.mem_cons, List.not_mem_nil, or_false] at hi
    subst hi
    exact ⟨⟨field (by decide) (by decide), field (by decide) (by decide), by decide, isDecimal_of_check (by decide), by decide, by decide, by decide⟩, brk1⟩
  · intro i hi
    simp only [small, List.mem_cons, List.not_mem_nil, or_false] at hi
    subst hi
    refine ⟨(by decide : IsInteger c!"0"), brk1, by simp, ?_⟩
    intro e he
    simp only [List.mem_cons, List.not_mem_nil, or_false] at he
    rcases he with rfl | rfl
    · exact ⟨⟨⟨decimals (by decide), by decide⟩, _, args [(' ', c!"1"), (' ', c!"2")] (by decide), rfl⟩, Or.inl rfl⟩
    · exact ⟨⟨⟨decimals (by decide), by decide⟩, _, args [(' ', c!"1"), (' ', c!"2")] (by decide), rfl⟩, Or.inl rfl⟩
  · exact spaced_of [([], []), (c!"SYMBOLOGY", c!" "), (c!"\n", []), (c!"SYMBOLSIZE", []), (c!"\n", c!"\t"), (c!"Airports :", c!" "), (c!"symbol:", []),
      (c!"255", c!" "), (c!":", c!" "), (c!"4", []), (c!":", []), (c!"2", []), (c!":", []), (c!"1", []), (c!":", []), (c!"14", c!" "), (c!"\n", []),
      (c!"SYMBOL:", c!" "), (c!"0", []), (c!"\n", c!" "), (c!"SYMBOLITEM:", c!" "), (c!"MOVETO 1 2", c!" "), ([], []), (c!"SYMBOLITEM:", []),
      (c!"LINETO 1 2", []), ([], []), (c!"m_ClipArea:", c!" "), (c!"5", []), (c!"\n", []), (c!"END", c!"  "), ([], [])] (by decide)

/-- A text with a parse error. -/
example : parse (F := Str) (G := Str) c!"SYMBOLOGY\n" = .error .parseError := rejected_iff.1 (by decide +kernel)

end Symbology
end Verif.Props
