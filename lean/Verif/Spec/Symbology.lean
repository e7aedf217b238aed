import Verif.Spec.Spaced
import Verif.Spec.SymbolRule
import Verif.Parse.Symbology
/-!
# Specification of symbology files

What a symbology file looks like and what its lines mean.  Only the result types (`Item`, `Alignment`, `Colour`,
`SymbolType`, `SymbolRule`) are taken from the model; neither the grammar nor the parser is used.
-/

namespace Verif.Spec.Symbology
open Verif.Parse.Symbology (Item Alignment)
open Verif.Settings (SymbolType Symbol)
open Verif.Colours (Colour)
open Verif.Spec.Drawing (Drawing)

/-- A line end and further blanks and empty lines; there are no comments. -/
abbrev IsBreak : Str → Prop := Spec.IsBreak []

/-- A field in front of a colon. -/
def IsField (s : Str) : Prop :=
  (∀ c ∈ s, c ≠ ':' ∧ ¬ IsNewline c) ∧ ∀ c, s.head? = some c → ¬ IsBlankChar c

/-- The number is an `i32`. -/
def FitsI32 (n : Str) : Prop := -(2 ^ 31 : Int) ≤ intValue n ∧ intValue n < 2 ^ 31

instance (n : Str) : Decidable (FitsI32 n) := inferInstanceAs (Decidable (_ ∧ _))

/-- The number has no minus sign and is a `u32`. -/
def FitsU32 (n : Str) : Prop := n.head? ≠ some '-' ∧ intValue n < 2 ^ 32

instance (n : Str) : Decidable (FitsU32 n) := inferInstanceAs (Decidable (_ ∧ _))

/-! ## Items -/

/-- The line styles. -/
def styles : List (Str × Str) :=
  [(c!"0", c!"SOLID"), (c!"1", c!"DASH"), (c!"2", c!"DOT"), (c!"3", c!"DASHDOT"), (c!"4", c!"DASHDOTDOT")]

/-- The alignments. -/
def alignments : List (Str × Alignment) :=
  [(c!"0", ⟨.left, .top⟩), (c!"1", ⟨.left, .center⟩), (c!"2", ⟨.left, .bottom⟩),
   (c!"6", ⟨.center, .top⟩), (c!"7", ⟨.center, .center⟩), (c!"8", ⟨.center, .bottom⟩),
   (c!"12", ⟨.right, .top⟩), (c!"13", ⟨.right, .center⟩), (c!"14", ⟨.right, .bottom⟩)]

/-- `folder:name:colour:scale:style:weight:alignment` -/
structure ItemLine where
  folder : Str
  name : Str
  colour : Str
  scale : Str
  style : Str × Str
  weight : Str
  alignment : Str × Alignment

def ItemLine.text (i : ItemLine) : Str :=
  i.folder ++ ':' :: (i.name ++ ':' :: (i.colour ++ ':' :: (i.scale ++ ':' :: (i.style.1 ++ ':' ::
    (i.weight ++ ':' :: i.alignment.1)))))

def ItemLine.Valid (i : ItemLine) : Prop :=
  IsField i.folder ∧ IsField i.name ∧ IsInteger i.colour ∧ IsDecimal i.scale ∧ i.style ∈ styles ∧
  IsInteger i.weight ∧ i.alignment ∈ alignments

def ItemLine.Fits (i : ItemLine) : Prop := FitsI32 i.colour ∧ FitsI32 i.weight

instance (i : ItemLine) : Decidable i.Fits := inferInstanceAs (Decidable (_ ∧ _))

/-- The colour with a number: red, green and blue are its digits to the base 256, the lowest first. -/
def colourOf (n : Int) : Option Colour :=
  if 0 ≤ n ∧ n < 2 ^ 24 then
    some ⟨Fin.ofNat 256 n.toNat, Fin.ofNat 256 (n.toNat / 256), Fin.ofNat 256 (n.toNat / 65536), 255⟩
  else none

/-- What an item stands for: nothing if there is no such colour. -/
def ItemLine.value {G : Type} (num : Str → G) (i : ItemLine) : Option (Item G) :=
  (colourOf (intValue i.colour)).map fun c =>
    { folder := i.folder, name := i.name, colour := c, scale := num i.scale, lineStyle := i.style.2,
      lineWeight := intValue i.weight, alignment := i.alignment.2 }

/-! ## Symbols -/

/-- A drawing rule, how it is written, and the line end after it, which may be missing. -/
structure DrawingLine where
  drawing : Drawing
  rule : Str
  brk : Str

def DrawingLine.text (d : DrawingLine) : Str := c!"SYMBOLITEM:" ++ (d.rule ++ d.brk)
def DrawingLine.Valid (d : DrawingLine) : Prop := d.drawing.IsText d.rule ∧ (d.brk = [] ∨ IsBreak d.brk)

/-- `SYMBOL:number` and its drawing rules. -/
structure SymbolDef where
  number : Str
  brk : Str
  rules : List DrawingLine

def SymbolDef.text (s : SymbolDef) : Str := c!"SYMBOL:" ++ (s.number ++ (s.brk ++ s.rules.flatMap DrawingLine.text))

def SymbolDef.Valid (s : SymbolDef) : Prop :=
  IsInteger s.number ∧ IsBreak s.brk ∧ s.rules ≠ [] ∧ ∀ d ∈ s.rules, d.Valid

def SymbolDef.Fits (s : SymbolDef) : Prop := FitsU32 s.number ∧ ∀ d ∈ s.rules, d.drawing.Fits

instance (s : SymbolDef) : Decidable s.Fits := inferInstanceAs (Decidable (_ ∧ _))

/-- The types of symbols; the number of a type is its position. -/
def types : List SymbolType :=
  [.airport, .ndb, .vor, .fix, .aircraftStandby, .aircraftPrimaryOnly, .aircraftCorrAlphaCharlieSecondaryOnly,
   .aircraftCorrModeSierraSecondaryOnly, .aircraftCorrModeAlphaCharlie, .aircraftCorrModeSierra,
   .aircraftCorrModeAlphaCharlieIdent, .aircraftCorrModeSierraIdent, .aircraftFlightPlanTrack, .aircraftCoasting,
   .historyDot, .groundAircraft, .aircraftUncorrModeAlphaCharlieSecondaryOnly,
   .aircraftUncorrModeSierraSecondaryOnly, .aircraftUncorrModeAlphaCharlie, .aircraftUncorrModeSierra,
   .aircraftUncorrModeAlphaCharlieIdent, .aircraftUncorrModeSierraIdent, .groundVehicle, .groundRotorcraft]

/-- The type of a symbol: none if the number is too large. -/
def SymbolDef.type (s : SymbolDef) : Option SymbolType := types[(intValue s.number).toNat]?

def SymbolDef.value {F : Type} (num : Str → F) (close : F → F → Bool) (s : SymbolDef) : Symbol F :=
  s.rules.map fun d => d.drawing.value num close

/-! ## Files -/

structure File where
  /-- blanks and empty lines in front of the file -/
  lead : Str
  brk1 : Str
  brk2 : Str
  items : List (ItemLine × Str)
  symbols : List SymbolDef
  clip : Str
  brk3 : Str
  trail : Str

def File.text (f : File) : Str :=
  f.lead ++ (c!"SYMBOLOGY" ++ (f.brk1 ++ (c!"SYMBOLSIZE" ++ (f.brk2 ++ (f.items.flatMap (fun i => i.1.text ++ i.2) ++
    (f.symbols.flatMap SymbolDef.text ++ (c!"m_ClipArea:" ++ (f.clip ++ (f.brk3 ++ (c!"END" ++ f.trail))))))))))

def File.Valid (f : File) : Prop :=
  IsFiller [] f.lead ∧ IsBreak f.brk1 ∧ IsBreak f.brk2 ∧ f.items ≠ [] ∧ (∀ i ∈ f.items, i.1.Valid ∧ IsBreak i.2) ∧
  f.symbols ≠ [] ∧ (∀ s ∈ f.symbols, s.Valid) ∧ IsInteger f.clip ∧ IsBreak f.brk3 ∧ (f.trail = [] ∨ IsBreak f.trail)

/-! Blanks may stand between the parts of the file, but not inside of a drawing rule; those in front of the colon
behind a folder or a name are part of it. -/

def ItemLine.tokens (i : ItemLine) : List Str :=
  [i.folder ++ c!":", i.name ++ c!":", i.colour, c!":", i.scale, c!":", i.style.1, c!":", i.weight, c!":", i.alignment.1]

def DrawingLine.tokens (d : DrawingLine) : List Str := [c!"SYMBOLITEM:", d.rule, d.brk]

def SymbolDef.tokens (s : SymbolDef) : List Str := c!"SYMBOL:" :: s.number :: s.brk :: s.rules.flatMap DrawingLine.tokens

def File.tokens (f : File) : List Str :=
  [f.lead, c!"SYMBOLOGY", f.brk1, c!"SYMBOLSIZE", f.brk2] ++ (f.items.flatMap (fun i => i.1.tokens ++ [i.2]) ++
    (f.symbols.flatMap SymbolDef.tokens ++ [c!"m_ClipArea:", f.clip, f.brk3, c!"END", f.trail]))

/-- The text is this file, with any blanks between its parts. -/
def File.IsText (f : File) (content : Str) : Prop := f.Valid ∧ Spaced f.tokens content

/-- Every number can be held in its type. -/
def File.Fits (f : File) : Prop := (∀ i ∈ f.items, i.1.Fits) ∧ ∀ s ∈ f.symbols, s.Fits

instance (f : File) : Decidable f.Fits := inferInstanceAs (Decidable (_ ∧ _))

/-- The items with this folder and name that have a colour, in order. -/
def File.itemsNamed {G : Type} (num : Str → G) (f : File) (folder name : Str) : List (Item G) :=
  f.items.filterMap fun i => if i.1.folder = folder ∧ i.1.name = name then i.1.value num else none

/-- The symbols of this type, in order. -/
def File.symbolsOf {F : Type} (num : Str → F) (close : F → F → Bool) (f : File) (t : SymbolType) : List (Symbol F) :=
  f.symbols.filterMap fun s => if s.type = some t then some (s.value num close) else none

/-- Parts of a text, well-formed or not, that can stop the program. -/
inductive Harmful : Str → Prop
  /-- a colour or line weight between colons that is no `i32` -/
  | number (sp n sp' : Str) : (∀ c ∈ sp ++ sp', IsBlankChar c) → IsInteger n → ¬ FitsI32 n →
      Harmful (':' :: (sp ++ (n ++ (sp' ++ c!":"))))
  /-- a symbol with a number that is negative or no `u32` -/
  | symbol (sp n : Str) : (∀ c ∈ sp, IsBlankChar c) → IsInteger n → ¬ FitsU32 n → Harmful (c!"SYMBOL:" ++ (sp ++ n))
  /-- a drawing rule with an angle that is no `i64` -/
  | angle (d : Drawing) (s : Str) : d.IsText s → ¬ d.Fits → Harmful s

end Verif.Spec.Symbology
