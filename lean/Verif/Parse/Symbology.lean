import Verif.Grammar.Symbology
import Verif.Base.Map
import Verif.Model.Colours
import Verif.Parse.SymbolRule
/-!
# `/repo/src/symbology.rs`

`F` is `f64`, `G` is `f32`.
-/

namespace Verif.Parse.Symbology
open Verif.Peg
open Verif.Peg.Symbology (Rule skip)
open Verif.Colours (Colour fromEuroscope)
open Verif.Settings (SymbolRule SymbolType Symbol)
open Verif.Parse.SymbolRule (Kind Close parseRule)

/-- `HorizontalAlignment`, adaptation/mod.rs 57-62 -/
inductive Horizontal
  | left | center | right
  deriving DecidableEq, Repr

/-- `VerticalAlignment`, adaptation/mod.rs 65-70 -/
inductive Vertical
  | top | center | bottom
  deriving DecidableEq, Repr

/-- `Alignment`, adaptation/mod.rs 73-76 -/
structure Alignment where
  horizontal : Horizontal
  vertical : Vertical
  deriving DecidableEq, Repr

/-- `Item`, symbology.rs 35-44 -/
structure Item (G : Type) where
  folder : Str
  name : Str
  colour : Colour
  scale : G
  lineStyle : Str
  lineWeight : Int
  alignment : Alignment
  deriving DecidableEq

/-- `parse_linestyle`, symbology.rs 46-55; the names are line_styles.rs 21-26 -/
def parseLinestyle (pair : Tree Rule) : Run Str := do
  let v ← unwrap (parseUnsigned 10 256 pair.asStr)
  match v with
  | 0 => pure c!"SOLID"
  | 1 => pure c!"DASH"
  | 2 => pure c!"DOT"
  | 3 => pure c!"DASHDOT"
  | 4 => pure c!"DASHDOTDOT"
  | _ => .error .panic

/-- The horizontal part of `parse_alignment`, symbology.rs 60-65 -/
def horizontalOf (v : Nat) : Run Horizontal :=
  if v ≤ 2 then pure .left
  else if 6 ≤ v ∧ v ≤ 8 then pure .center
  else if 12 ≤ v ∧ v ≤ 14 then pure .right
  else .error .panic

/-- The vertical part of `parse_alignment`, symbology.rs 66-71 -/
def verticalOf (v : Nat) : Run Vertical :=
  if v = 0 ∨ v = 6 ∨ v = 12 then pure .top
  else if v = 1 ∨ v = 7 ∨ v = 13 then pure .center
  else if v = 2 ∨ v = 8 ∨ v = 14 then pure .bottom
  else .error .panic

/-- `parse_alignment`, symbology.rs 57-77 -/
def parseAlignment (pair : Tree Rule) : Run Alignment := do
  let v ← unwrap (parseUnsigned 10 256 pair.asStr)
  let horizontal ← horizontalOf v
  let vertical ← verticalOf v
  pure { horizontal, vertical }

/-- `Item::parse`, symbology.rs 115-143 -/
def parseItem {G : Type} [F64 G] (pair : Tree Rule) : Run (Option (Item G)) := do
  let (folder, item) ← next pair.inner
  let (name, item) ← next item
  let (colour, item) ← next item
  let colour ← unwrap (parseSigned (2 ^ 31) colour.asStr)
  let (scale, item) ← next item
  let scale ← unwrap (F64.ofText scale.asStr)
  let (style, item) ← next item
  let lineStyle ← parseLinestyle style
  let (weight, item) ← next item
  let lineWeight ← unwrap (parseSigned (2 ^ 31) weight.asStr)
  let (al, _) ← next item
  let alignment ← parseAlignment al
  pure ((fromEuroscope colour).map fun colour =>
    { folder := folder.asStr, name := name.asStr, colour, scale, lineStyle, lineWeight, alignment })

/-- The match of `parse_symbol_rules` on the token, symbology.rs 160-233 -/
def kindOf : Rule → Option Kind
  | .moveto => some .moveto
  | .line => some .line
  | .pixel => some .pixel
  | .arc => some .arc
  | .arc_ellipse => some .arcEllipse
  | .fillarc => some .fillarc
  | .fillarc_ellipse => some .fillarcEllipse
  | .ellipse_circle => some .ellipseCircle
  | .ellipse => some .ellipse
  | .fillrect => some .fillrect
  | .polygon => some .polygon
  | _ => none

/-- `parse_symbol_rules`, symbology.rs 153-238 -/
def parseSymbolRules {F : Type} [F64 F] [Close F] (pair : Tree Rule) : Run (Option (SymbolType × Symbol F)) := do
  let (ty, symbol) ← next pair.inner
  let n ← unwrap (parseUnsigned 10 (2 ^ 32) ty.asStr)
  let rules ← symbol.mapM (parseRule kindOf)
  pure ((SymbolType.fromU32 n).map fun t => (t, rules))

/-- `Symbology`, symbology.rs 107-111 -/
structure Symbology (F G : Type) where
  items : Map (Str × Str) (Item G)
  symbols : Map SymbolType (Symbol F)

/-- The closure of the fold in `Symbology::parse`, symbology.rs 247-264 -/
def step {F G : Type} [F64 F] [F64 G] [Close F] (acc : Symbology F G) (pair : Tree Rule) : Run (Symbology F G) :=
  match pair.asRule with
  | .item => do
    let i ← parseItem pair
    pure (match i with
      | some i => { acc with items := acc.items.insert (i.folder, i.name) i }
      | none => acc)
  | .symbol => do
    let s ← parseSymbolRules pair
    pure (match s with
      | some s => { acc with symbols := acc.symbols.insert s.1 s.2 }
      | none => acc)
  | .header => pure acc
  | .footer => pure acc
  | .EOI => pure acc
  | _ => .error .panic

/-- `Symbology::parse`, symbology.rs 241-273, after `read_to_string` -/
def parse {F G : Type} [F64 F] [F64 G] [Close F] (content : Str) : Run (Symbology F G) := do
  let pairs ← run skip Symbology.symbology content
  let (file, _) ← next pairs
  file.inner.foldlM step ⟨[], []⟩

end Verif.Parse.Symbology
