import Verif.Grammar.TopskySettings
import Verif.Base.Map
import Verif.Model.Colours
/-!
# `/repo/src/topsky/settings.rs`
-/

namespace Verif.Parse.TopskySettings
open Verif.Peg Verif.Peg.TopskySettings
open Verif.Colours (Colour fromRgb)

/-- `ColourDef`, topsky/map/mod.rs 321-325. -/
structure ColourDef where
  name : Str
  colour : Colour
  deriving DecidableEq, Repr

/-- `Setting`, settings.rs 17-20. -/
inductive Setting
  | colour (d : ColourDef)
  | other (key value : Str)
  deriving DecidableEq, Repr

/-- `s.parse::<u8>().ok()` -/
def parseU8 (s : Str) : Option (Fin 256) :=
  (parseUnsigned 10 256 s).bind fun n => if h : n < 256 then some ⟨n, h⟩ else none

/-- `parse_colour`, settings.rs 41-47; the `ParseIntError` is `none`.  After an error the remaining tokens are
not looked at. -/
def parseColour (pair : Tree Rule) : Run (Option Colour) := do
  let (r, colour) ← next pair.inner
  match parseU8 r.asStr with
  | none => return none
  | some r =>
    let (g, colour) ← next colour
    match parseU8 g.asStr with
    | none => return none
    | some g =>
      let (b, _) ← next colour
      match parseU8 b.asStr with
      | none => return none
      | some b => return some (fromRgb r g b)

/-- `parse_setting`, settings.rs 49-71. -/
def parseSetting (pair : Tree Rule) : Run (Option Setting) :=
  match pair.asRule with
  | .colour_setting => do
    let (name, symbol) ← next pair.inner
    match symbol with
    | [] => return none
    | rgb :: _ =>
      let c ← parseColour rgb
      return c.map fun colour => .colour { name := name.asStr, colour }
  | .other_setting => do
    let (name, setting) ← next pair.inner
    let (value, _) ← next setting
    return some (.other name.asStr value.asStr)
  | .section_ => return none
  | .EOI => return none
  | _ => .error .panic

/-- The closure of the `fold`, settings.rs 82-93. -/
def step (acc : Map Str ColourDef × Map Str Str) : Setting → Map Str ColourDef × Map Str Str
  | .colour d => (acc.1.insert d.name d, acc.2)
  | .other k v => (acc.1, acc.2.insert k v)

/-- `parse_topsky_settings`, settings.rs 73-99. -/
def parse (contents : Str) : Run (Map Str ColourDef × Map Str Str) := do
  let pairs ← run skip settings contents
  let (p, _) ← next pairs
  let found ← p.inner.mapM parseSetting
  return (found.filterMap id).foldl step ([], [])

end Verif.Parse.TopskySettings
