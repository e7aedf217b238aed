import Verif.Spec.Adaptation
import Verif.Spec.Airway
import Verif.Spec.Ese
import Verif.Spec.Locations
import Verif.Spec.Polygon
import Verif.Spec.Sct
import Verif.Spec.Symbology
import Verif.Spec.Topsky
/-!
# When loading an adaptation must not panic
-/

namespace Verif.Spec.Adaptation
open Verif.Adaptation
open Verif.PrfPaths (Prf Path)
open Verif.Display (F32Ops)
open Verif.Locations.Spec (OnlyAsciiDigits)

/-- The keys of the category `Settings` that loading asks for. -/
def keys : List Str :=
  [c!"sector", c!"airways", c!"airportcoords", c!"airlines", c!"aircraft", c!"airports", c!"SettingsfileSYMBOLOGY"]

/-- The profile is a file in a directory, there is a current directory, and the profile has the settings that name the
required files. -/
structure Complete (prf : Prf) : Prop where
  file : prf.path ≠ []
  cwd : prf.cwd ≠ none
  settings : ∀ k ∈ keys, Map.get? prf.settings (c!"Settings", k) ≠ none

section
variable {F G : Type} [DecidableEq F] [F32Ops G] [UnicodeTables]

/-- The text of the required file `f` is `s`. -/
def TextOf (env : Env F G) (prf : Prf) (f : File) (s : Str) : Prop := ∃ p, path prf f = .ok p ∧ TextAt env p s

/-- The text of this file of TopSky is `s`. -/
def TopskyText (env : Env F G) (prf : Prf) (name : Str) (s : Str) : Prop :=
  ∃ dir, PrfPaths.topskyPath prf (env.order .settings prf.settings) = .ok (some dir) ∧ TextAt env (PrfPaths.join dir name) s

/-- The text is a sector file whose numbers fit their types, or at least no part of it can make the parser panic. -/
def SctSafe (s : Str) : Prop :=
  (∃ f : Spec.Sct.File, f.Valid ∧ f.Fits ∧ f.text = s) ∨ ∀ part, part <:+: s → ¬ Spec.Sct.Harmful part

/-- The same for an ESE file. -/
def EseSafe (s : Str) : Prop :=
  (∃ f : Spec.Ese.File, f.Valid ∧ f.Fits ∧ f.text = s) ∨ ∀ part, part <:+: s → ¬ Spec.Ese.Harmful part

/-- If the text is a symbology file, then its numbers fit their types. -/
def SymbologySafe (s : Str) : Prop := ∀ f : Spec.Symbology.File, f.IsText s → f.Fits

/-- The same for the symbols of TopSky. -/
def SymbolsSafe (s : Str) : Prop := ∀ f : Spec.Topsky.SymbolFile, f.Valid → f.text = s → f.Fits

/-- If the text is a map file of TopSky, then its numbers fit their types, or no part of it can make the parser panic. -/
def MapsSafe (s : Str) : Prop :=
  (∃ f : Spec.Topsky.MapFile, f.Valid ∧ f.Fits ∧ f.text = s) ∨ ∀ part, part <:+: s → ¬ Spec.Topsky.Harmful part

/-- No file makes its parser panic by a number that does not fit its type, and the maps of TopSky have no decimal digits outside
of ASCII. -/
structure Harmless (env : Env F G) (prf : Prf) : Prop where
  sct : ∀ s, TextOf env prf .sct s → SctSafe s
  ese : ∀ s, TextOf env prf .ese s → EseSafe s
  airways : ∀ s, TextOf env prf .airways s → ∀ lines, Spec.Airway.IsFile s lines → ∀ l ∈ lines, Spec.Airway.LevelsFit l
  symbology : ∀ s, TextOf env prf .symbology s → SymbologySafe s
  symbols : ∀ s, TopskyText env prf c!"TopSkySymbols.txt" s → SymbolsSafe s
  maps : ∀ s, TopskyText env prf c!"TopSkyMaps.txt" s → MapsSafe s
  digits : ∀ s, TopskyText env prf c!"TopSkyMaps.txt" s → OnlyAsciiDigits s

/-- The world around the program does what it must: a `HashMap` is iterated over in any order, and the first element of a set
is one of its elements. -/
structure Sane (env : Env F G) : Prop where
  order : AnyOrder env
  choose : Polygon.Spec.Chooses env.choose

end
end Verif.Spec.Adaptation
