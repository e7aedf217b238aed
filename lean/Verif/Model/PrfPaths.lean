import Verif.Parse.Prf
import Verif.Base.ShowNat
/-!
# `/repo/src/prf.rs`: the paths of a profile

Paths are modelled for Unix.  `std::path` compares paths by their components, so an absolute path is
modelled by the list of its components; what a text means as a path is `components`.
-/

namespace Verif.PrfPaths
open Verif.Parse.Prf (Settings)

/-- The parts of a text between the separators. -/
def splitSep (sep : Char) : Str → List Str
  | [] => [[]]
  | c :: s =>
    match splitSep sep s with
    | [] => [[c]]
    | p :: ps => if c = sep then [] :: p :: ps else (c :: p) :: ps

/-- `Path::components` of a text in an absolute path: empty parts and `.` are dropped. -/
def components (s : Str) : List Str := (splitSep '/' s).filter fun p => p ≠ [] ∧ p ≠ ['.']

/-- An absolute path, by its components. -/
abbrev Path := List Str

/-- `Path::join`: an absolute right side replaces the left side. -/
def join (p : Path) (s : Str) : Path := if s.head? = some '/' then components s else p ++ components s

/-- `Path::parent`; `None` for the root. -/
def parent (p : Path) : Option Path := if p = [] then none else some p.dropLast

/-- `Path::file_name`; `None` for the root and after `..`. -/
def fileName (p : Path) : Option Str := p.getLast?.filter fun n => n ≠ ['.', '.']

/-- The part of a file name before the last dot (`Path::file_stem`). -/
def stem (n : Str) : Str :=
  let r := (n.reverse.dropWhile (· ≠ '.')).drop 1
  if r = [] then n else r.reverse

/-- `Path::with_extension` -/
def withExtension (p : Path) (ext : Str) : Path :=
  match fileName p with
  | none => p
  | some n => p.dropLast ++ [stem n ++ '.' :: ext]

/-- `Path::with_file_name` -/
def withFileName (p : Path) (name : Str) : Path :=
  match fileName p with
  | none => join p name
  | some _ => join p.dropLast name

/-- `char::is_whitespace`: the Unicode property White_Space. -/
def isWhitespace (c : Char) : Bool :=
  let n := c.toNat
  (9 ≤ n && n ≤ 13) || n == 0x20 || n == 0x85 || n == 0xA0 || n == 0x1680 || (0x2000 ≤ n && n ≤ 0x200A) ||
    n == 0x2028 || n == 0x2029 || n == 0x202F || n == 0x205F || n == 0x3000

/-- `str::trim_end` -/
def trimEnd (s : Str) : Str := (s.reverse.dropWhile isWhitespace).reverse

/-- `Prf`, prf.rs 28-32: the settings and the canonical path of the profile.  `cwd` is
`env::current_dir()`. -/
structure Prf where
  settings : Settings
  path : Path
  cwd : Option Path

/-- `join_settings_path`, prf.rs 38-45. -/
def joinSettingsPath (prf : Prf) (path : Str) : Run Path :=
  let normalised := (trimEnd path).map fun c => if c = '\\' then '/' else c
  match normalised with
  | '/' :: rel => do
    let dir ← unwrap (parent prf.path)
    return join dir rel
  | _ => do
    let cwd ← unwrap prf.cwd
    return join cwd normalised

/-- `self.settings.0[&("Settings".to_string(), key.to_string())]`: panics if there is none. -/
def setting (prf : Prf) (key : Str) : Run Str := unwrap (Map.get? prf.settings (c!"Settings", key))

/-- `sct_path`, prf.rs 46-48. -/
def sctPath (prf : Prf) : Run Path := do joinSettingsPath prf (← setting prf c!"sector")

/-- `ese_path`, prf.rs 50-53. -/
def esePath (prf : Prf) : Run Path := do
  return withExtension (← joinSettingsPath prf (← setting prf c!"sector")) c!"ese"

/-- `airways_path`, prf.rs 55-57. -/
def airwaysPath (prf : Prf) : Run Path := do joinSettingsPath prf (← setting prf c!"airways")

/-- `isec_path`, prf.rs 59-62. -/
def isecPath (prf : Prf) : Run Path := do
  return withFileName (← joinSettingsPath prf (← setting prf c!"airways")) c!"isec.txt"

/-- `navdata_airports_path`, prf.rs 64-68. -/
def navdataAirportsPath (prf : Prf) : Run Path := do joinSettingsPath prf (← setting prf c!"airportcoords")

/-- `airlines_path`, prf.rs 70-72. -/
def airlinesPath (prf : Prf) : Run Path := do joinSettingsPath prf (← setting prf c!"airlines")

/-- `aircraft_path`, prf.rs 74-76. -/
def aircraftPath (prf : Prf) : Run Path := do joinSettingsPath prf (← setting prf c!"aircraft")

/-- `airports_path`, prf.rs 78-80. -/
def airportsPath (prf : Prf) : Run Path := do joinSettingsPath prf (← setting prf c!"airports")

/-- `symbology_path`, prf.rs 82-86. -/
def symbologyPath (prf : Prf) : Run Path := do joinSettingsPath prf (← setting prf c!"SettingsfileSYMBOLOGY")

/-- `settings.0.iter().find_map(..)`, prf.rs 89-103 and 107-121: the directory of the first value
that resolves to a file of the given name.  `entries` lists the hash map in its iteration order.
The final `self.path.parent().unwrap().join(path)` has an absolute right side, which replaces the
left. -/
def findFile (prf : Prf) (name : Str) : List ((Str × Str) × Str) → Run (Option Path)
  | [] => .ok none
  | (_, v) :: es => do
    let path ← joinSettingsPath prf v
    if fileName path = some name then do
      let _ ← unwrap (parent prf.path)
      return parent path
    else findFile prf name es

/-- `squawks_path`, prf.rs 88-104. -/
def squawksPath (prf : Prf) (entries : List ((Str × Str) × Str)) : Run (Option Path) := do
  return (← findFile prf c!"Squawks.dll" entries).map fun p => join p c!"squawks.json"

/-- `topsky_path`, prf.rs 106-121. -/
def topskyPath (prf : Prf) (entries : List ((Str × Str) × Str)) : Run (Option Path) :=
  findFile prf c!"TopSky.dll" entries

/-- `recent_path`, prf.rs 123-128. -/
def recentPath (prf : Prf) (num : Nat) : Run (Option Path) :=
  match Map.get? prf.settings (c!"RecentFiles", c!"Recent" ++ showNat num) with
  | none => .ok none
  | some v => do return some (← joinSettingsPath prf v)

end Verif.PrfPaths
