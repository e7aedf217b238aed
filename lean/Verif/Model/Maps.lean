import Verif.Base.Map
import Verif.Base.Lit
import Verif.Base.ShowNat
/-!
# TopSky maps

Models `/repo/src/adaptation/maps/mod.rs` (all of it), with the rule type of
`/repo/src/topsky/map/mod.rs` 224-243.

* Locations, points, colours, floats, alignments and active conditions are abstract types.
* `Locations::convert_location` is the parameter `conv`, `Colours::get` the parameter `colour`.
  Panics of `convert_location` are the subject of C53 and left out here: `conv` is total.
-/

namespace Verif.Maps

/-- The types and primitive operations the code uses. -/
class World where
  /-- `Location` -/
  Loc : Type
  /-- `geo::Point` -/
  Point : Type
  /-- `Colour` -/
  Col : Type
  /-- `f32` -/
  Num : Type
  /-- `(f64, f64)` -/
  Offset : Type
  /-- `maps::active::Active` -/
  Active : Type
  /-- `LineStyle` -/
  LineStyle : Type
  /-- `Alignment` -/
  Alignment : Type
  add : Num → Num → Num
  sub : Num → Num → Num
  mul : Num → Num → Num
  /-- `LineStyle::default()` -/
  defaultLineStyle : LineStyle
  /-- `Alignment::default()` -/
  defaultAlignment : Alignment
  /-- equality of points, as used for closing a ring -/
  pointEq : Point → Point → Bool

open World
variable [World]

/-- The part of `MapsSettings` used, settings/mod.rs 298-307 -/
structure Settings where
  fontSize : Num
  layer : Num
  autoFolder : Str
  labelOffset : Offset

/-- `topsky::map::FontSize`, topsky/map/mod.rs 146-153 -/
inductive FontSize where
  | exact (n : Num) | add (n : Num) | subtract (n : Num) | multiply (n : Num) | default

/-- `topsky::map::MapSymbol` with `Label`, topsky/map/mod.rs 79-91 -/
structure MapSymbol where
  name : Str
  location : Loc
  label : Option (Str × Offset)
  labelAlignment : Option Alignment

/-- `topsky::map::Text`, topsky/map/mod.rs 119-124 -/
structure Text where
  location : Loc
  content : Str
  alignment : Option Alignment

/-- `MapRule`, topsky/map/mod.rs 224-243; a `MapLine` is its list of points. -/
inductive MapRule where
  | folder (name : Str)
  | colour (name : Str)
  | asrData (names : Option (List Str))
  | active (a : Active)
  | andActive (a : Active)
  | global
  | screenSpecific
  | hidden
  | layer (n : Num)
  | symbol (s : MapSymbol)
  | zoom (n : Num)
  | fontSize (f : FontSize)
  | lineStyle (l : LineStyle)
  | line (ls : List (List Loc))
  | text (t : Text)
  | coordPoly (hatch : Str)
  | coordLine
  | coord (l : Loc)

/-- `MapDef`, topsky/map/mod.rs -/
structure MapDef where
  name : Str
  rules : List MapRule

/-- `OverrideSct`, topsky/map/mod.rs -/
structure OverrideSct where
  folder : Str
  name : Option Str
deriving DecidableEq

/-- The attributes of a `MapGroup`, maps/mod.rs 76-82 and 87 -/
structure Attr where
  colour : Col
  fontSize : Num
  layer : Num
  asrData : Option (List Str)
  zoom : Option Num
  lineStyle : LineStyle

/-- `Label`, maps/mod.rs 171-176 -/
structure Label where
  coordinate : Point
  alignment : Alignment
  text : Str

/-- `Symbol`, maps/mod.rs 178-185 -/
structure Symbol where
  name : Str
  coordinate : Point
  label : Option Str
  labelAlignment : Alignment
  labelOffset : Offset

/-- `MapGroup`, maps/mod.rs 75-88; the six attribute fields are grouped as `attr`. -/
structure MapGroup where
  attr : Attr
  lines : List (List Point)
  labels : List Label
  symbols : List Symbol
  polygons : List (List Point)

/-- `Map`, maps/mod.rs 36-43 -/
structure MapV where
  name : Str
  folder : Str
  groups : List MapGroup
  hidden : Bool
  active : List (List Active)

/-- `Folder`, maps/mod.rs 29-34 -/
structure Folder where
  name : Str
  hidden : Bool
  maps : Map Str MapV

/-- `MapGroup::default_from_settings`, maps/mod.rs 91-104 -/
def defaultGroup (s : Settings) (colour : Col) : MapGroup where
  attr := ⟨colour, s.fontSize, s.layer, none, none, defaultLineStyle⟩
  lines := []
  labels := []
  symbols := []
  polygons := []

/-- Update of the last element of a vector. -/
def modifyLast {α : Type} (f : α → α) : List α → List α
  | [] => []
  | [a] => [f a]
  | a :: b :: l => a :: modifyLast f (b :: l)

/-- `Map::config_change`, maps/mod.rs 45-73.  All uses change the attributes only. -/
def configChange (s : Settings) (colour : Col) (groups : List MapGroup) (change : Attr → Attr) :
    List MapGroup :=
  match groups.getLast? with
  | some last =>
    if last.lines.isEmpty && last.symbols.isEmpty && last.labels.isEmpty then
      modifyLast (fun g => { g with attr := change g.attr }) groups
    else groups ++ [⟨change last.attr, [], [], [], []⟩]
  | none =>
    let g := defaultGroup s colour
    [{ g with attr := change g.attr }]

/-- `add_topsky_symbol`, maps/mod.rs 106-128 -/
def addSymbol (s : Settings) (conv : Loc → Option Point) (sym : MapSymbol) (g : MapGroup) : MapGroup :=
  match conv sym.location with
  | some coordinate =>
    { g with
      symbols := g.symbols ++ [
        { name := sym.name
          coordinate := coordinate
          label := sym.label.map (·.1)
          labelAlignment := sym.labelAlignment.getD defaultAlignment
          labelOffset := (sym.label.map (·.2)).getD s.labelOffset }] }
  | none => g

/-- `add_topsky_lines`, maps/mod.rs 129-142 -/
def addLines (conv : Loc → Option Point) (ls : List (List Loc)) (g : MapGroup) : MapGroup :=
  { g with lines := g.lines ++ ls.map fun l => l.filterMap conv }

/-- `Polygon::new` closes the ring (crate `geo`): the first point is repeated at the end unless the
last point equals it. -/
def closeRing (l : List Point) : List Point :=
  match l.head?, l.getLast? with
  | some a, some b => if pointEq a b then l else l ++ [a]
  | _, _ => l

/-- `add_topsky_polygon`, maps/mod.rs 143-157 -/
def addPolygon (conv : Loc → Option Point) (coords : List Loc) (g : MapGroup) : MapGroup :=
  { g with polygons := g.polygons ++ [closeRing (coords.filterMap conv)] }

/-- `add_topsky_text`, maps/mod.rs 158-168 -/
def addText (conv : Loc → Option Point) (t : Text) (g : MapGroup) : MapGroup :=
  match conv t.location with
  | some coordinate =>
    { g with labels := g.labels ++ [⟨coordinate, t.alignment.getD defaultAlignment, t.content⟩] }
  | none => g

/-- `font_size_mod`, maps/mod.rs 246-252 -/
def applyFontSize (s : Settings) (old : Num) : FontSize → Num
  | .exact n => n
  | .add n => World.add old n
  | .subtract n => World.sub old n
  | .multiply n => World.mul old n
  | .default => s.fontSize

/-- The closure of the fold over the rules, maps/mod.rs 213-301: `(map, coord_buffer)`. -/
def ruleStep (s : Settings) (getColour : Str → Option Col) (conv : Loc → Option Point) (colour : Col)
    (st : MapV × List Loc) : MapRule → MapV × List Loc
  | .folder f => ({ st.1 with folder := f }, st.2)
  | .hidden => ({ st.1 with hidden := true }, st.2)
  | .colour name =>
    match getColour name with
    | some c => ({ st.1 with groups := configChange s colour st.1.groups fun a => { a with colour := c } }, st.2)
    | none => st
  | .asrData d =>
    ({ st.1 with groups := configChange s colour st.1.groups fun a => { a with asrData := d } }, st.2)
  | .active a => ({ st.1 with active := st.1.active ++ [[a]] }, st.2)
  | .andActive a => ({ st.1 with active := modifyLast (· ++ [a]) st.1.active }, st.2)
  | .layer n =>
    ({ st.1 with groups := configChange s colour st.1.groups fun a => { a with layer := n } }, st.2)
  | .zoom n =>
    ({ st.1 with groups := configChange s colour st.1.groups fun a => { a with zoom := some n } }, st.2)
  | .fontSize f =>
    ({ st.1 with groups := configChange s colour st.1.groups fun a =>
      { a with fontSize := applyFontSize s a.fontSize f } }, st.2)
  | .lineStyle l =>
    ({ st.1 with groups := configChange s colour st.1.groups fun a => { a with lineStyle := l } }, st.2)
  | .symbol sym => ({ st.1 with groups := modifyLast (addSymbol s conv sym) st.1.groups }, st.2)
  | .line ls => ({ st.1 with groups := modifyLast (addLines conv ls) st.1.groups }, st.2)
  | .text t => ({ st.1 with groups := modifyLast (addText conv t) st.1.groups }, st.2)
  | .coordPoly _ => ({ st.1 with groups := modifyLast (addPolygon conv st.2) st.1.groups }, [])
  | .coordLine => ({ st.1 with groups := modifyLast (addLines conv [st.2]) st.1.groups }, [])
  | .coord l => (st.1, st.2 ++ [l])
  | .global => st
  | .screenSpecific => st

/-- The initial colour, maps/mod.rs 197-200 -/
def firstColour (getColour : Str → Option Col) (rules : List MapRule) : Option Col :=
  rules.findSome? fun
    | .colour c => getColour c
    | _ => none

/-- One map, maps/mod.rs 197-302; `none` if it is skipped (328-330). -/
def buildMap (s : Settings) (getColour : Str → Option Col) (conv : Loc → Option Point) (d : MapDef) :
    Option MapV :=
  (firstColour getColour d.rules).map fun colour =>
    (d.rules.foldl (ruleStep s getColour conv colour)
      (⟨d.name, s.autoFolder, [defaultGroup s colour], false, []⟩, [])).1

/-- `format!("{}_{i}", name)` -/
def suffixed (name : Str) (i : Nat) : Str := name ++ '_' :: showNat i

/-- The loop of maps/mod.rs 307-310 from `i` on; the numbers are `i32` in the code, unbounded here.
More than as many steps as there are maps would be an endless loop (`none`). -/
def freeSuffix (maps : Map Str MapV) (name : Str) : Nat → Nat → Option Nat
  | 0, _ => none
  | fuel + 1, i =>
    if maps.contains (suffixed name i) then freeSuffix maps name fuel (i + 1) else some i

/-- The name a map gets in an existing folder, maps/mod.rs 306-312 -/
def freeName (maps : Map Str MapV) (name : Str) : Run Str :=
  if maps.contains name then
    match freeSuffix maps name (maps.length + 1) 2 with
    | some i => .ok (suffixed name i)
    | none => .error .diverge
  else .ok name

/-- `folders.entry(map.folder).and_modify(..).or_insert(..)`, maps/mod.rs 303-326 -/
def addMap (s : Settings) (overrides : List OverrideSct) (folders : Map Str Folder) (m : MapV) :
    Run (Map Str Folder) :=
  match folders.get? m.folder with
  | some f => do
    let name ← freeName f.maps m.name
    .ok (folders.insert m.folder { f with maps := f.maps.insert name { m with name := name } })
  | none =>
    .ok (folders.insert m.folder
      { name := m.folder
        hidden := m.folder == s.autoFolder || overrides.contains ⟨m.folder, none⟩
        maps := Map.insert [] m.name m })

/-- The fold over the maps, maps/mod.rs 193-332 -/
def addMaps (s : Settings) (overrides : List OverrideSct) (folders : Map Str Folder) :
    List MapV → Run (Map Str Folder)
  | [] => .ok folders
  | m :: l => do
    let folders ← addMap s overrides folders m
    addMaps s overrides folders l

/-- `from_topsky`, maps/mod.rs 187-333 -/
def fromTopsky (s : Settings) (getColour : Str → Option Col) (conv : Loc → Option Point)
    (overrides : List OverrideSct) (defs : List MapDef) : Run (Map Str Folder) :=
  addMaps s overrides [] (defs.filterMap (buildMap s getColour conv))

end Verif.Maps
