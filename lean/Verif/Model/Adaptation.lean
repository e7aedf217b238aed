import Verif.Model.JsonText
import Verif.Model.Display
import Verif.Model.Decode
import Verif.Model.Json
import Verif.Model.Maps
import Verif.Model.SctItems
import Verif.Model.SectorIndex
import Verif.Model.Squawks
import Verif.Parse.Airway
import Verif.Parse.Ese
import Verif.Parse.Icao
/-!
# `/repo/src/adaptation/mod.rs`: an adaptation is put together

Models `Position::from_ese_positions`, `Adaptation`, `from_prf`, `rebuild_sector_index`, `find_sector`, `volumes_at` and
`volumes_near_line`; the overlays are in `Verif.Model.Overlays`.

* `F` is `f64`, `G` is `f32`.
* The files are a function from paths to bytes (`Env.read`).
* A `HashMap` is iterated over in the order that `Env.order` gives to its entries, which may be another one at every place.
* Jsonnet and the winding of polygons are parameters (`Env.evaluate`, `Env.ccw`).
-/

namespace Verif.Adaptation
open Verif.PrfPaths (Prf Path)
open Verif.Spec.Decode (Byte)
open Verif.Colours (Colour)
open Verif.Settings (SquawkDef Symbol)
open Verif.Display (F32Ops)
open Verif.Dms (DmsArith)
open Verif.Parse.Topsky (Topsky)
open Verif.Parse.SymbolRule (Close)
open Verif.Locations (Db FloatOps)

/-! ## Positions -/

/-- `Position`, mod.rs 78-86 -/
structure Position (F : Type) where
  id : Str
  name : Str
  frequency : Str
  prefix_ : Str
  suffix : Str
  visibilityPoints : List (F × F)
  deriving DecidableEq

/-- `Position::from_ese_positions`, mod.rs 88-109.  Collecting the entries into a new `HashMap` keeps them, as their keys are
unchanged and distinct. -/
def positions {F : Type} (m : Map Str (Parse.Ese.Position F)) : Map Str (Position F) :=
  m.map fun e => (e.1,
    { id := e.2.identifier
      name := e.2.name
      frequency := e.2.frequency
      prefix_ := e.2.prefix_
      suffix := e.2.suffix
      visibilityPoints := e.2.visibilityPoints.map Model.SctItems.pair })

/-! ## The parts of the files that are used -/

section
variable {F : Type}

/-- The parts of a sector file that `Locations::from_euroscope` uses -/
def sctData (s : Parse.Sct.Sct F) : Locations.SctData F where
  airports := s.airports.map fun a => ⟨a.designator, (a.coordinate.x, a.coordinate.y), a.ctrAirspace⟩
  fixes := s.fixes.map fun f => ⟨f.designator, (f.coordinate.x, f.coordinate.y)⟩
  ndbs := s.ndbs.map fun n => ⟨n.designator, n.frequency, (n.coordinate.x, n.coordinate.y)⟩
  vors := s.vors.map fun n => ⟨n.designator, n.frequency, (n.coordinate.x, n.coordinate.y)⟩
  runways := s.runways.map fun r =>
    ⟨r.designators, r.headings, ((r.location.1.x, r.location.1.y), (r.location.2.x, r.location.2.y)), r.aerodrome⟩

/-- `ese::Sector` as `Sectors::from_ese` uses it -/
def eseSector (s : EseAirspace.Sector (List (Parse.Point F))) : Sectors.EseSector (F × F) where
  id := s.id
  bottom := s.bottom
  top := s.top
  border := s.border.map fun l => l.map Model.SctItems.pair
  ownerPriority := s.ownerPriority
  departureAirports := s.departureAirports
  arrivalAirports := s.arrivalAirports
  runwayFilter := s.runwayFilter

end

/-! ## Maps -/

section
variable (F G : Type) [DecidableEq F] [F32Ops G]

/-- The types and operations of `maps::from_topsky` -/
@[reducible] def world : Maps.World where
  Loc := Parse.Sct.Loc F
  Point := F × F
  Col := Colour
  Num := G
  Offset := F × F
  Active := Parse.Topsky.Active
  LineStyle := Parse.Topsky.LineStyle
  Alignment := Parse.Symbology.Alignment
  add := F32Ops.add
  sub := F32Ops.sub
  mul := F32Ops.mul
  defaultLineStyle := ⟨1, c!"SOLID"⟩
  defaultAlignment := ⟨.center, .center⟩
  pointEq a b := decide (a = b)

abbrev Folder := @Maps.Folder (world F G)

variable {F G}

/-- `topsky::map::FontSize` -/
def fontSize (x : Parse.Topsky.FontSize G) : @Maps.FontSize (world F G) :=
  letI := world F G
  match x with
  | .exact x => .exact x
  | .add x => .add x
  | .subtract x => .subtract x
  | .multiply x => .multiply x
  | .default => .default

/-- A rule as `maps::from_topsky` uses it -/
def mapRule (r : Parse.Topsky.MapRule F G) : @Maps.MapRule (world F G) :=
  letI := world F G
  match r with
  | .folder s => .folder s
  | .colour s => .colour s
  | .asrData l => .asrData l
  | .active a => .active a
  | .andActive a => .andActive a
  | .global => .global
  | .screenSpecific => .screenSpecific
  | .hidden => .hidden
  | .layer x => .layer x
  | .symbol s => .symbol ⟨s.name, s.location, s.label.map fun l => (l.text, l.pos), none⟩
  | .zoom x => .zoom x
  | .fontSize x => .fontSize (fontSize x)
  | .lineStyle s => .lineStyle s
  | .line l => .line l
  | .text t => .text ⟨t.location, t.content, none⟩
  | .coordPoly s => .coordPoly s
  | .coordLine => .coordLine
  | .coord l => .coord l

/-- A map as `maps::from_topsky` uses it -/
def mapDef (d : Parse.Topsky.MapDef F G) : @Maps.MapDef (world F G) :=
  @Maps.MapDef.mk (world F G) d.name (d.rules.map mapRule)

/-- The locations that are converted for the rules of a map, maps/mod.rs 213-301: those of a `COORD` are converted when the
polygon or line they belong to ends. -/
def converted : List (Parse.Topsky.MapRule F G) → List (Parse.Sct.Loc F) → List (Parse.Sct.Loc F)
  | [], _ => []
  | .symbol s :: l, buffer => s.location :: converted l buffer
  | .line ls :: l, buffer => ls.flatten ++ converted l buffer
  | .text t :: l, buffer => t.location :: converted l buffer
  | .coordPoly _ :: l, buffer => buffer ++ converted l []
  | .coordLine :: l, buffer => buffer ++ converted l []
  | .coord c :: l, buffer => converted l (buffer ++ [c])
  | _ :: l, buffer => converted l buffer

variable [FloatOps F] [UnicodeTables]

/-- `maps::from_topsky`, maps/mod.rs 187-333.  `Verif.Maps.fromTopsky` models it for a conversion of locations that never
panics; the panics are modelled here, by converting beforehand what it converts. -/
def maps (s : Display.MapsSettings F G) (get : Str → Option Colour) (db : Db F) (t : Topsky F G) :
    Run (Map Str (Folder F G)) := do
  let drawn := t.maps.filter fun d => (@Maps.firstColour (world F G) get (d.rules.map mapRule)).isSome
  let _ ← (drawn.flatMap fun d => converted d.rules []).mapM fun l => db.convertLocation (Model.SctItems.location l)
  @Maps.fromTopsky (world F G) (@Maps.Settings.mk (world F G) s.fontSize s.layer s.autoFolder s.labelOffset) get
    (fun l => match db.convertLocation (Model.SctItems.location l) with
      | .ok p => p
      | .error _ => none)
    (t.overrides.map fun o => ⟨o.folder, o.name⟩) (t.maps.map mapDef)

/-- The maps if there is a TopSky, mod.rs 256-259 -/
def mapsOf (s : Display.MapsSettings F G) (get : Str → Option Colour) (db : Db F) : Option (Topsky F G) → Run (Map Str (Folder F G))
  | some t => maps s get db t
  | none => .ok []

end

/-! ## The environment -/

/-- The places where the entries of a `HashMap` are iterated over. -/
inductive Site
  | settings | sectors | groups | navdata | airports | sctColours | topskyColours | lineStyles | airways | index
  deriving DecidableEq

/-- The files that must be there. -/
inductive File
  | sct | ese | airways | symbology | airports | navdata | aircraft | airlines
  deriving DecidableEq, Repr

/-- Why no adaptation is made: a panic (or an endless loop), or an `AdaptationError` (mod.rs 111-144): the file at this path
cannot be read, or this file cannot be parsed, or the overlays cannot be applied. -/
inductive Failure
  | fault (f : Fault)
  | unreadable (p : Path)
  | invalid (f : File)
  | overlays
  deriving DecidableEq, Repr

/-- `ese::Constraint`, ese.rs 266-282: `Constraints.Constraint` is what is read from a file, where there is no timing (ese.rs
337-339). -/
structure Timed (G : Type) where
  rule : Constraints.Constraint
  timing : Option (Settings.CoordinationTiming G)

/-- The constraints of a file, none of which has a timing -/
def untimed {G : Type} (m : Map Str Constraints.Constraint) : Map Str (Timed G) := m.map fun e => (e.1, ⟨e.2, none⟩)

/-- `Adaptation`, mod.rs 172-208.  The fields of `Colours` and `Symbols` are functions of their kinds.  `index` is the
`OnceLock` of `sector_index`. -/
structure Adaptation (F G : Type) [DecidableEq F] [F32Ops G] where
  name : Str
  locations : Db F
  airways : AirwayGraph.Graph (Parse.Point F)
  positions : Map Str (Position F)
  volumes : Map Str (Sectors.Volume (SectorIndex.Border F))
  sectors : Map Str Sectors.Sector
  departureConstraints : Map Str (Timed G)
  destinationConstraints : Map Str (Timed G)
  maps : Map Str (Folder F G)
  symbols : Settings.Kind → Symbol F
  otherSymbols : Map Str (Symbol F)
  mapColours : Colours.MapElement → Colour
  roleColours : Colours.Role → Colour
  otherColours : Map Str Colour
  lineStyles : Map Str (Option (List (G × G)))
  settings : Display.Settings F G
  aircraft : Parse.Icao.AircraftMap
  airlines : Map Str Parse.Icao.Airline
  sctItems : Model.SctItems.SctItems F
  index : Option (List (SectorIndex.Entry F))

/-- What the program finds around it. -/
structure Env (F G : Type) [DecidableEq F] [F32Ops G] where
  /-- `fs_err::read` -/
  read : Path → Option (List Byte)
  /-- decoding of invalid UTF-8, see `Verif.Decode` -/
  lossy : List Byte → Str
  /-- the numbers that are in the range of `f64`; `serde_json` refuses the others -/
  fits : Rat → Bool
  /-- `str::to_uppercase` -/
  upper : Str → Str
  /-- `{:.6}` -/
  fmt : F → Str
  /-- the numbers in the default symbols -/
  int : Int → F
  /-- the numbers in the built-in line styles -/
  nat : Nat → G
  quantize : F × F → Int × Int
  dequantize : Int × Int → F × F
  /-- the first element of a `HashSet` of points -/
  choose : List (Int × Int) → Option (Int × Int)
  /-- `make_ccw_winding` -/
  ccw : List (F × F) → List (F × F)
  order : Site → {K V : Type} → List (K × V) → List (K × V)
  /-- the value of the Jsonnet document `json + (import overlay) + …`, mod.rs 285-304 -/
  evaluate : Json.J → List Path → Option Json.J

/-- `serde_json::from_slice`, mod.rs 228: the value of a JSON text; `serde_json` reads the text and what is in it at once. -/
def Env.json {F G : Type} [DecidableEq F] [F32Ops G] (env : Env F G) (bytes : List Byte) : Option Json.J :=
  JsonText.readBytes env.fits bytes

/-- `serde_json::from_slice::<SquawksJson>(…).ok()`, mod.rs 228; only the definitions are used. -/
def Env.squawks {F G : Type} [DecidableEq F] [F32Ops G] (env : Env F G) (bytes : List Byte) : Option (List SquawkDef) :=
  ((env.json bytes).bind Squawks.readJson).map fun s => s.squawks.map Prod.fst

/-! ## `from_prf` -/

section
variable {F G : Type} [F64 F] [DmsArith F] [DecidableEq F] [FloatOps F] [Close F] [F64 G] [F32Ops G] [UnicodeTables]

/-- A panic goes through. -/
def lift {A : Type} : Run A → Except Failure A
  | .ok a => .ok a
  | .error f => .error (.fault f)

/-- A file that must be there: `parse(&fs_err::read(path)?)?` -/
def required {A : Type} (env : Env F G) (f : File) (path : Run Path) (parse : Str → Run A) : Except Failure A := do
  let p ← lift path
  match env.read p with
  | none => .error (.unreadable p)
  | some bytes =>
    match parse (Decode.readToString env.lossy bytes) with
    | .ok a => .ok a
    | .error .parseError => .error (.invalid f)
    | .error f => .error (.fault f)

/-- A file as a text, if it is there -/
def text (env : Env F G) (p : Path) : Option Str := (env.read p).map (Decode.readToString env.lossy)

/-- `topsky` of `from_prf`, mod.rs 229-237, with the files of topsky/mod.rs 229-238 -/
def topsky (env : Env F G) (prf : Prf) : Except Failure (Option (Topsky F G)) := do
  let dir ← lift (PrfPaths.topskyPath prf (env.order .settings prf.settings))
  match dir with
  | none => .ok none
  | some dir =>
    match Parse.Topsky.parse env.upper (text env (PrfPaths.join dir c!"TopSkySettings.txt"))
        (text env (PrfPaths.join dir c!"TopSkySymbols.txt")) (text env (PrfPaths.join dir c!"TopSkyMaps.txt")) with
    | .ok t => .ok (some t)
    | .missing => .ok none
    | .fault .parseError => .ok none
    | .fault f => .error (.fault f)

/-- `squawks` of `from_prf`, mod.rs 225-228 -/
def squawks (env : Env F G) (prf : Prf) : Except Failure (Option (List SquawkDef)) := do
  let path ← lift (PrfPaths.squawksPath prf (env.order .settings prf.settings))
  .ok ((path.bind env.read).bind env.squawks)

/-- `Sectors::from_ese` with `polygon_from_ese`, sectors.rs 68-190.  The polygons are computed beforehand here, so that what
stops one of them stops all. -/
def sectors (env : Env F G) (ese : Parse.Ese.Ese F) :
    Run (Map Str (Sectors.Volume (SectorIndex.Border F)) × Map Str Sectors.Sector) := do
  let entries := (env.order .sectors ese.sectors).map fun e => (e.1, eseSector e.2)
  let _ ← entries.mapM fun e => Polygon.polygonFromEse env.quantize env.dequantize env.choose e.2.border
  Sectors.fromEse
    (fun e => match Polygon.polygonFromEse env.quantize env.dequantize env.choose e.border with
      | .ok p => p
      | .error _ => none)
    env.ccw (env.order .groups) entries

/-- The colours of TopSky, colours.rs 557-567 -/
def topskyColours (t : Option (Topsky F G)) : Option (Map Str Colour) :=
  t.map fun t => t.colours.map fun e => (e.1, e.2.colour)

/-- `parse_airway_txt` with the rounding of coordinates of the environment -/
def parseAirways (env : Env F G) : Str → Run (AirwayGraph.Graph (Parse.Point F)) :=
  @Parse.Airway.parseAirwayTxt F _ ⟨fun p => env.quantize (p.x, p.y)⟩

variable [LE F] [DecidableLE F]

/-- `Adaptation::from_prf`, mod.rs 211-271 -/
def fromPrf (env : Env F G) (prf : Prf) : Except Failure (Adaptation F G) := do
  let sct ← required env .sct (PrfPaths.sctPath prf) (Parse.Sct.parse (F := F))
  let ese ← required env .ese (PrfPaths.esePath prf) (Parse.Ese.parse (F := F) G)
  let airways ← required env .airways (PrfPaths.airwaysPath prf) (parseAirways env)
  let (volumes, sectors) ← lift (sectors env ese)
  let (departure, destination) := Constraints.extract ese.constraints
  let symbology ← required env .symbology (PrfPaths.symbologyPath prf) (Parse.Symbology.parse (F := F) (G := G))
  let squawks ← squawks env prf
  let topsky ← topsky env prf
  let settings ← lift (Display.Settings.fromEuroscope (F := F) symbology.items (topsky.map Topsky.settings) squawks prf)
  let itemColours : Map (Str × Str) Colour := symbology.items.map fun e => (e.1, e.2.colour)
  let mapColours := Colours.mapColour itemColours
  let other := Colours.otherColours (env.order .sctColours sct.colours)
    ((topskyColours topsky).map fun m => env.order .topskyColours m)
  let get := Colours.get other settings.coopans
  let airports ← required env .airports (PrfPaths.airportsPath prf) Parse.Icao.parseAirports
  let navdata ← required env .navdata (PrfPaths.navdataAirportsPath prf) (Parse.Icao.parseNavdataAirports (F := F))
  let locations ← lift (Locations.fromEuroscope (sctData sct) ese.sidsStars
    ((env.order .airports airports).map fun e => (e.1, ⟨e.2.name, e.2.country⟩))
    ((env.order .navdata navdata).map fun e => (e.1, ⟨e.2.designator, e.2.name, (e.2.location.x, e.2.location.y)⟩)))
  let sctItems ← lift (Model.SctItems.fromSct env.fmt (env.order .airways) sct locations get (mapColours .sid))
  let aircraft ← required env .aircraft (PrfPaths.aircraftPath prf) Parse.Icao.parseAircraft
  let airlines ← required env .airlines (PrfPaths.airlinesPath prf) Parse.Icao.parseAirlines
  let maps ← lift (mapsOf settings.maps get locations topsky)
  .ok {
    name := sct.info.name
    locations, airways
    positions := positions ese.positions
    volumes, sectors
    departureConstraints := untimed departure
    destinationConstraints := untimed destination
    maps
    symbols := Settings.symbolOf env.int symbology.symbols (topsky.map fun t => t.symbols.map fun e => (e.1, e.2.rules))
    otherSymbols := match topsky with
      | some t => t.symbols.map fun e => (e.1, e.2.rules)
      | none => []
    mapColours
    roleColours := Colours.roleColour ((topskyColours topsky).getD []) settings.coopans
    otherColours := other
    lineStyles := Settings.lineStyles env.nat env.upper
      (topsky.map fun t => (env.order .lineStyles t.lineStyles).map fun e => (e.1, e.2.dashLengths))
    settings, aircraft, airlines, sctItems
    index := some (SectorIndex.buildTree ⟨env.order .index sectors, volumes⟩) }

/-! ## The index and queries -/

/-- `rebuild_sector_index`, mod.rs 320-322 -/
def rebuild (env : Env F G) (a : Adaptation F G) : Adaptation F G :=
  { a with index := some (SectorIndex.buildTree ⟨env.order .index a.sectors, a.volumes⟩) }

/-- The index that a query uses, sector_index.rs 61-67 -/
def tree (env : Env F G) (a : Adaptation F G) : List (SectorIndex.Entry F) :=
  (SectorIndex.Adaptation.getOrBuild ⟨⟨env.order .index a.sectors, a.volumes⟩, a.index⟩).1

variable {L : Type}

/-- `find_sector`, mod.rs 326-330 -/
def findSector (env : Env F G) (q : SectorIndex.Env F L) (a : Adaptation F G) (p : F × F) (level : L) : Option Str :=
  SectorIndex.findSector q (tree env a) p level

/-- `volumes_at`, mod.rs 332-336 -/
def volumesAt (env : Env F G) (q : SectorIndex.Env F L) (a : Adaptation F G) (p : F × F) :
    List (Str × Sectors.Volume (SectorIndex.Border F)) :=
  SectorIndex.volumesAt q (tree env a) p

/-- `volumes_near_line`, mod.rs 338-343 -/
def volumesNearLine (env : Env F G) (q : SectorIndex.Env F L) (a : Adaptation F G) (b c : F × F) :
    List (Str × Sectors.Volume (SectorIndex.Border F)) :=
  SectorIndex.volumesNearLine q (tree env a) b c

end
end Verif.Adaptation
