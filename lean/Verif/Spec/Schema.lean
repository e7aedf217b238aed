import Verif.Model.Json
/-!
# The shape of an adaptation as JSON

What somebody who writes an overlay, or who reads the JSON of an adaptation with another program, has to know: the names of the
fields, and what is in them.  This file does not refer to how the model writes the values.
-/

namespace Verif.Spec.Schema
open Verif.Json (J Obj)

/-- The shape of a JSON value -/
inductive Shape where
  | text
  | flag
  | null
  /-- an integer `lo ≤ n < hi` -/
  | integer (lo hi : Int)
  /-- a number, or `null` instead of one that is not finite -/
  | number
  /-- `#rrggbb` -/
  | colour
  | optional (s : Shape)
  /-- a field that means `d` if it is missing -/
  | defaulted (s : Shape) (d : J)
  | array (s : Shape)
  | tuple (l : List Shape)
  /-- an object with any keys -/
  | map (s : Shape)
  /-- an object whose keys are decimal numbers -/
  | numbered (s : Shape)
  /-- an object with these keys -/
  | record (fs : List (Str × Shape))
  /-- one of these names, alone or as the only key of an object with more data -/
  | variant (names : List Str) (tagged : List (Str × Shape))

open Shape

/-- One of the digits of a colour -/
def hexDigits : Str := c!"0123456789abcdef"

/- The value has this shape. -/
mutual
inductive Fits : Shape → J → Prop
  | text (s : Str) : Fits .text (.str s)
  | flag (b : Bool) : Fits .flag (.bool b)
  | null : Fits .null .null
  | integer (lo hi n : Int) : Fits (.integer lo hi) (.num n)
  | number (q : Rat) : Fits .number (.num q)
  | notFinite : Fits .number .null
  | colour {s : Str} : s.length = 6 → (∀ c ∈ s, c ∈ hexDigits) → Fits .colour (.str ('#' :: s))
  | absent {s : Shape} : Fits (.optional s) .null
  | present {s : Shape} {j : J} : Fits s j → Fits (.optional s) j
  | defaulted {s : Shape} {d j : J} : Fits s j → Fits (.defaulted s d) j
  | array {s : Shape} {l : List J} : (∀ j ∈ l, Fits s j) → Fits (.array s) (.arr l)
  | tuple {ss : List Shape} {l : List J} : FitsAll ss l → Fits (.tuple ss) (.arr l)
  | map {s : Shape} {o : Obj} : (∀ e ∈ o, Fits s e.2) → Fits (.map s) (.obj o)
  | numbered {s : Shape} {o : Obj} : (∀ e ∈ o, e.1 ≠ [] ∧ ∀ c ∈ e.1, isAsciiDigit c = true) → (∀ e ∈ o, Fits s e.2) →
    Fits (.numbered s) (.obj o)
  | record {fs : List (Str × Shape)} {o : Obj} : FitsRecord fs o → Fits (.record fs) (.obj o)
  | plain {names : List Str} {tagged : List (Str × Shape)} {s : Str} : s ∈ names → Fits (.variant names tagged) (.str s)
  | tagged {names : List Str} {tagged : List (Str × Shape)} {k : Str} {s : Shape} {j : J} :
    (k, s) ∈ tagged → Fits s j → Fits (.variant names tagged) (.obj [(k, j)])
inductive FitsAll : List Shape → List J → Prop
  | nil : FitsAll [] []
  | cons {s : Shape} {ss : List Shape} {j : J} {l : List J} : Fits s j → FitsAll ss l → FitsAll (s :: ss) (j :: l)
inductive FitsRecord : List (Str × Shape) → Obj → Prop
  | nil : FitsRecord [] []
  | cons {k : Str} {s : Shape} {fs : List (Str × Shape)} {j : J} {o : Obj} : Fits s j → FitsRecord fs o →
    FitsRecord ((k, s) :: fs) ((k, j) :: o)
end

/-! ## What is accepted -/

/-- One of the digits of a colour that is read -/
def anyHexDigits : Str := c!"0123456789abcdefABCDEF"

/-- What it means that a field of this shape is missing -/
def Shape.leftOut : Shape → Option J
  | .optional _ => some .null
  | .defaulted _ d => some d
  | _ => none

/-- What it means that an array that is read as a record ends before a field of this shape -/
def Shape.ended : Shape → Option J
  | .defaulted _ d => some d
  | _ => none

/- The value can be read as one of this shape: fields that are not known are ignored, some fields can be left out, a
record can also be given as the array of its fields, and a name alone as the only key of an object with `null`. -/
mutual
inductive Accepts : Shape → J → Prop
  | text (s : Str) : Accepts .text (.str s)
  | flag (b : Bool) : Accepts .flag (.bool b)
  | null : Accepts .null .null
  | integer {lo hi n : Int} : lo ≤ n → n < hi → Accepts (.integer lo hi) (.num n)
  | number (q : Rat) : Accepts .number (.num q)
  | colour {s : Str} : s.length = 6 → (∀ c ∈ s, c ∈ anyHexDigits) → Accepts .colour (.str ('#' :: s))
  | absent {s : Shape} : Accepts (.optional s) .null
  | present {s : Shape} {j : J} : Accepts s j → Accepts (.optional s) j
  | defaulted {s : Shape} {d j : J} : Accepts s j → Accepts (.defaulted s d) j
  | array {s : Shape} {l : List J} : (∀ j ∈ l, Accepts s j) → Accepts (.array s) (.arr l)
  | tuple {ss : List Shape} {l : List J} : AcceptsAll ss l → Accepts (.tuple ss) (.arr l)
  | map {s : Shape} {o : Obj} : (∀ e ∈ o, Accepts s e.2) → Accepts (.map s) (.obj o)
  | numbered {s : Shape} {o : Obj} : (∀ e ∈ o, ∃ n, n < 2 ^ 64 ∧ e.1 = showNat n) → (∀ e ∈ o, Accepts s e.2) →
    Accepts (.numbered s) (.obj o)
  | record {fs : List (Str × Shape)} {o : Obj} : AcceptsRecord fs o → Accepts (.record fs) (.obj o)
  | sequence {fs : List (Str × Shape)} {l : List J} : AcceptsSequence fs l → Accepts (.record fs) (.arr l)
  | plain {names : List Str} {tagged : List (Str × Shape)} {s : Str} : s ∈ names → Accepts (.variant names tagged) (.str s)
  | plainNull {names : List Str} {tagged : List (Str × Shape)} {s : Str} : s ∈ names →
    Accepts (.variant names tagged) (.obj [(s, .null)])
  | tagged {names : List Str} {tagged : List (Str × Shape)} {k : Str} {s : Shape} {j : J} :
    (k, s) ∈ tagged → Accepts s j → Accepts (.variant names tagged) (.obj [(k, j)])
inductive AcceptsAll : List Shape → List J → Prop
  | nil : AcceptsAll [] []
  | cons {s : Shape} {ss : List Shape} {j : J} {l : List J} : Accepts s j → AcceptsAll ss l → AcceptsAll (s :: ss) (j :: l)
inductive AcceptsRecord : List (Str × Shape) → Obj → Prop
  | nil (o : Obj) : AcceptsRecord [] o
  | found {k : Str} {s : Shape} {fs : List (Str × Shape)} {j : J} {o : Obj} : Map.get? o k = some j → Accepts s j →
    AcceptsRecord fs o → AcceptsRecord ((k, s) :: fs) o
  | missing {k : Str} {s : Shape} {fs : List (Str × Shape)} {o : Obj} : Map.get? o k = none → s.leftOut.isSome = true → AcceptsRecord fs o →
    AcceptsRecord ((k, s) :: fs) o
inductive AcceptsSequence : List (Str × Shape) → List J → Prop
  | nil : AcceptsSequence [] []
  | cons {k : Str} {s : Shape} {fs : List (Str × Shape)} {j : J} {l : List J} : Accepts s j → AcceptsSequence fs l →
    AcceptsSequence ((k, s) :: fs) (j :: l)
  | ended {k : Str} {s : Shape} {fs : List (Str × Shape)} : s.ended.isSome = true → AcceptsSequence fs [] → AcceptsSequence ((k, s) :: fs) []
end

/- The second value says the same as the first one, but possibly with the fields that were left out, without the fields that are
not known, and without arrays that stand for records. -/
mutual
inductive Completes : Shape → J → J → Prop
  | same (s : Shape) (j : J) : Completes s j j
  | present {s : Shape} {j j' : J} : Completes s j j' → Completes (.optional s) j j'
  | defaulted {s : Shape} {d j j' : J} : Completes s j j' → Completes (.defaulted s d) j j'
  | array {s : Shape} {l l' : List J} : CompletesEach s l l' → Completes (.array s) (.arr l) (.arr l')
  | tuple {ss : List Shape} {l l' : List J} : CompletesAll ss l l' → Completes (.tuple ss) (.arr l) (.arr l')
  | map {s : Shape} {o o' : Obj} : CompletesEntries s o o' → Completes (.map s) (.obj o) (.obj o')
  | numbered {s : Shape} {o o' : Obj} : CompletesEntries s o o' → Completes (.numbered s) (.obj o) (.obj o')
  | record {fs : List (Str × Shape)} {o o' : Obj} : CompletesRecord fs o o' → Completes (.record fs) (.obj o) (.obj o')
  | sequence {fs : List (Str × Shape)} {l : List J} {o' : Obj} : CompletesSequence fs l o' →
    Completes (.record fs) (.arr l) (.obj o')
  | plainNull {names : List Str} {tagged : List (Str × Shape)} {s : Str} : s ∈ names →
    Completes (.variant names tagged) (.obj [(s, .null)]) (.str s)
  | tagged {names : List Str} {tagged : List (Str × Shape)} {k : Str} {s : Shape} {j j' : J} :
    (k, s) ∈ tagged → Completes s j j' → Completes (.variant names tagged) (.obj [(k, j)]) (.obj [(k, j')])
inductive CompletesEach : Shape → List J → List J → Prop
  | nil (s : Shape) : CompletesEach s [] []
  | cons {s : Shape} {j j' : J} {l l' : List J} : Completes s j j' → CompletesEach s l l' → CompletesEach s (j :: l) (j' :: l')
inductive CompletesAll : List Shape → List J → List J → Prop
  | nil : CompletesAll [] [] []
  | cons {s : Shape} {ss : List Shape} {j j' : J} {l l' : List J} : Completes s j j' → CompletesAll ss l l' →
    CompletesAll (s :: ss) (j :: l) (j' :: l')
inductive CompletesEntries : Shape → Obj → Obj → Prop
  | nil (s : Shape) : CompletesEntries s [] []
  | cons {s : Shape} {k : Str} {j j' : J} {o o' : Obj} : Completes s j j' → CompletesEntries s o o' →
    CompletesEntries s ((k, j) :: o) ((k, j') :: o')
inductive CompletesRecord : List (Str × Shape) → Obj → Obj → Prop
  | nil (o o' : Obj) : CompletesRecord [] o o'
  | found {k : Str} {s : Shape} {fs : List (Str × Shape)} {j j' : J} {o o' : Obj} : Map.get? o k = some j →
    Map.get? o' k = some j' → Completes s j j' → CompletesRecord fs o o' → CompletesRecord ((k, s) :: fs) o o'
  | missing {k : Str} {s : Shape} {fs : List (Str × Shape)} {d : J} {o o' : Obj} : Map.get? o k = none → s.leftOut = some d →
    Map.get? o' k = some d → CompletesRecord fs o o' → CompletesRecord ((k, s) :: fs) o o'
  | neither {k : Str} {s : Shape} {fs : List (Str × Shape)} {o o' : Obj} : Map.get? o k = none → Map.get? o' k = none →
    CompletesRecord fs o o' → CompletesRecord ((k, s) :: fs) o o'
inductive CompletesSequence : List (Str × Shape) → List J → Obj → Prop
  | nil (o' : Obj) : CompletesSequence [] [] o'
  | cons {k : Str} {s : Shape} {fs : List (Str × Shape)} {j j' : J} {l : List J} {o' : Obj} : Completes s j j' →
    Map.get? o' k = some j' → CompletesSequence fs l o' → CompletesSequence ((k, s) :: fs) (j :: l) o'
  | ended {k : Str} {s : Shape} {fs : List (Str × Shape)} {d : J} {o' : Obj} : s.ended = some d → Map.get? o' k = some d →
    CompletesSequence fs [] o' → CompletesSequence ((k, s) :: fs) [] o'
end

/-! ## Kinds of integers -/

def u8 : Shape := integer 0 (2 ^ 8)
def u32 : Shape := integer 0 (2 ^ 32)
def usize : Shape := integer 0 (2 ^ 64)
def i32 : Shape := integer (-2 ^ 31) (2 ^ 31)
def i64 : Shape := integer (-2 ^ 63) (2 ^ 63)

/-! ## Coordinates and locations -/

def point : Shape := record [(c!"x", number), (c!"y", number)]
def lines : Shape := array (array point)
def polygon : Shape := record [(c!"exterior", array point), (c!"interiors", array (array point))]

def fix : Shape := record [(c!"designator", text), (c!"coordinate", point)]
def navaid : Shape := record [(c!"designator", text), (c!"frequency", text), (c!"coordinate", point)]

def runway : Shape := record [
  (c!"designators", tuple [text, text]),
  (c!"headings", tuple [u32, u32]),
  (c!"location", tuple [point, point]),
  (c!"aerodrome", text)]

def airport : Shape := record [
  (c!"designator", text),
  (c!"coordinate", point),
  (c!"name", optional text),
  (c!"country", optional text),
  (c!"runways", array runway)]

def procedure : Shape := record [
  (c!"name", text),
  (c!"airport", text),
  (c!"runway", optional text),
  (c!"waypoints", array fix)]

def airwayEdge : Shape := record [
  (c!"to", usize),
  (c!"valid_direction", flag),
  (c!"minimum_level", optional u32),
  (c!"maximum_level", optional u32),
  (c!"airway_type", variant [c!"High", c!"Low", c!"Both", c!"Unknown"] [])]

def airways : Shape := record [
  (c!"fixes", array (record [(c!"position", point), (c!"edges", numbered (array airwayEdge))])),
  (c!"fix_id_by_name", map (array usize)),
  (c!"fix_name_by_id", array text),
  (c!"airway_id_by_name", map usize),
  (c!"airway_name_by_id", array text)]

def locations : Shape := record [
  (c!"fixes", map (array fix)),
  (c!"vors", map (array navaid)),
  (c!"ndbs", map (array navaid)),
  (c!"airports", map airport),
  (c!"airways", airways),
  (c!"sids", map (map (array procedure))),
  (c!"stars", map (map (array procedure)))]

/-! ## Positions, sectors and constraints -/

def position : Shape := record [
  (c!"id", text),
  (c!"name", text),
  (c!"frequency", text),
  (c!"prefix", text),
  (c!"suffix", text),
  (c!"visibility_points", array point)]

def volume : Shape := record [
  (c!"id", text),
  (c!"lower_level", u32),
  (c!"upper_level", u32),
  (c!"lateral_border", polygon),
  (c!"private", null)]

def runwayIdentifier : Shape := record [(c!"icao", text), (c!"designator", text)]

def sector : Shape := record [
  (c!"id", text),
  (c!"position_priority", array text),
  (c!"runway_filter", array (array runwayIdentifier)),
  (c!"volumes", array text),
  (c!"departure_aerodromes", array text),
  (c!"arrival_aerodromes", array text)]

def timing : Shape := record [
  (c!"act_time", optional number),
  (c!"abi_time", optional number),
  (c!"rev_time", optional number)]

def constraint : Shape := record [
  (c!"previous_fix", optional text),
  (c!"departure_runway", optional text),
  (c!"subsequent_fix", optional text),
  (c!"arrival_runway", optional text),
  (c!"fix", optional text),
  (c!"exit_sector", text),
  (c!"entry_sector", text),
  (c!"climb_level", optional u32),
  (c!"descent_level", optional u32),
  (c!"description", text),
  (c!"coord_timing", optional timing)]

/-! ## Maps -/

def activeIds : Shape := record [
  (c!"own", optional (array text)),
  (c!"own_excludes", optional (array text)),
  (c!"online", optional (array text)),
  (c!"online_excludes", optional (array text))]

def activeRunways : Shape := record [
  (c!"arrival", optional (array runwayIdentifier)),
  (c!"arrival_excludes", optional (array runwayIdentifier)),
  (c!"departure", optional (array runwayIdentifier)),
  (c!"departure_excludes", optional (array runwayIdentifier))]

def activeAreas : Shape := record [(c!"areas", array text), (c!"area_excludes", optional (array text))]

def active : Shape := variant [c!"True", c!"Schedule"] [
  (c!"Aup", array text),
  (c!"Notam", tuple [text, array text]),
  (c!"Area", activeAreas),
  (c!"Id", activeIds),
  (c!"Callsign", activeIds),
  (c!"Runway", activeRunways),
  (c!"Map", tuple [variant [c!"Same", c!"Opposite"] [], text, text])]

def alignment : Shape := record [
  (c!"horizontal", variant [c!"Left", c!"Center", c!"Right"] []),
  (c!"vertical", variant [c!"Top", c!"Center", c!"Bottom"] [])]

def lineStyle : Shape := record [(c!"width", i32), (c!"style", text)]

def label : Shape := record [(c!"coordinate", point), (c!"alignment", alignment), (c!"text", text)]

def symbol : Shape := record [
  (c!"name", text),
  (c!"coordinate", point),
  (c!"label", optional text),
  (c!"label_alignment", alignment),
  (c!"label_offset", tuple [number, number])]

def mapGroup : Shape := record [
  (c!"colour", colour),
  (c!"font_size", number),
  (c!"layer", number),
  (c!"asr_data", optional (array text)),
  (c!"zoom", optional number),
  (c!"lines", lines),
  (c!"labels", array label),
  (c!"symbols", array symbol),
  (c!"polygons", array polygon),
  (c!"line_style", lineStyle)]

def mapV : Shape := record [
  (c!"name", text),
  (c!"folder", text),
  (c!"map_groups", array mapGroup),
  (c!"hidden", flag),
  (c!"active", array (array active))]

def folder : Shape := record [(c!"name", text), (c!"hidden", flag), (c!"maps", map mapV)]

/-! ## Symbols and colours -/

def pair : Shape := tuple [number, number]

def symbolRule : Shape := variant [] [
  (c!"Move", pair),
  (c!"Line", pair),
  (c!"Pixel", pair),
  (c!"Arc", tuple [pair, number, i64, i64]),
  (c!"EllipticArc", tuple [pair, number, number, i64, i64]),
  (c!"FilledArc", tuple [pair, number, i64, i64]),
  (c!"FilledEllipticArc", tuple [pair, number, number, i64, i64]),
  (c!"Polygon", array pair)]

def symbolRules : Shape := array symbolRule

def symbols : Shape := record [
  (c!"history_dot", symbolRules),
  (c!"fix", symbolRules),
  (c!"ndb", symbolRules),
  (c!"vor", symbolRules),
  (c!"airport", symbolRules),
  (c!"primary", symbolRules),
  (c!"coasted", symbolRules),
  (c!"uncontrolled", symbolRules),
  (c!"controlled", symbolRules),
  (c!"other", map symbolRules)]

/-- An object of colours -/
def coloursOf (names : List Str) : Shape := record (names.map (·, colour))

def colours : Shape := record [
  (c!"track", coloursOf [c!"assumed", c!"advanced", c!"concerned", c!"unconcerned", c!"flight_leg", c!"predicted_alert",
    c!"current_alert", c!"reaction", c!"cleared", c!"vfr"]),
  (c!"sector", coloursOf [c!"active_background", c!"inactive_background"]),
  (c!"map", coloursOf [c!"fix_symbol", c!"fix_name", c!"airport_symbol", c!"airport_name", c!"ndb_symbol", c!"ndb_name",
    c!"ndb_frequency", c!"vor_symbol", c!"vor_name", c!"vor_frequency", c!"low_airway_line", c!"low_airway_name",
    c!"high_airway_line", c!"high_airway_name", c!"sid", c!"star", c!"artcc_boundary", c!"artcc_low_boundary",
    c!"artcc_high_boundary", c!"geo", c!"runway_centreline", c!"runway_extended_centreline", c!"runway_name", c!"free_text"]),
  (c!"ui", coloursOf [c!"foreground", c!"background", c!"armed", c!"window_title_background_selected", c!"text_input",
    c!"warning", c!"alert"]),
  (c!"other", map colour)]

/-! ## Settings -/

def lineSettings : Shape := record [
  (c!"runway_centreline", lineStyle),
  (c!"geo", lineStyle),
  (c!"sid", lineStyle),
  (c!"star", lineStyle),
  (c!"high_airways", lineStyle),
  (c!"low_airways", lineStyle),
  (c!"artcc_low", lineStyle),
  (c!"artcc", lineStyle),
  (c!"artcc_high", lineStyle)]

def labelSettings : Shape := record [
  (c!"vor_alignment", alignment),
  (c!"vor_font_size", number),
  (c!"ndb_alignment", alignment),
  (c!"ndb_font_size", number),
  (c!"fix_alignment", alignment),
  (c!"fix_font_size", number),
  (c!"airport_alignment", alignment),
  (c!"airport_font_size", number),
  (c!"runway_alignment", alignment),
  (c!"runway_font_size", number)]

def mapsSettings : Shape := record [
  (c!"font", optional text),
  (c!"font_size", number),
  (c!"auto_folder", text),
  (c!"layer", number),
  (c!"label_offset", pair),
  (c!"line_styles", lineSettings),
  (c!"labels", labelSettings)]

def coordination : Shape := record [
  (c!"act_time", number),
  (c!"abi_time", number),
  (c!"rev_time", number),
  (c!"lam_timeout", number),
  (c!"fir_overrides", defaulted (map timing) (.obj []))]

def settings : Shape := record [
  (c!"maps", mapsSettings),
  (c!"track", record [
    (c!"vector", record [(c!"enabled", flag), (c!"length", number), (c!"options", array number)]),
    (c!"history_dots", record [(c!"enabled", flag), (c!"count", u32), (c!"options", array u32)])]),
  (c!"coopans", flag),
  (c!"ssr", record [(c!"special_use_codes", map text)]),
  (c!"asr_files", array text),
  (c!"coordination", coordination)]

/-! ## The rest -/

def aircraft : Shape := record [
  (c!"designator", text),
  (c!"wtc", variant [c!"LIGHT", c!"MEDIUM", c!"HEAVY", c!"SUPER", c!"UNKNOWN"] []),
  (c!"aircrafttype", variant [c!"LANDPLANE", c!"SEAPLANE", c!"AMPHIBIAN", c!"GYROCOPTER", c!"HELICOPTER", c!"TILTROTOR",
    c!"UNKNOWN"] []),
  (c!"num_engines", u8),
  (c!"enginetype", variant [c!"JET", c!"TURBOPROP", c!"PISTON", c!"ELECTRIC", c!"ROCKET", c!"UNKNOWN"] []),
  (c!"manufacturer", text),
  (c!"name", text)]

def airline : Shape := record [(c!"designator", text), (c!"name", text), (c!"callsign", text), (c!"country", text)]

def coloured : Shape := record [(c!"colour", colour), (c!"lines", lines)]

def sctItems : Shape := record [
  (c!"sids", map (array coloured)),
  (c!"stars", map (array coloured)),
  (c!"high_airways", map (array lines)),
  (c!"low_airways", map (array lines)),
  (c!"artccs_high", map (array coloured)),
  (c!"artccs", map (array coloured)),
  (c!"artccs_low", map (array coloured)),
  (c!"geo", map (array coloured)),
  (c!"regions", map (array (record [(c!"name", text), (c!"colour_name", text), (c!"polygon", array point)]))),
  (c!"labels", map (array (record [(c!"name", text),
    (c!"coordinate", variant [] [(c!"Fix", text), (c!"Coordinate", point)]), (c!"colour_name", text)])))]

/-- The JSON of an adaptation -/
def adaptation : Shape := record [
  (c!"name", text),
  (c!"locations", locations),
  (c!"positions", map position),
  (c!"volumes", map volume),
  (c!"sectors", map sector),
  (c!"departure_constraints", map constraint),
  (c!"destination_constraints", map constraint),
  (c!"maps", map folder),
  (c!"symbols", symbols),
  (c!"colours", colours),
  (c!"line_styles", map (optional (array (record [(c!"length", number), (c!"gap", number)])))),
  (c!"settings", settings),
  (c!"aircraft", map aircraft),
  (c!"airlines", map airline),
  (c!"sct_items", sctItems)]

end Verif.Spec.Schema
