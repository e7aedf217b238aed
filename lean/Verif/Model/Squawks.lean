import Verif.Model.Json
import Verif.Model.Settings
/-!
# `/repo/src/squawks.rs`

How `squawks.json` is read and written.  A JSON text is a value of `J`, in which a key may occur several times: `serde` refuses
that for the fields of a struct.
-/

namespace Verif.Squawks
open Verif.Json
open Verif.Colours (Colour)
open Verif.Settings (SquawkDef)

/-- `SquawksJson`, squawks.rs 29-36.  The colour of a `SquawkDef` is beside it. -/
structure SquawksJson where
  nonDiscreteColour : Colour
  nonDiscreteMessage : Str
  nonDiscrete : List Str
  squawks : List (SquawkDef × Colour)
deriving DecidableEq

/-- None of the fields occurs twice. -/
def once (keys : List Str) (o : Obj) : Bool := keys.all fun k => decide ((o.filter fun e => e.1 = k).length ≤ 1)

/-- A struct that is read from a text: a field that occurs twice is an error. -/
def struct {A B : Type} (fs : Fields A) (f : B → A) (g : A → B) : Codec B where
  to b := .obj (fs.to (f b))
  of
    | .obj o => if once fs.keys o then (fs.of o).map g else none
    | .arr l => (fs.seq l).map g
    | _ => none
  parts b := fs.parts (f b)

/-- `Range`, squawks.rs 15-19 -/
def range : Codec (Str × Str) :=
  struct (.cons c!"start" .text <| .cons c!"end" .text .nil) (fun r => (r.1, r.2, ())) fun (a, b, _) => (a, b)

/-- `SquawkDef`, squawks.rs 21-27 -/
def squawkDef : Codec (SquawkDef × Colour) :=
  struct (.cons c!"code" (.opt .text) <| .cons c!"range" (.opt range) <| .cons c!"message" .text <| .cons c!"color" .colour .nil)
    (fun d => (d.1.code, d.1.range, d.1.message, d.2, ())) fun (c, r, m, o, _) => (⟨c, r, m⟩, o)

/-- `Deserialize for SquawksJson`, squawks.rs 29-36: the names are in `PascalCase`. -/
def readJson : J → Option SquawksJson :=
  (struct (.cons c!"NonDiscreteColor" .colour <| .cons c!"NonDiscreteMessage" .text <| .cons c!"NonDiscrete" (.list .text) <|
      .cons c!"Squawks" (.list squawkDef) .nil)
    (fun s => (s.nonDiscreteColour, s.nonDiscreteMessage, s.nonDiscrete, s.squawks, ())) fun (c, m, n, s, _) => ⟨c, m, n, s⟩).of

/-- `Serialize for SquawksJson`, squawks.rs 29-36: the names are those of the fields. -/
def writeJson : SquawksJson → J :=
  (struct (.cons c!"non_discrete_color" .colour <| .cons c!"non_discrete_message" .text <| .cons c!"non_discrete" (.list .text) <|
      .cons c!"squawks" (.list squawkDef) .nil)
    (fun s => (s.nonDiscreteColour, s.nonDiscreteMessage, s.nonDiscrete, s.squawks, ())) fun (c, m, n, s, _) => ⟨c, m, n, s⟩).to

end Verif.Squawks
