import Verif.Base.Lit
import Verif.Base.Map
import Verif.Base.Radix
import Verif.Base.ShowNat
import Verif.Model.Colours
import Verif.Model.PrfPaths
/-!
# JSON values, and how `serde_json` writes and reads the types of an adaptation

Models what `serde`'s derived code and `serde_json` do for the kinds of types that occur in `Adaptation`
(/repo/src/adaptation/mod.rs 283 and 306), and `Serialize`/`Deserialize for Colour`, colours.rs 84-110.

* A JSON value is modelled, not its text.  The order of the fields of an object is kept by the model; neither `serde` nor
  a `HashMap` depends on it.
* A number is a rational number: `1` and `1.0` are the same here, although `serde` refuses the latter for an integer type.  A
  floating point number that is not finite is written as `null`.
* The keys of an object are distinct.
-/

namespace Verif.Json
open Verif.Colours (Colour)

/-- `serde_json::Value` -/
inductive J where
  | null
  | bool (b : Bool)
  | num (q : Rat)
  | str (s : Str)
  | arr (l : List J)
  | obj (o : List (Str × J))

/-- The fields of an object -/
abbrev Obj := List (Str × J)

/-- The floating point numbers as JSON: the value of the text of a finite number, and the number that is read from a text with this
value.  The text is the shortest one of which this number is the nearest, but `serde_json` does not always read the nearest number
(its feature `float_roundtrip` is off, Cargo.toml): see `Model/JsonFloat`. -/
class JsonFloat (A : Type) where
  write : A → Option Rat
  read : Rat → A

/-- Different finite numbers are written differently. -/
class LawfulJsonFloat (A : Type) [JsonFloat A] : Prop where
  inj : ∀ (x y : A) (q : Rat), JsonFloat.write x = some q → JsonFloat.write y = some q → x = y

/-- The numbers, colours and paths in a value: a floating point number by the value that is written (`none` if it
is not finite) and the value of the number that is read from it, an integer with the bounds of its type. -/
inductive Part where
  | float (q back : Option Rat)
  | int (lo hi n : Int)
  | colour (c : Colour)
  | path (p : PrfPaths.Path)

/-- How the values of a type are written and read, and which numbers, colours and paths are in them.  `missing` is what a
field of this type is if it is missing (`None` for an `Option`, the default for `#[serde(default)]`), `atEnd` what it is if an
array that is read as a struct ends before it (the default for `#[serde(default)]`). -/
structure Codec (A : Type) where
  to : A → J
  of : J → Option A
  missing : Option A := none
  atEnd : Option A := none
  parts : A → List Part

namespace Codec
variable {A B C D E : Type}

/-- `String`, `Arc<str>` -/
def text : Codec Str where
  to s := .str s
  of
    | .str s => some s
    | _ => none
  parts _ := []

/-- `bool` -/
def bool : Codec Bool where
  to b := .bool b
  of
    | .bool b => some b
    | _ => none
  parts _ := []

/-- An integer type with the values `lo ≤ n < hi` -/
def int (lo hi : Int) : Codec Int where
  to n := .num n
  of
    | .num q => if q.den = 1 ∧ lo ≤ q.num ∧ q.num < hi then some q.num else none
    | _ => none
  parts n := [.int lo hi n]

/-- An unsigned integer type with the values `n < hi` -/
def nat (hi : Nat) : Codec Nat where
  to n := .num n
  of
    | .num q => if q.den = 1 ∧ 0 ≤ q.num ∧ q.num < hi then some q.num.toNat else none
    | _ => none
  parts n := [.int 0 hi n]

def u8 : Codec Nat := nat (2 ^ 8)
def u32 : Codec Nat := nat (2 ^ 32)
def usize : Codec Nat := nat (2 ^ 64)
def i32 : Codec Int := int (-2 ^ 31) (2 ^ 31)
def i64 : Codec Int := int (-2 ^ 63) (2 ^ 63)

/-- `f32`, `f64`, and `uom`'s `Time`, which is written as its seconds -/
def float [JsonFloat A] : Codec A where
  to x := match JsonFloat.write x with
    | some q => .num q
    | none => .null
  of
    | .num q => some (JsonFloat.read q)
    | _ => none
  parts x := [.float (JsonFloat.write x) ((JsonFloat.write x).bind fun q => JsonFloat.write (JsonFloat.read (A := A) q))]

/-- `Option` -/
def opt (c : Codec A) : Codec (Option A) where
  to
    | some a => c.to a
    | none => .null
  of
    | .null => some none
    | j => (c.of j).map some
  missing := some none
  parts a := a.toList.flatMap c.parts

/-- `Vec`, `HashSet`, `LineString`, `MultiLineString` -/
def list (c : Codec A) : Codec (List A) where
  to l := .arr (l.map c.to)
  of
    | .arr l => l.mapM c.of
    | _ => none
  parts l := l.flatMap c.parts

/-- `HashMap<String, _>` -/
def map (c : Codec A) : Codec (Map Str A) where
  to m := .obj (m.map fun e => (e.1, c.to e.2))
  of
    | .obj o => o.mapM fun e => (c.of e.2).map fun v => (e.1, v)
    | _ => none
  parts m := m.flatMap fun e => c.parts e.2

/-- `MultiMap<String, _>` -/
def multiMap (c : Codec A) : Codec (MultiMap Str A) := map (list c)

/-- A `HashMap` whose keys are numbers, which are written as texts -/
def numMap (c : Codec A) : Codec (Map Nat A) where
  to m := .obj (m.map fun e => (showNat e.1, c.to e.2))
  of
    | .obj o => o.mapM fun e => (parseUnsigned 10 (2 ^ 64) e.1).bind fun k =>
      if showNat k = e.1 then (c.of e.2).map fun v => (k, v) else none
    | _ => none
  parts m := m.flatMap fun e => .int 0 (2 ^ 64) e.1 :: c.parts e.2

/-- A tuple of two -/
def tuple2 (c : Codec A) (d : Codec B) : Codec (A × B) where
  to p := .arr [c.to p.1, d.to p.2]
  of
    | .arr [a, b] => (c.of a).bind fun a => (d.of b).map fun b => (a, b)
    | _ => none
  parts p := c.parts p.1 ++ d.parts p.2

/-- An enumeration: the name of the variant, which is also read from `{"Name": null}` -/
def enum (all : List A) (name : A → Str) : Codec A where
  to a := .str (name a)
  of
    | .str s => all.find? fun a => name a = s
    | .obj [(s, .null)] => all.find? fun a => name a = s
    | _ => none
  parts _ := []

/-- A type that is written as another one -/
def iso (c : Codec A) (f : B → A) (g : A → B) : Codec B where
  to b := c.to (f b)
  of j := (c.of j).map g
  missing := c.missing.map g
  atEnd := c.atEnd.map g
  parts b := c.parts (f b)

/-- `#[serde(default)]` -/
def orDefault (c : Codec A) (a : A) : Codec A := { c with missing := some a, atEnd := some a }

/-- `Serialize` and `Deserialize for Colour`, colours.rs 84-110 -/
def colour : Codec Colour where
  to c := .str (Colours.serialize c)
  of
    | .str s => Colours.deserialize s
    | _ => none
  parts c := [.colour c]

/-- `PathBuf` of an absolute path -/
def path : Codec PrfPaths.Path where
  to p := .str (if p = [] then ['/'] else p.flatMap fun s => '/' :: s)
  of
    | .str s => some (PrfPaths.components s)
    | _ => none
  parts p := [.path p]

end Codec

/-! ## Structs -/

/-- A field of an object that is read as a struct.  Of several fields of the same name the first is taken; `serde` refuses
them, but neither `serde_json` nor Jsonnet writes such objects. -/
def readField {A : Type} (o : Obj) (k : Str) (c : Codec A) : Option A :=
  match Map.get? o k with
  | some j => c.of j
  | none => c.missing

/-- The fields of a struct: how they are written and read.  Other fields are ignored.  `seq` reads them from an array. -/
structure Fields (A : Type) where
  keys : List Str
  to : A → Obj
  of : Obj → Option A
  seq : List J → Option A
  parts : A → List Part

namespace Fields
variable {A B C : Type}

/-- No field -/
def nil : Fields Unit where
  keys := []
  to _ := []
  of _ := some ()
  seq
    | [] => some ()
    | _ :: _ => none
  parts _ := []

/-- One more field -/
def cons (k : Str) (c : Codec A) (fs : Fields B) : Fields (A × B) where
  keys := k :: fs.keys
  to p := (k, c.to p.1) :: fs.to p.2
  of o := (readField o k c).bind fun a => (fs.of o).map fun b => (a, b)
  seq
    | [] => c.atEnd.bind fun a => (fs.seq []).map fun b => (a, b)
    | j :: l => (c.of j).bind fun a => (fs.seq l).map fun b => (a, b)
  parts p := c.parts p.1 ++ fs.parts p.2

/-- A struct with these fields -/
def struct (fs : Fields A) (f : B → A) (g : A → B) : Codec B where
  to b := .obj (fs.to (f b))
  of
    | .obj o => (fs.of o).map g
    | .arr l => (fs.seq l).map g
    | _ => none
  parts b := fs.parts (f b)

end Fields

/-! ## Variants with fields -/

/-- A variant with fields: `{"Name": …}`; the fields are an array if there are several. -/
def variant (name : Str) (j : J) : J := .obj [(name, j)]

/-- A variant with fields is read by its name. -/
def readVariant {A : Type} (l : List (Str × (J → Option A))) : J → Option A
  | .obj [(k, j)] => (Map.get? l k).bind fun f => f j
  | _ => none

end Verif.Json
