import Verif.Model.Squawks
import Verif.Spec.Colours
/-!
# What a `squawks.json` says
-/

namespace Verif.Spec.Squawks
open Verif.Json (J Obj)
open Verif.Colours (Colour Denotes)
open Verif.Settings (SquawkDef)
open Verif.Squawks (SquawksJson)

/-- The object has the field `k`, once, with this value. -/
def Field (o : Obj) (k : Str) (v : J) : Prop := ∃ pre post, o = pre ++ (k, v) :: post ∧ (∀ e ∈ pre, e.1 ≠ k) ∧ ∀ e ∈ post, e.1 ≠ k

/-- The object does not have the field `k`. -/
def Absent (o : Obj) (k : Str) : Prop := ∀ e ∈ o, e.1 ≠ k

/-- A value that may be `null` -/
def Optional {A : Type} (Says : J → A → Prop) (j : J) (x : Option A) : Prop :=
  match x with
  | none => j = .null
  | some a => Says j a

/-- A field that may be missing -/
def OptionalField {A : Type} (Says : J → A → Prop) (o : Obj) (k : Str) (x : Option A) : Prop :=
  Absent o k ∧ x = none ∨ ∃ j, Field o k j ∧ Optional Says j x

inductive SaysText : J → Str → Prop
  | intro (s : Str) : SaysText (.str s) s

inductive SaysColour : J → Colour → Prop
  | intro {s : Str} {c : Colour} : Denotes s c.r.val c.g.val c.b.val → c.a = 255 → SaysColour (.str s) c

inductive SaysEach {A : Type} (Says : J → A → Prop) : List J → List A → Prop
  | nil : SaysEach Says [] []
  | cons {j : J} {a : A} {l : List J} {as : List A} : Says j a → SaysEach Says l as → SaysEach Says (j :: l) (a :: as)

inductive SaysList {A : Type} (Says : J → A → Prop) : J → List A → Prop
  | intro {l : List J} {as : List A} : SaysEach Says l as → SaysList Says (.arr l) as

/-- The first and the last code of a range, as an object or as an array -/
inductive SaysRange : J → Str × Str → Prop
  | object {o : Obj} {a b : Str} : Field o c!"start" (.str a) → Field o c!"end" (.str b) → SaysRange (.obj o) (a, b)
  | array (a b : Str) : SaysRange (.arr [.str a, .str b]) (a, b)

/-- A definition, as an object or as an array -/
inductive SaysDef : J → SquawkDef × Colour → Prop
  | object {o : Obj} {code : Option Str} {range : Option (Str × Str)} {message : Str} {c : J} {colour : Colour} :
    OptionalField SaysText o c!"code" code → OptionalField SaysRange o c!"range" range → Field o c!"message" (.str message) →
    Field o c!"color" c → SaysColour c colour → SaysDef (.obj o) (⟨code, range, message⟩, colour)
  | array {j k : J} {code : Option Str} {range : Option (Str × Str)} {message : Str} {c : J} {colour : Colour} :
    Optional SaysText j code → Optional SaysRange k range → SaysColour c colour →
    SaysDef (.arr [j, k, .str message, c]) (⟨code, range, message⟩, colour)

/-- The whole file, as an object or as an array -/
inductive Says : J → SquawksJson → Prop
  | object {o : Obj} {c n s : J} {x : SquawksJson} : Field o c!"NonDiscreteColor" c → SaysColour c x.nonDiscreteColour →
    Field o c!"NonDiscreteMessage" (.str x.nonDiscreteMessage) → Field o c!"NonDiscrete" n → SaysList SaysText n x.nonDiscrete →
    Field o c!"Squawks" s → SaysList SaysDef s x.squawks → Says (.obj o) x
  | array {c n s : J} {x : SquawksJson} : SaysColour c x.nonDiscreteColour → SaysList SaysText n x.nonDiscrete →
    SaysList SaysDef s x.squawks → Says (.arr [c, .str x.nonDiscreteMessage, n, s]) x

end Verif.Spec.Squawks
