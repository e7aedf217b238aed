import Verif.Spec.Json
import Verif.Model.Overlays
/-!
# Overlays: a fragment of Jsonnet

Jsonnet is not part of this code; what is said about it here is what its documentation says about `+`: the fields of the
right object replace those of the left one, except that `k+: v` adds `v` to the field of the left object.  The fragment is
that of objects with constant fields, like `/repo/fixtures/overlay.jsonnet`: no `self`, `super` or `$`, no functions.
-/

namespace Verif.Spec.Jsonnet
open Verif.Json
open Verif.PrfPaths (Path)
open Verif.Display (F32Ops)

/-- A document: a JSON value, or an object with fields `k: d` (`false`) and `k+: d` (`true`). -/
inductive Doc where
  | value (j : J)
  | object (fs : List (Str × Bool × Doc))

/- What a document is worth alone. -/
mutual
def Doc.json : Doc → J
  | .value j => j
  | .object fs => .obj (jsonFields fs)
def jsonFields : List (Str × Bool × Doc) → Obj
  | [] => []
  | (k, _, d) :: fs => (k, d.json) :: jsonFields fs
end

/- The sum of a JSON value and a document: arrays are joined, the fields of an object are replaced or added to.  Sums of
other values are not described (`none`). -/
mutual
def plus : J → Doc → Option J
  | .obj o, .object fs => (plusFields o fs).map .obj
  | .arr l, .value (.arr l') => some (.arr (l ++ l'))
  | _, _ => none
def plusFields : Obj → List (Str × Bool × Doc) → Option Obj
  | o, [] => some o
  | o, (k, false, d) :: fs => plusFields (Map.insert o k d.json) fs
  | o, (k, true, d) :: fs =>
    match Map.get? o k with
    | none => plusFields (Map.insert o k d.json) fs
    | some j => (plus j d).bind fun v => plusFields (Map.insert o k v) fs
end

/- No field of an object is given twice. -/
mutual
def Doc.Proper : Doc → Prop
  | .value _ => True
  | .object fs => (fs.map (·.1)).Nodup ∧ ProperFields fs
def ProperFields : List (Str × Bool × Doc) → Prop
  | [] => True
  | (_, _, d) :: fs => d.Proper ∧ ProperFields fs
end

/-- The files at the paths of the overlays contain these documents, and evaluating an adaptation with them gives the sum of
all. -/
def Evaluates {F G : Type} [DecidableEq F] [F32Ops G] (env : Adaptation.Env F G) (overlays : List Path) (docs : List Doc) : Prop :=
  (∀ d ∈ docs, d.Proper) ∧ overlays.length = docs.length ∧
    ∀ j r, docs.foldlM plus j = some r → env.evaluate j overlays = some r

/-! ## Places in a document -/

/-- The value at a path of field names -/
def lookup : J → List Str → Option J
  | j, [] => some j
  | .obj o, k :: ks => (Map.get? o k).bind fun j => lookup j ks
  | _, _ :: _ => none

/-- The document says something about the value at this path, or about a value that contains it. -/
inductive Touches : Doc → List Str → Prop
  | all (d) : Touches d []
  | value (j ks) : Touches (.value j) ks
  | replace {fs k d} (ks) : (k, false, d) ∈ fs → Touches (.object fs) (k :: ks)
  | add {fs k d ks} : (k, true, d) ∈ fs → Touches d ks → Touches (.object fs) (k :: ks)

/-- The document sets the value at this path. -/
inductive Sets : Doc → List Str → J → Prop
  | replace {fs k d ks v} : (k, false, d) ∈ fs → lookup d.json ks = some v → Sets (.object fs) (k :: ks) v
  | add {fs k d ks v} : (k, true, d) ∈ fs → Sets d ks v → Sets (.object fs) (k :: ks) v

/-! ## Places in an adaptation -/

/-- The field `k` of a struct, how it is written, and how it is got from the fields -/
inductive HasField : {A B : Type} → Fields A → Str → Codec B → (A → B) → Prop
  | here {A B : Type} (k : Str) (c : Codec A) (fs : Fields B) : HasField (.cons k c fs) k c Prod.fst
  | there {A B C : Type} {k k' : Str} {c : Codec C} {c' : Codec A} {fs : Fields B} {get : B → C} :
    k ≠ k' → HasField fs k c get → HasField (.cons k' c' fs) k c fun p => get p.2

/-- A place in the values of a struct: the path to it, how what is there is written, and what is there (`none` if nothing is).
From a struct one goes to its fields, from a map to its entries. -/
inductive Place {R S : Type} (root : Fields S) (fields : R → S) : {A : Type} → List Str → Codec A → (R → Option A) → Prop
  | top {A : Type} {k : Str} {c : Codec A} {proj : S → A} : HasField root k c proj →
      Place root fields [k] c fun r => some (proj (fields r))
  | field {A B C : Type} {path : List Str} {fs : Fields A} {f : B → A} {g : A → B} {get : R → Option B} {k : Str} {c : Codec C}
      {proj : A → C} : Place root fields path (fs.struct f g) get → (∀ x, f (g x) = x) → HasField fs k c proj →
      Place root fields (path ++ [k]) c fun r => (get r).map fun b => proj (f b)
  | entry {A : Type} {path : List Str} {c : Codec A} {get : R → Option (Map Str A)} (k : Str) :
      Place root fields path (Codec.map c) get →
      Place root fields (path ++ [k]) c fun r => (get r).bind fun m => Map.get? m k

end Verif.Spec.Jsonnet
