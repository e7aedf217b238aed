import Verif.Model.Setup
import Verif.Spec.Decode
import Verif.Spec.LineEndsNames
import Verif.Spec.Prf
/-!
# Files whose line ends have been converted
-/

namespace Verif.Spec
open Verif.Spec.Decode (Byte IsUtf8 boms)
open Verif.Adaptation
open Verif.PrfPaths (Path Prf)
open Verif.Display (F32Ops)
open Verif.Dms (DmsArith)

/-- The bytes of a line end: `0A` or `0D 0A`. -/
def IsLineEndBytes (e : List Byte) : Prop := e = [0x0A] ∨ e = [0x0D, 0x0A]

/-- The same bytes, except that each line may end with `0A` in one and with `0D 0A` in the other. -/
inductive SameLineBytes : List Byte → List Byte → Prop where
  | nil : SameLineBytes [] []
  | byte {s t : List Byte} (b : Byte) (h1 : b ≠ 0x0D) (h2 : b ≠ 0x0A) (h : SameLineBytes s t) :
      SameLineBytes (b :: s) (b :: t)
  | lineEnd {s t e f : List Byte} (he : IsLineEndBytes e) (hf : IsLineEndBytes f) (h : SameLineBytes s t) :
      SameLineBytes (e ++ s) (f ++ t)

/-- The file is text in UTF-8, or does not start with a byte order mark. -/
def IsPlain (bytes : List Byte) : Prop := IsUtf8 bytes ∨ ∀ b ∈ boms, ¬ b <+: bytes

/-- The same files, with line ends converted. -/
def Converted (read read' : Path → Option (List Byte)) : Prop :=
  ∀ p, (read p = none ∧ read' p = none) ∨
    ∃ b b', read p = some b ∧ read' p = some b' ∧ SameLineBytes b b' ∧ IsPlain b

section
variable {F G : Type} [F64 F] [DmsArith F] [DecidableEq F] [F64 G] [F32Ops G] [UnicodeTables]

/-- No drawing of the sector file has a carriage return in its name. -/
def PlainDrawings (env : Env F G) (prf : Prf) : Prop :=
  ∀ p bytes x, PrfPaths.sctPath prf = .ok p → env.read p = some bytes →
    Parse.Sct.parse (F := F) (Decode.readToString env.lossy bytes) = .ok x → ∀ d ∈ drawings x, '\r' ∉ d.name

/-- The text is a profile, and no setting has a mere carriage return as its value. -/
def PlainProfile (s : Str) : Prop := ∃ ws, ws ≠ [] ∧ Prf.IsFile s ws ∧ ∀ w ∈ ws, w.value ≠ ['\r']

/-- The profile named in `adaptation.toml` is the file `p`. -/
def ProfileAt (env : SetupEnv F G) (file p : Path) : Prop := ∃ overlays, parseSetup env file = .ok (p, overlays)

/-- The profile named in `adaptation.toml` is `prf`. -/
def IsProfile (env : SetupEnv F G) (file : Path) (prf : Prf) : Prop :=
  ∃ p bytes, ProfileAt env file p ∧ env.read p = some bytes ∧ parseProfile env p bytes = .ok prf

end
end Verif.Spec
