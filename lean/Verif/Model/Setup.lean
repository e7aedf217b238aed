import Verif.Model.Overlays
/-!
# `/repo/src/adaptation/mod.rs`: `adaptation.toml`

Models `AdaptationSetup::parse` and `Adaptation::from_adaptation_toml`.  Decoding TOML and `canonicalize` are parameters.
-/

namespace Verif.Adaptation
open Verif.PrfPaths (Prf Path)
open Verif.Json (JsonFloat)
open Verif.Display (F32Ops)
open Verif.Dms (DmsArith)
open Verif.Parse.SymbolRule (Close)
open Verif.Locations (FloatOps)
open Verif.Spec.Decode (Byte)

/-- What `from_adaptation_toml` uses beside `Env`. -/
structure SetupEnv (F G : Type) [DecidableEq F] [F32Ops G] extends Env F G where
  /-- `toml::from_slice::<AdaptationSetup>`: the profile and the overlays -/
  toml : List Byte → Option (Str × List Str)
  /-- `Path::canonicalize`; `none` if there is no such file -/
  canonicalize : Path → Option Path
  /-- `env::current_dir` -/
  cwd : Option Path

/-- `AdaptationError`, mod.rs 108-144, and panics -/
inductive SetupFailure where
  /-- a file cannot be read or does not exist -/
  | unreadable (p : Path)
  /-- the TOML file is not as expected -/
  | toml
  /-- the profile cannot be parsed -/
  | prf
  | panic
  | adaptation (e : Failure)
  deriving DecidableEq

section
variable {F G : Type} [F64 F] [DmsArith F] [DecidableEq F] [FloatOps F] [Close F] [F64 G] [F32Ops G] [UnicodeTables]
  [LE F] [DecidableLE F] [JsonFloat F] [JsonFloat G]

/-- `fs_err::read` with `?` -/
def SetupEnv.readFile (env : SetupEnv F G) (p : Path) : Except SetupFailure (List Byte) :=
  match env.read p with
  | some bytes => .ok bytes
  | none => .error (.unreadable p)

/-- `normalise_path`, mod.rs 146-148, with the join of its callers -/
def normalisePath (env : SetupEnv F G) (base : Path) (s : Str) : Except SetupFailure Path :=
  match env.canonicalize (PrfPaths.join base s) with
  | some p => .ok p
  | none => .error (.unreadable (PrfPaths.join base s))

/-- `AdaptationSetup::parse`, mod.rs 156-169 -/
def parseSetup (env : SetupEnv F G) (file : Path) : Except SetupFailure (Path × List Path) := do
  let bytes ← env.readFile file
  match env.toml bytes with
  | none => .error .toml
  | some (prf, overlays) =>
    match PrfPaths.parent file with
    | none => .error .panic
    | some dir => do
      let p ← normalisePath env dir prf
      let ps ← overlays.mapM (normalisePath env dir)
      .ok (p, ps)

/-- `Prf::parse`, prf.rs 130-148, with the path -/
def parseProfile (env : SetupEnv F G) (path : Path) (bytes : List Byte) : Except SetupFailure Prf :=
  match Parse.Prf.parsePrf (Decode.readToString env.lossy bytes) with
  | .error .parseError => .error .prf
  | .error _ => .error .panic
  | .ok settings =>
    match env.canonicalize path with
    | none => .error (.unreadable path)
    | some p => .ok ⟨settings, p, env.cwd⟩

/-- `Adaptation::from_adaptation_toml`, mod.rs 354-361 -/
def fromAdaptationToml (env : SetupEnv F G) (file : Path) : Except SetupFailure (Adaptation F G) := do
  let (p, overlays) ← parseSetup env file
  let bytes ← env.readFile p
  let prf ← parseProfile env p bytes
  match fromPrfWithOverlays env.toEnv prf overlays with
  | .ok a => .ok a
  | .error e => .error (.adaptation e)

end
end Verif.Adaptation
