import Verif.Props.Adaptation
import Verif.Spec.Jsonnet
/-!
# An adaptation that is loaded

A profile and nine small files, in a world where numbers are integers: the hypotheses of C74–C79 are met and the whole of
`fromPrf` is evaluated.
-/

namespace Verif.Props.AdaptationExample
open Verif.Adaptation Verif.Spec.Adaptation Verif.Proofs.Adaptation
open Verif.PrfPaths (Prf Path)
open Verif.Spec.Decode (Byte)
open Verif.Display (F32Ops)
open Verif.Dms (DmsArith DegMinSec Sign)
open Verif.Parse.SymbolRule (Close)
open Verif.Locations (FloatOps)
open Verif.Spec.Jsonnet (Doc plus)
open Verif.Json (JsonFloat LawfulJsonFloat)
open Verif.SectorIndex.Spec (ContainsWithinExtent ShufflePerm)

/-- The integer in front of the point. -/
def whole (s : Str) : Int :=
  let n (l : Str) : Nat := (l.takeWhile isAsciiDigit).foldl (fun n c => 10 * n + (c.toNat - 48)) 0
  match s with
  | '-' :: l => - (n l : Int)
  | l => n l

instance : F64 Int := ⟨fun s => some (whole s), fun _ _ => rfl⟩

/-- Seconds. -/
instance : DmsArith Int := ⟨fun d =>
  let n : Int := d.deg * 3600 + d.min * 60 + d.sec
  match d.sign with
  | .pos => n
  | .neg => -n⟩

instance : Close Int := ⟨fun a b => decide (a = b)⟩

instance : F32Ops Int := ⟨(· + ·), (· - ·), (· * ·), fun a b => decide (a = b), id⟩

instance : JsonFloat Int := ⟨fun n => some n, fun q => q.num⟩
instance : LawfulJsonFloat Int := ⟨fun x y q h h' => by
  have : (x : Rat) = y := (Option.some.inj h).trans (Option.some.inj h').symm
  exact Rat.intCast_inj.1 this⟩

instance : FloatOps Int where
  ofNat n := n
  add := (· + ·)
  div := (· / ·)
  mul := (· * ·)
  negOne := -1
  dest p _ r := (p.1 + r, p.2)

attribute [local instance] asciiTables

def lines (l : List Str) : Str := l.flatMap fun s => s ++ ['\n']

def sct : Str := lines [c!"#define red 255", c!"[INFO]", c!"EDMM 2401", c!"EDMM_CTR", c!"EDDM", c!"N048.00.00.000", c!"E011.00.00.000",
  c!"60", c!"40", c!"-3", c!"1", c!"[VOR]", c!"MUN 112.300 N048.00.10.000 E011.00.10.000",
  c!"[GEO]", c!"coast N048.00.00.000 E011.00.00.000 N048.00.20.000 E011.00.00.000 red",
  c!"MUN MUN ABC ABC red"]

def ese : Str := lines [c!"[POSITIONS]", c!"EDMM_CTR:Muenchen Radar:131.000:MR:::CTR:-:-:", c!"[AIRSPACE]",
  c!"SECTORLINE:1", c!"COORD:N048.00.00.000:E011.00.00.000", c!"COORD:N048.00.20.000:E011.00.00.000",
  c!"COORD:N048.00.20.000:E011.00.20.000",
  c!"SECTORLINE:2", c!"COORD:N048.00.20.000:E011.00.20.000", c!"COORD:N048.00.00.000:E011.00.20.000",
  c!"COORD:N048.00.00.000:E011.00.00.000",
  c!"SECTOR:LOW:0:9500", c!"OWNER:MR", c!"BORDER:1:2",
  c!"SECTOR:OPEN:0:9500", c!"OWNER:MR", c!"BORDER:1",
  c!"SECTOR:HIGH:9500:66000", c!"OWNER:MR", c!"BORDER:1:2",
  c!"[SIDSSTARS]", c!"SID:EDDM:26L:MUN1A:MUN ABC"]

def symbology : Str := lines [c!"SYMBOLOGY", c!"SYMBOLSIZE", c!"Sids:line:255:3:0:2:7", c!"SYMBOL:0", c!"SYMBOLITEM:MOVETO 1 2",
  c!"m_ClipArea:5", c!"END"]

def files : List (Str × Str) := [
  (c!"edmm.sct", sct), (c!"edmm.ese", ese),
  (c!"airway.txt", c!"ASPAT\t49.1\t10.7\t14\tL603\tH\tRODIX\t49.5\t10.25\t5000\tY\t0\t0\t\t0\t0N\n"),
  (c!"sym.txt", symbology),
  (c!"airports.txt", c!"EDDM\tMunich\tGERMANY\n"), (c!"coords.txt", c!"EDDM 48.353783 11.786086 Munich Intl\n"),
  (c!"aircraft.txt", c!"A20N\tML2J\tAIRBUS\tA-320neo\n"), (c!"airlines.txt", c!"DLH\tLufthansa\tLUFTHANSA\tGERMANY\n"),
  (c!"TopSkySettings.txt", c!"Setup_COOPANS=1\n"), (c!"TopSkyMaps.txt", c!"MAP:x\nCOLOR:red\nTEXT:MUN:abc\n")]

def prf : Prf where
  settings := [((c!"Settings", c!"sector"), c!"\\edmm.sct"), ((c!"Settings", c!"airways"), c!"\\airway.txt"),
    ((c!"Settings", c!"SettingsfileSYMBOLOGY"), c!"\\sym.txt"), ((c!"Settings", c!"airports"), c!"\\airports.txt"),
    ((c!"Settings", c!"airportcoords"), c!"\\coords.txt"), ((c!"Settings", c!"aircraft"), c!"\\aircraft.txt"),
    ((c!"Settings", c!"airlines"), c!"\\airlines.txt"), ((c!"Plugins", c!"Plugin0"), c!"\\TopSky.dll")]
  path := [c!"home", c!"edmm.prf"]
  cwd := some [c!"home"]

def bytes (s : Str) : List Byte := s.map fun c => Fin.ofNat 256 c.toNat

/-- An overlay with a new name, without sectors -/
def overlay1 : Doc :=
  .object [(c!"name", false, .value (.str c!"merged")), (c!"sectors", false, .object []),
    (c!"settings", true, .object [(c!"coopans", false, .value (.bool false))])]

/-- The overlay of /repo/fixtures/overlay.jsonnet -/
def overlay2 : Doc :=
  .object [(c!"settings", true, .object [
    (c!"ssr", false, .object [(c!"special_use_codes", false, .object [(c!"7000", false, .value (.str c!"V"))])]),
    (c!"track", true, .object [(c!"vector", true, .object [(c!"enabled", false, .value (.bool true))])])])]

/-- The files with overlays. -/
def overlay : Path → Option Doc
  | [_, n] =>
    if n = c!"empty.jsonnet" then some (.object [])
    else if n = c!"x.jsonnet" then some overlay1
    else if n = c!"overlay.jsonnet" then some overlay2
    else none
  | _ => none

/-- The files are in `/home`; hash maps are iterated over backwards. -/
def env (files : List (Str × Str)) : Env Int Int where
  read p := match p with
    | [d, n] => if d = c!"home" then (Map.get? files n).map bytes else none
    | _ => none
  lossy _ := []
  fits _ := true
  upper := id
  fmt _ := c!"0"
  int := id
  nat := Int.ofNat
  quantize := id
  dequantize := id
  choose := List.head?
  ccw := id
  order _ _ _ l := l.reverse
  evaluate j ps := ps.foldlM (fun j p => (overlay p).bind (plus j)) j

/-- A point is in a polygon if it is between its least and greatest coordinates. -/
def query : SectorIndex.Env Int Int where
  contains b p := (b.any fun q => q.1 ≤ p.1) && (b.any fun q => p.1 ≤ q.1) && (b.any fun q => q.2 ≤ p.2) && (b.any fun q => p.2 ≤ q.2)
  shuffle := List.reverse
  asF32 := Int.ofNat
  le a b := decide (a ≤ b)
  lt a b := decide (a < b)

/-! ## The hypotheses are met -/

theorem anyOrder (fs : List (Str × Str)) : AnyOrder (env fs) := fun _ _ _ l => List.reverse_perm l

theorem contains_within : ContainsWithinExtent query := by
  intro b p h
  simp only [query, Bool.and_eq_true, List.any_eq_true, decide_eq_true_eq] at h
  exact ⟨h.1.1.1, h.1.1.2, h.1.2, h.2⟩

theorem shuffle_perm : ShufflePerm query := fun l => List.reverse_perm l

/-- What comes of loading, and a part of the result. -/
def loaded {A : Type} (r : Except Failure (Adaptation Int Int)) (f : Adaptation Int Int → A) : Failure ⊕ A :=
  match r with
  | .ok a => .inr (f a)
  | .error e => .inl e

/-- The adaptation that is loaded: the sectors LOW and HIGH, which have the same owner, are one sector named after the one
that comes first; the sector OPEN, whose border is open, is not there. -/
example : loaded (fromPrf (env files) prf) (fun a => (a.name, a.positions.keys, a.sectors.keys, a.volumes.keys)) =
    .inr (c!"EDMM 2401", [c!"MR"], [c!"HIGH"], [c!"HIGH", c!"LOW"]) := by decide +kernel

/-- The sector is found at its levels, and not above or beside it. -/
example : loaded (fromPrf (env files) prf) (fun a => (findSector (env files) query a (39610, 172810) 5000,
      findSector (env files) query a (39610, 172810) 70000, findSector (env files) query a (39621, 172810) 5000)) =
    .inr (some c!"HIGH", none, none) := by decide +kernel

/-- The volumes at a point, for C87. -/
example : loaded (fromPrf (env files) prf) (fun a => (volumesAt (env files) query a (39610, 172810)).map fun v => (v.1, v.2.id)) =
    .inr [(c!"HIGH", c!"LOW"), (c!"HIGH", c!"HIGH")] := by decide +kernel

/-- The volumes near a line, for C87. -/
example : loaded (fromPrf (env files) prf) (fun a =>
      (volumesNearLine (env files) query a (0, 0) (39610, 172810)).map fun v => (v.1, v.2.id)) =
    .inr [(c!"HIGH", c!"LOW"), (c!"HIGH", c!"HIGH")] := by decide +kernel

/-- Without the ESE file. -/
example : loaded (fromPrf (env (files.filter fun f => f.1 ≠ c!"edmm.ese")) prf) (fun _ => ()) =
    .inl (.unreadable [c!"home", c!"edmm.ese"]) := by decide +kernel

/-- With a symbology file that cannot be parsed and without the airlines: the symbology file is read first. -/
example : loaded (fromPrf (env ((c!"sym.txt", c!"nothing") :: files.filter fun f => f.1 ≠ c!"airlines.txt")) prf) (fun _ => ()) =
    .inl (.invalid .symbology) := by decide +kernel

/-- With overlays. -/
example : loaded (fromPrfWithOverlays (env files) prf [[c!"home", c!"x.jsonnet"]]) (fun a =>
    (a.name, findSector (env files) query a (39610, 172810) 5000)) = .inr (c!"merged", none) := by decide +kernel

/-- Without the maps of TopSky there is no TopSky. -/
example : NoTopsky (env (files.filter fun f => f.1 ≠ c!"TopSkyMaps.txt")) prf := by
  refine ⟨some [c!"home"], by decide +kernel, fun d hd => Or.inl ?_⟩
  cases hd
  have h : ∀ o : Parse.Topsky.Outcome (Parse.Topsky.Topsky Int Int),
      (match o with | .missing => true | _ => false) = true → o = .missing := by
    intro o ho
    cases o <;> simp_all
  exact h _ (by decide +kernel)

/-- No file with squawks is named. -/
example : NoSquawks (env files) prf := ⟨none, by decide +kernel, by simp⟩

end Verif.Props.AdaptationExample
