import Verif.Model.AdaptationJson
import Verif.Proofs.Json
/-!
# The parts of an adaptation are read as they were written
-/

namespace Verif.Proofs.AdaptationJson
open Verif.Json Verif.Json.Codec Verif.Spec.Json Verif.Proofs.Json Verif.AdaptationJson
open Verif.Adaptation (Adaptation)
open Verif.Display (F32Ops)

/-- The names of the fields are distinct. -/
local macro "distinct" : tactic => `(tactic| (dsimp only [Fields.cons, Fields.nil]; decide +kernel))

variable {F G : Type} [JsonFloat F] [JsonFloat G] [LawfulJsonFloat F] [LawfulJsonFloat G]

instance : Lawful (point (F := F)) := lawful_struct (by distinct) fun _ => rfl
instance : Lawful (point' (F := F)) := lawful_iso fun _ => rfl
instance : Lawful (multiLine (F := F)) := inferInstanceAs (Lawful (list (list _)))
instance : Lawful (polygon (F := F)) := lawful_struct (by distinct) fun _ => rfl
instance : Lawful (fix (F := F)) := lawful_struct (by distinct) fun _ => rfl
instance : Lawful (navaid (F := F)) := lawful_struct (by distinct) fun _ => rfl
instance : Lawful (runway (F := F)) := lawful_struct (by distinct) fun _ => rfl
instance : Lawful (airport (F := F)) := lawful_struct (by distinct) fun _ => rfl
instance : Lawful (procedure (F := F)) := lawful_struct (by distinct) fun _ => rfl
instance : Lawful airwayType := lawful_enum fun a => by cases a <;> decide +kernel
instance : Lawful airwayEdge := lawful_struct (by distinct) fun _ => rfl
instance : Lawful (graphFix (F := F)) := lawful_struct (by distinct) fun _ => rfl
instance : Lawful (airwayGraph (F := F)) := lawful_struct (by distinct) fun _ => rfl
instance : Lawful (locations (F := F)) := lawful_struct (by distinct) fun _ => rfl
instance : Lawful (position (F := F)) := lawful_struct (by distinct) fun _ => rfl
instance : Lawful phantom := ⟨fun _ _ => rfl⟩
instance : Lawful (volume (F := F)) := lawful_struct (by distinct) fun _ => rfl
instance : Lawful runwayIdentifier := lawful_struct (by distinct) fun _ => rfl
instance : Lawful (iso runwayIdentifier (fun r : Str × Str => ⟨r.1, r.2⟩) fun r => (r.icao, r.designator)) := lawful_iso fun _ => rfl
instance : Lawful sector := lawful_struct (by distinct) fun _ => rfl
instance : Lawful (timing (G := G)) := lawful_struct (by distinct) fun _ => rfl
instance : NonNull (timing (G := G)) := ⟨fun _ _ => nofun⟩
instance : Lawful (constraint (G := G)) := lawful_struct (by distinct) fun _ => rfl
instance : Lawful activeIds := lawful_struct (by distinct) fun _ => rfl
instance : Lawful activeRunways := lawful_struct (by distinct) fun _ => rfl
instance : Lawful activeAreas := lawful_struct (by distinct) fun _ => rfl
instance : Lawful activeMapOperator := lawful_enum fun a => by cases a <;> decide +kernel

/-- A value is read as it was written if its parts are kept. -/
theorem back {A : Type} {c : Codec A} [Lawful c] {a : A} {l : List Part} (h : ∀ p ∈ l, Kept p) (hl : ∀ p ∈ c.parts a, p ∈ l) :
    c.of (c.to a) = some a := Lawful.back a fun p hp => h p (hl p hp)

instance : Lawful active := ⟨fun a h => by
  cases a with
  | true => decide +kernel
  | schedule => decide +kernel
  | aup l => exact congrArg (Option.map _) (back (c := list text) h fun _ hp => hp)
  | notam s l =>
    show ((list text).of ((list text).to l)).map _ = _
    rw [back (c := list text) h fun _ hp => List.mem_append_right _ hp]
    rfl
  | area a => exact congrArg (Option.map _) (back (c := activeAreas) h fun _ hp => hp)
  | id a => exact congrArg (Option.map _) (back (c := activeIds) h fun _ hp => hp)
  | callsign a => exact congrArg (Option.map _) (back (c := activeIds) h fun _ hp => hp)
  | runway a => exact congrArg (Option.map _) (back (c := activeRunways) h fun _ hp => hp)
  | map op f n => cases op <;> rfl⟩

instance : Lawful horizontal := lawful_enum fun a => by cases a <;> decide +kernel
instance : Lawful vertical := lawful_enum fun a => by cases a <;> decide +kernel
instance : Lawful alignment := lawful_struct (by distinct) fun _ => rfl
instance : Lawful lineStyle := lawful_struct (by distinct) fun _ => rfl
instance : Lawful (pair (F := F)) := inferInstanceAs (Lawful (tuple2 _ _))

section
variable [DecidableEq F] [F32Ops G]

instance : Lawful (label F G) := lawful_struct (by distinct) fun _ => rfl
instance : Lawful (mapSymbol F G) := lawful_struct (by distinct) fun _ => rfl
instance : Lawful (mapGroup F G) := lawful_struct (by distinct) fun _ => rfl
instance : Lawful (mapV F G) := lawful_struct (by distinct) fun _ => rfl
instance : Lawful (folder F G) := lawful_struct (by distinct) fun _ => rfl

end

instance : Lawful (symbolRule (F := F)) := ⟨fun a h => by
  cases a with
  | move p => exact congrArg (Option.map _) (back (c := pair) h fun _ hp => hp)
  | line p => exact congrArg (Option.map _) (back (c := pair) h fun _ hp => hp)
  | pixel p => exact congrArg (Option.map _) (back (c := pair) h fun _ hp => hp)
  | polygon ps => exact congrArg (Option.map _) (back (c := list pair) h fun _ hp => hp)
  | arc p r a b =>
    show ((pair.of (pair.to p)).bind fun p => (float.of (float.to r)).bind fun r => (i64.of (i64.to a)).bind fun a =>
      (i64.of (i64.to b)).map fun b => _) = _
    rw [back (c := pair) h fun _ hp => by simp [symbolRule, hp], back (c := float) h fun _ hp => by simp [symbolRule, hp],
      back (c := i64) h fun _ hp => by simp [symbolRule, hp], back (c := i64) h fun _ hp => by simp [symbolRule, hp]]
    rfl
  | ellipticArc p r s a b =>
    show ((pair.of (pair.to p)).bind fun p => (float.of (float.to r)).bind fun r => (float.of (float.to s)).bind fun s => (i64.of (i64.to a)).bind fun a =>
      (i64.of (i64.to b)).map fun b => _) = _
    rw [back (c := pair) h fun _ hp => by simp [symbolRule, hp], back (c := float) h fun _ hp => by simp [symbolRule, hp],
      back (c := float) h fun _ hp => by simp [symbolRule, hp],
      back (c := i64) h fun _ hp => by simp [symbolRule, hp], back (c := i64) h fun _ hp => by simp [symbolRule, hp]]
    rfl
  | filledArc p r a b =>
    show ((pair.of (pair.to p)).bind fun p => (float.of (float.to r)).bind fun r => (i64.of (i64.to a)).bind fun a =>
      (i64.of (i64.to b)).map fun b => _) = _
    rw [back (c := pair) h fun _ hp => by simp [symbolRule, hp], back (c := float) h fun _ hp => by simp [symbolRule, hp],
      back (c := i64) h fun _ hp => by simp [symbolRule, hp], back (c := i64) h fun _ hp => by simp [symbolRule, hp]]
    rfl
  | filledEllipticArc p r s a b =>
    show ((pair.of (pair.to p)).bind fun p => (float.of (float.to r)).bind fun r => (float.of (float.to s)).bind fun s => (i64.of (i64.to a)).bind fun a =>
      (i64.of (i64.to b)).map fun b => _) = _
    rw [back (c := pair) h fun _ hp => by simp [symbolRule, hp], back (c := float) h fun _ hp => by simp [symbolRule, hp],
      back (c := float) h fun _ hp => by simp [symbolRule, hp],
      back (c := i64) h fun _ hp => by simp [symbolRule, hp], back (c := i64) h fun _ hp => by simp [symbolRule, hp]]
    rfl⟩

instance : Lawful (symbols (F := F)) := lawful_struct (by distinct) fun s => by
  obtain ⟨f, o⟩ := s
  simp only [Prod.mk.injEq, and_true]
  funext k
  cases k <;> rfl

instance : LawfulFields trackColours := by unfold trackColours; infer_instance
instance : LawfulFields uiColours := by unfold uiColours; infer_instance
instance : LawfulFields sectorColours := by unfold sectorColours; infer_instance
instance : LawfulFields mapColours2 := by unfold mapColours2; infer_instance
instance {B : Type} {fs : Fields B} [LawfulFields fs] : LawfulFields (mapColours fs) := by unfold mapColours; infer_instance
instance : Lawful (trackColours.struct id id) := lawful_struct (by decide +kernel) fun _ => rfl
instance : Lawful (uiColours.struct id id) := lawful_struct (by decide +kernel) fun _ => rfl
instance : Lawful (sectorColours.struct id id) := lawful_struct (by decide +kernel) fun _ => rfl
instance : Lawful ((mapColours mapColours2).struct id id) := lawful_struct (by decide +kernel) fun _ => rfl

instance : Lawful colours := lawful_struct (by distinct) fun s => by
  obtain ⟨m, r, o⟩ := s
  simp only [Prod.mk.injEq, and_true]
  constructor
  · funext k
    cases k <;> rfl
  · funext k
    cases k <;> rfl

instance : Lawful (dash (G := G)) := lawful_struct (by distinct) fun _ => rfl

instance : Lawful lineSettings := lawful_struct (by distinct) fun f => by
  funext k
  cases k <;> rfl

instance : Lawful (labelSettings (G := G)) := lawful_struct (by distinct) fun f => by
  obtain ⟨f, g⟩ := f
  simp only [Prod.mk.injEq]
  constructor
  · funext k
    cases k <;> rfl
  · funext k
    cases k <;> rfl

instance : Lawful (mapsSettings (F := F) (G := G)) := lawful_struct (by distinct) fun _ => rfl
instance : Lawful (vector (G := G)) := lawful_struct (by distinct) fun _ => rfl
instance : Lawful historyDots := lawful_struct (by distinct) fun _ => rfl
instance : Lawful (track (G := G)) := lawful_struct (by distinct) fun _ => rfl
instance : Lawful ssr := lawful_struct (by distinct) fun _ => rfl
instance : Lawful (coordination (G := G)) := lawful_struct (by distinct) fun _ => rfl
instance : LawfulFields (settingsFields (F := F) (G := G)) := by unfold settingsFields; infer_instance
instance : Lawful (settings (F := F) (G := G)) := lawful_struct (by dsimp only [settingsFields]; distinct) fun _ => rfl
instance : Lawful wtc := lawful_enum fun a => by cases a <;> decide +kernel
instance : Lawful aircraftType := lawful_enum fun a => by cases a <;> decide +kernel
instance : Lawful engineType := lawful_enum fun a => by cases a <;> decide +kernel
instance : Lawful aircraft := lawful_struct (by distinct) fun _ => rfl
instance : Lawful airline := lawful_struct (by distinct) fun _ => rfl
instance : Lawful (coloured (F := F)) := lawful_struct (by distinct) fun _ => rfl

instance : Lawful (location (F := F)) := ⟨fun a h => by
  cases a with
  | fix s => rfl
  | coordinate p => exact congrArg (Option.map _) (back (c := point') h fun _ hp => hp)⟩

instance : Lawful (region (F := F)) := lawful_struct (by distinct) fun _ => rfl
instance : Lawful (sctLabel (F := F)) := lawful_struct (by distinct) fun _ => rfl
instance : Lawful (sctItems (F := F)) := lawful_struct (by distinct) fun _ => rfl

variable [DecidableEq F] [F32Ops G]

instance : LawfulFields (adaptationFields F G) := by unfold adaptationFields; infer_instance

theorem keys_nodup : (adaptationFields F G).keys.Nodup := by dsimp only [adaptationFields]; distinct

/-- An adaptation is read as it was written, without its index. -/
theorem adaptation_back (a : Adaptation F G) (h : Keeps (adaptation F G) a) :
    (adaptation F G).of ((adaptation F G).to a) = some { a with index := none } := by
  show ((adaptationFields F G).of ((adaptationFields F G).to _)).map _ = _
  rw [fields_back keys_nodup _ h]
  rfl

end Verif.Proofs.AdaptationJson
