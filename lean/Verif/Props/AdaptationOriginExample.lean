import Verif.Props.AdaptationExample
import Verif.Props.AdaptationOrigin
/-!
# The hypotheses of C117 and of C114 for the tables are met

The profile of `Verif.Props.AdaptationExample` loads, and what C117 says of it is about a VOR, a position, a procedure and a sector that
are there.
-/

namespace Verif.Props.AdaptationExample
open Verif.Adaptation Verif.Spec.Adaptation Verif.Proofs.Adaptation

attribute [local instance] asciiTables

/-- A check that succeeds on what is loaded speaks of an adaptation. -/
theorem of_loaded {r : Except Failure (Adaptation Int Int)} {f : Adaptation Int Int → Bool} (h : loaded r f = .inr true) :
    ∃ a, r = .ok a ∧ f a = true := by
  cases r with
  | error e => cases h
  | ok a => exact ⟨a, rfl, by simpa [loaded] using h⟩

example : ∃ a, fromPrf (env files) prf = .ok a ∧
    (∃ v ∈ a.locations.vors.getVec c!"MUN", Written (env files) prf .sct [v.designator, v.frequency]) ∧
    (∃ p, a.positions.get? c!"MR" = some p ∧ Written (env files) prf .ese [p.name, p.frequency, p.id, p.prefix_, p.suffix]) ∧
    (∃ p ∈ Locations.Spec.stored a.locations.sids c!"EDDM" c!"MUN1A", ∃ ws,
      Written (env files) prf .ese (p.airport :: (p.runway.toList ++ p.name :: ws))) ∧
    ∃ s, a.sectors.get? c!"HIGH" = some s ∧ s.volumes.length = 2 ∧ ∀ v ∈ s.volumes, Written (env files) prf .ese (v :: s.positionPriority) := by
  obtain ⟨a, h, hc⟩ := of_loaded (r := fromPrf (env files) prf)
    (f := fun a => !(a.locations.vors.getVec c!"MUN").isEmpty && (a.positions.get? c!"MR").isSome &&
      !(Locations.Spec.stored a.locations.sids c!"EDDM" c!"MUN1A").isEmpty &&
      ((a.sectors.get? c!"HIGH").map fun s => s.volumes.length) == some 2) (by decide +kernel)
  simp only [Bool.and_eq_true, Bool.not_eq_true', beq_iff_eq, List.isEmpty_eq_false_iff, ne_eq] at hc
  obtain ⟨⟨⟨h1, h2⟩, h3⟩, h4⟩ := hc
  refine ⟨a, h, ?_, ?_, ?_, ?_⟩
  · obtain ⟨v, hv⟩ := List.exists_mem_of_ne_nil _ h1
    exact ⟨v, hv, (((C117_navaids h).2 _).1 v hv).2⟩
  · obtain ⟨p, hp⟩ := Option.isSome_iff_exists.1 h2
    exact ⟨p, hp, (C117_positions h hp).2⟩
  · obtain ⟨p, hp⟩ := List.exists_mem_of_ne_nil _ h3
    obtain ⟨_, _, ws, _, hw⟩ := C117_procedures h _ _ p (List.mem_append_left _ hp)
    exact ⟨p, hp, ws, hw⟩
  · obtain ⟨s, hs, hl⟩ := Option.map_eq_some_iff.1 h4
    exact ⟨s, hs, hl, fun v hv => ((C117_sectors h (anyOrder files) hs).2.2.1 v hv).1⟩

/-- C114 for an airline that is read from a file with two lines about it. -/
example : Spec.InOrder [c!"DLH", c!"Lufthansa", c!"LUFTHANSA", c!"GERMANY"] airlinesFile :=
  (C114_airlines (content := airlinesFile) (m := [(c!"DLH", ⟨c!"DLH", c!"Lufthansa", c!"LUFTHANSA", c!"GERMANY"⟩)])
    (k := c!"DLH") (by decide +kernel) rfl).2

/-- C114 for an aircraft. -/
example : Spec.InOrder [c!"A20N", c!"AIRBUS", c!"A-320neo"] aircraftExample :=
  (C114_aircraft (content := aircraftExample) (m := [(c!"A20N", ⟨c!"A20N", .medium, .landplane, 2, .jet, c!"AIRBUS", c!"A-320neo"⟩)])
    (k := c!"A20N") (by decide +kernel) rfl).2

end Verif.Props.AdaptationExample
