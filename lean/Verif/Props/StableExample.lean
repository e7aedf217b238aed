import Verif.Props.AdaptationExample
import Verif.Props.Stable
/-!
# Two runs of the program

The hypotheses of C107 are met by two runs that load the profile of `Verif.Props.AdaptationExample`, and the sectors that are found
can be of different owners where sectors lie over each other.
-/

namespace Verif.Props.AdaptationExample
open Verif.Adaptation Verif.Spec.Adaptation Verif.Proofs.Adaptation
open Verif.Contains Verif.Contains.Spec
open Verif.Polygon (borderLines polygonFromEse)
open Verif.Polygon.Spec (Chooses)
open Verif.SectorIndex.Spec (ShufflePerm)

attribute [local instance] asciiTables

/-- Another run: hash maps are iterated over forwards, hash sets begin with their last element, and borders are turned round. -/
def env' (files : List (Str × Str)) : Env Int Int :=
  { env files with choose := List.getLast?, ccw := List.reverse, order := fun _ _ _ l => l }

theorem chooses_getLast? {V : Type} : Chooses (List.getLast? : List V → Option V) := by
  intro l
  constructor
  · rintro rfl; rfl
  · intro h
    exact ⟨l.getLast h, List.getLast_mem h, List.getLast?_eq_some_getLast h⟩

/-- They are the same but for the order. -/
theorem sameButOrder (fs : List (Str × Str)) : SameButOrder (env fs) (env' fs) where
  quantize := rfl
  dequantize := rfl
  choose := Polygon.chooses_head?
  choose' := chooses_getLast?
  turns _ := .inl rfl
  turns' _ := .inr rfl
  order := anyOrder fs
  order' _ _ _ _ := .refl _

/-- The exact value of an integer. -/
def exact (n : Int) : Rat := n

example : ∀ a b, exact a ≤ exact b → a ≤ b := fun _ _ h => Rat.intCast_le_intCast.1 h

/-- The border of the example is a simple loop. -/
example : SimpleLoop (borderLines (P := Nat) (V := Nat) id [[0, 1, 2], [2, 3, 0]]) := by
  intro v
  rcases v with _ | _ | _ | _ | v
  · decide
  · decide
  · decide
  · decide
  · simp [Polygon.Spec.degree, borderLines, Polygon.pairs]

/-- The sector is found by both runs, under another name. -/
example : loaded (fromPrf (env files) prf) (fun a => findSector (env files) (withGeo exact query) a (39610, 172810) 5000) =
      .inr (some c!"HIGH") ∧
    loaded (fromPrf (env' files) prf) (fun a => findSector (env' files) (withGeo exact query) a (39610, 172810) 5000) =
      .inr (some c!"LOW") := by decide +kernel

/-- Three sectors over each other, the first and the last of which have the same owner. -/
def overlapping : List (Str × Str) := (c!"edmm.ese", lines [c!"[POSITIONS]", c!"EDMM_CTR:Muenchen Radar:131.000:MR:::CTR:-:-:",
  c!"[AIRSPACE]",
  c!"SECTORLINE:1", c!"COORD:N048.00.00.000:E011.00.00.000", c!"COORD:N048.00.20.000:E011.00.00.000",
  c!"COORD:N048.00.20.000:E011.00.20.000",
  c!"SECTORLINE:2", c!"COORD:N048.00.20.000:E011.00.20.000", c!"COORD:N048.00.00.000:E011.00.20.000",
  c!"COORD:N048.00.00.000:E011.00.00.000",
  c!"SECTOR:A:0:9500", c!"OWNER:X", c!"BORDER:1:2",
  c!"SECTOR:M:0:9500", c!"OWNER:Y", c!"BORDER:1:2",
  c!"SECTOR:Z:0:9500", c!"OWNER:X", c!"BORDER:1:2"]) :: files.filter fun f => f.1 ≠ c!"edmm.ese"

/-- **C107 is not true where sectors of different owners lie over each other.** A sector is named after whichever of its volumes comes
first, and of several sectors at a place the one with the least name is found: so the order of a hash map decides who is found to be
in control. -/
theorem C107_owner_depends : ∃ (fs : List (Str × Str)) (env env' : Env Int Int) (prf : PrfPaths.Prf) (p : Int × Int) (level : Int) (sid sid' : Str) (a a' : Adaptation Int Int) (s s' : Sectors.Sector),
    SameButOrder env env' ∧ env.read = (AdaptationExample.env fs).read ∧
    env'.read = env.read ∧ fromPrf env prf = .ok a ∧ fromPrf env' prf = .ok a' ∧
    findSector env (withGeo exact query) a p level = some sid ∧ findSector env' (withGeo exact query) a' p level = some sid' ∧
    a.sectors.get? sid = some s ∧ a'.sectors.get? sid' = some s' ∧
    s.positionPriority = [c!"Y"] ∧ s'.positionPriority = [c!"X"] := by
  have key : ∀ (env : Env Int Int) (p : Int × Int) (level : Int) (o : List Str),
      loaded (fromPrf env prf) (fun a =>
        (findSector env (withGeo exact query) a p level).bind fun sid => (a.sectors.get? sid).map (·.positionPriority)) = .inr (some o) →
      ∃ a sid s, fromPrf env prf = .ok a ∧ findSector env (withGeo exact query) a p level = some sid ∧
        a.sectors.get? sid = some s ∧ s.positionPriority = o := by
    intro env p level o h
    unfold loaded at h
    split at h
    · next a ha =>
      simp only [Sum.inr.injEq, Option.bind_eq_some_iff, Option.map_eq_some_iff] at h
      obtain ⟨sid, h1, s, h2, h3⟩ := h
      exact ⟨a, sid, s, ha, h1, h2, h3⟩
    · cases h
  obtain ⟨a, sid, s, h1, h2, h3, h4⟩ := key (env overlapping) (39610, 172810) 5000 [c!"Y"] (by decide +kernel)
  obtain ⟨a', sid', s', h1', h2', h3', h4'⟩ := key (env' overlapping) (39610, 172810) 5000 [c!"X"] (by decide +kernel)
  exact ⟨overlapping, env overlapping, env' overlapping, prf, _, _, sid, sid', a, a', s, s', sameButOrder _, rfl, rfl, h1, h1', h2, h2',
    h3, h3', h4, h4'⟩

end Verif.Props.AdaptationExample
