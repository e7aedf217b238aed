import Verif.Model.SectorIndex
/-! # What queries against the sector index should answer -/

namespace Verif.SectorIndex.Spec
open Verif.Sectors

variable {F L : Type} [LE F] [DecidableLE F]

/-- `v` is a volume of a sector called `id` that is controlled by some position. -/
def ControlledVolume (d : Data F) (id : Str) (v : Volume (Border F)) : Prop :=
  ∃ key s, (key, s) ∈ d.sectors ∧ s.positionPriority ≠ [] ∧ s.id = id ∧
    ∃ vid ∈ s.volumes, d.volumes.get? vid = some v

/-- The exhaustive search: sector `id` has a volume around the point at that level. -/
def SectorAt (env : Env F L) (d : Data F) (p : Pt F) (level : L) (id : Str) : Prop :=
  ∃ v, ControlledVolume d id v ∧ env.contains v.lateralBorder p = true ∧
    env.le (env.asF32 v.lowerLevel) level = true ∧ env.lt level (env.asF32 v.upperLevel) = true

/-- `p` lies between the least and greatest coordinates of the border's points. -/
def WithinExtent (b : Border F) (p : Pt F) : Prop :=
  (∃ q ∈ b, q.1 ≤ p.1) ∧ (∃ q ∈ b, p.1 ≤ q.1) ∧ (∃ q ∈ b, q.2 ≤ p.2) ∧ (∃ q ∈ b, p.2 ≤ q.2)

/-- The assumption on point-in-polygon: a polygon does not reach beyond its points' extent. -/
def ContainsWithinExtent (env : Env F L) : Prop :=
  ∀ b p, env.contains b p = true → WithinExtent b p

/-- The assumption on the R-tree: it yields each entry once, in some order. -/
def ShufflePerm (env : Env F L) : Prop := ∀ l, (env.shuffle l).Perm l

/-- The extents of a border and of the line from `a` to `b` overlap: in each dimension, neither is
completely beyond the other. -/
def ExtentsOverlap (b : Border F) (p q : Pt F) : Prop :=
  ((∃ x ∈ b, x.1 ≤ p.1 ∨ x.1 ≤ q.1) ∧ (∃ x ∈ b, p.1 ≤ x.1 ∨ q.1 ≤ x.1)) ∧
  ((∃ x ∈ b, x.2 ≤ p.2 ∨ x.2 ≤ q.2) ∧ (∃ x ∈ b, p.2 ≤ x.2 ∨ q.2 ≤ x.2))

/-- The order of strings is the lexicographic order of their code points. -/
def StrLe (a b : Str) : Prop := a.map Char.toNat ≤ b.map Char.toNat

end Verif.SectorIndex.Spec
