import Verif.Props.AdaptationJson
import Verif.Proofs.Accepts
/-!
# C93: which overlays are accepted, and what fields mean that are left out

`Verif.Spec.Schema.Accepts` says which JSON is read as an adaptation, and `Verif.Spec.Schema.Completes` how fields may be left out.
-/

namespace Verif.Props
open Verif.Adaptation Verif.Json Verif.Spec.Jsonnet Verif.Spec.Schema Verif.Proofs.Jsonnet
open Verif.PrfPaths (Prf Path)
open Verif.Display (F32Ops)
open Verif.Dms (DmsArith)
open Verif.Parse.SymbolRule (Close)
open Verif.Locations (FloatOps)

section
variable {F G : Type} [JsonFloat F] [JsonFloat G] [DecidableEq F] [F32Ops G]

/-- **C93, what is read.**  A document is read as an adaptation exactly if it is accepted: every mandatory field is there, and
every field that is there has its shape. -/
theorem C93_accepts (j : J) : ((AdaptationJson.adaptation F G).of j).isSome = true ↔ Accepts Spec.Schema.adaptation j :=
  Proofs.Accepts.adaptation_reads.of j

/-- **C93, what is left out.**  It makes no difference whether an optional field is left out or `null`, whether the overrides of the
coordination times are left out or empty, whether unknown fields are there, and whether a record is an object or an array. -/
theorem C93_left_out {j j' : J} (h : Completes Spec.Schema.adaptation j j') :
    (AdaptationJson.adaptation F G).of j = (AdaptationJson.adaptation F G).of j' :=
  Proofs.Accepts.adaptation_reads.same j j' h

end

section
variable {F G : Type} [F64 F] [DmsArith F] [DecidableEq F] [FloatOps F] [Close F] [F64 G] [F32Ops G] [UnicodeTables]
  [LE F] [DecidableLE F] [JsonFloat F] [JsonFloat G]

/-- **C93, which overlays are accepted.**  Applying overlays succeeds exactly if the sum of the adaptation and the overlays is
accepted; otherwise the error is that of the overlays. -/
theorem C93_overlays {env : Env F G} {a : Adaptation F G} {overlays : List Path} {docs : List Doc} (he : Evaluates env overlays docs)
    (hne : overlays ≠ []) {r : J} (hr : docs.foldlM plus ((AdaptationJson.adaptation F G).to a) = some r) :
    ((∃ b, applyOverlays env a overlays = .ok b) ↔ Accepts Spec.Schema.adaptation r) ∧
    (applyOverlays env a overlays = .error .overlays ↔ ¬ Accepts Spec.Schema.adaptation r) := by
  rw [← C93_accepts (F := F) (G := G) r, applyOverlays_eq hne]
  unfold merge
  rw [he.2.2 _ _ hr, Option.bind_some]
  cases (AdaptationJson.adaptation F G).of r <;> simp

/-- **C93, an optional field of a place.**  If the object at a place does not have an optional field, then there is nothing in that
field of the adaptation. -/
theorem C93_optional {env : Env F G} {a b : Adaptation F G} {overlays : List Path} {docs : List Doc} (he : Evaluates env overlays docs)
    (hne : overlays ≠ []) {r : J} (hr : docs.foldlM plus ((AdaptationJson.adaptation F G).to a) = some r)
    (hb : applyOverlays env a overlays = .ok b)
    {A B C : Type} {path : List Str} {fs : Fields A} {f : B → A} {g : A → B} {get : Adaptation F G → Option B}
    (hp : AdaptationPlace path (fs.struct f g) get) (hfg : ∀ x, f (g x) = x) {k : Str} {c : Codec C} {proj : A → Option C}
    (hk : HasField fs k (Codec.opt c) proj) {o : Obj} (ho : lookup r path = some (.obj o)) (hn : Map.get? o k = none) :
    ∃ x, get b = some x ∧ proj (f x) = none := by
  obtain ⟨m, hm, rfl⟩ := (C89_sum he hne hr b).1 hb
  rw [place_index hp m]
  obtain ⟨x, hx, hg⟩ := place_read hp (fun _ => rfl) hm ho
  refine ⟨x, hg, ?_⟩
  obtain ⟨y, hy, rfl⟩ := Option.map_eq_some_iff.1 hx
  have := hasField_read hk hy
  unfold readField at this
  rw [hn] at this
  rw [hfg]
  exact (Option.some.inj this).symm

end
end Verif.Props
