import Verif.Props.Adaptation
import Verif.Proofs.AdaptationJson
import Verif.Proofs.Jsonnet
/-!
# C88, C89: an adaptation as JSON, and what overlays change

`Verif.Spec.Json` says which values survive being written as JSON; `Verif.Spec.Jsonnet` says what overlays are, and what it means
that they touch or set a place of the adaptation.
-/

namespace Verif.Props
open Verif.Adaptation Verif.Spec.Adaptation Verif.Proofs.Adaptation Verif.Json Verif.Spec.Json Verif.Spec.Jsonnet Verif.Proofs.Jsonnet
open Verif.PrfPaths (Prf Path)
open Verif.Display (F32Ops)
open Verif.Dms (DmsArith)
open Verif.Parse.SymbolRule (Close)
open Verif.Locations (FloatOps)

variable {F G : Type} [F64 F] [DmsArith F] [DecidableEq F] [FloatOps F] [Close F] [F64 G] [F32Ops G] [UnicodeTables]
  [LE F] [DecidableLE F] [JsonFloat F] [JsonFloat G]

/-! ## C88: nothing is lost -/

/-- **C88, reading what was written.**  Missing in comparison with the full claim: adaptations with numbers that are not finite, or
that are not read as they were written (C105). -/
theorem C88_json_round_trip_partial [LawfulJsonFloat F] [LawfulJsonFloat G] (a : Adaptation F G)
    (h : Keeps (AdaptationJson.adaptation F G) a) :
    (AdaptationJson.adaptation F G).of ((AdaptationJson.adaptation F G).to a) = some { a with index := none } :=
  Proofs.AdaptationJson.adaptation_back a h

theorem applyOverlays_eq {env : Env F G} {overlays : List Path} (ho : overlays ≠ []) (a : Adaptation F G) :
    applyOverlays env a overlays = match merge env a overlays with
      | none => .error .overlays
      | some m => .ok (rebuild env m) := by
  unfold applyOverlays
  have : overlays.isEmpty = false := by cases overlays <;> simp_all
  rw [this]
  rfl

theorem sum_empty {docs : List Doc} (h : ∀ d ∈ docs, d = .object []) (a : Adaptation F G) :
    docs.foldlM plus ((AdaptationJson.adaptation F G).to a) = some ((AdaptationJson.adaptation F G).to a) := by
  show docs.foldlM plus (.obj _) = some (.obj _)
  generalize (AdaptationJson.adaptationFields F G).to _ = o
  induction docs with
  | nil => rfl
  | cons d docs ih =>
    rw [List.foldlM_cons, h d (by simp)]
    show ((plusFields o []).map J.obj).bind _ = _
    rw [plusFields]
    exact ih fun d hd => h d (by simp [hd])

/-- **C88, overlays that say nothing.**  With overlays that say nothing, loading gives the same as without overlays.  Missing in
comparison with the full claim: adaptations with numbers that are not finite, or that are not read as they were written (C105). -/
theorem C88_empty_overlays_partial [LawfulJsonFloat F] [LawfulJsonFloat G] {env : Env F G} {prf : Prf} {a : Adaptation F G}
    (h : fromPrf env prf = .ok a) (hk : Keeps (AdaptationJson.adaptation F G) a)
    {overlays : List Path} {docs : List Doc} (he : Evaluates env overlays docs) (hd : ∀ d ∈ docs, d = .object []) :
    fromPrfWithOverlays env prf overlays = .ok a := by
  by_cases ho : overlays = []
  · subst ho; rw [C79_no_overlays, h]
  · rw [(C79_overlays env prf ho).1]
    refine ⟨a, { a with index := none }, h, ?_, ?_⟩
    · unfold merge
      rw [he.2.2 _ _ (sum_empty hd _)]
      exact Proofs.AdaptationJson.adaptation_back a hk
    · obtain ⟨s⟩ := steps h
      rw [← s.hindex]

/-- The places of an adaptation -/
abbrev AdaptationPlace {A : Type} (path : List Str) (c : Codec A) (get : Adaptation F G → Option A) : Prop :=
  Place (AdaptationJson.adaptationFields F G) AdaptationJson.contents path c get

/-- What is at a place does not depend on the index. -/
theorem place_index {A : Type} {path : List Str} {c : Codec A} {get : Adaptation F G → Option A} (h : AdaptationPlace path c get)
    (a : Adaptation F G) (i : Option (List (SectorIndex.Entry F))) : get { a with index := i } = get a := place_congr h rfl

theorem settings_place : AdaptationPlace [c!"settings"] AdaptationJson.settings (fun a : Adaptation F G => some a.settings) :=
  .top (A := Display.Settings F G) (root := AdaptationJson.adaptationFields F G) (proj := fun t => t.2.2.2.2.2.2.2.2.2.2.2.1) <|
    .there (by decide) <| .there (by decide) <| .there (by decide) <| .there (by decide) <| .there (by decide) <| 
    .there (by decide) <| .there (by decide) <| .there (by decide) <| .there (by decide) <| .there (by decide) <| .there (by decide) <| .here ..

theorem maps_place : AdaptationPlace [c!"settings", c!"maps"] AdaptationJson.mapsSettings (fun a : Adaptation F G => some a.settings.maps) :=
  .field settings_place (fun _ => rfl) (.here ..)

theorem fontSize_place : AdaptationPlace [c!"settings", c!"maps", c!"font_size"] Codec.float
    (fun a : Adaptation F G => some a.settings.maps.fontSize) :=
  .field maps_place (fun _ => rfl) (.there (by decide) (.here ..))

/-- **C88, negation.**  If the settings file of TopSky gives a font size that is not finite, the adaptation is loaded without
overlays, but with overlays that say nothing it is not. -/
theorem C88_not_finite {env : Env F G} {prf : Prf} {a : Adaptation F G}
    (h : fromPrf env prf = .ok a) (hn : JsonFloat.write a.settings.maps.fontSize = none)
    {overlays : List Path} (ho : overlays ≠ []) {docs : List Doc} (he : Evaluates env overlays docs) (hd : ∀ d ∈ docs, d = .object []) :
    fromPrfWithOverlays env prf overlays = .error .overlays := by
  rw [(C79_overlays env prf ho).2]
  refine .inr ⟨a, h, ?_, rfl⟩
  unfold merge
  rw [he.2.2 _ _ (sum_empty hd _)]
  show (AdaptationJson.adaptation F G).of ((AdaptationJson.adaptation F G).to a) = none
  cases hb : (AdaptationJson.adaptation F G).of ((AdaptationJson.adaptation F G).to a) with
  | none => rfl
  | some b =>
    have hw := place_write (back := AdaptationJson.ofContents) fontSize_place (a := a) rfl
    obtain ⟨x, h1, _⟩ := place_read fontSize_place (fun _ => rfl) hb hw
    simp [Codec.float, hn] at h1

/-! ## C89: what overlays change -/

/-- **C89, the sum.**  Where the overlays have a sum, the result is the adaptation that the sum is read as. -/
theorem C89_sum {env : Env F G} {a : Adaptation F G} {overlays : List Path} {docs : List Doc} (he : Evaluates env overlays docs)
    (hne : overlays ≠ []) {r : J} (hr : docs.foldlM plus ((AdaptationJson.adaptation F G).to a) = some r) (b : Adaptation F G) :
    applyOverlays env a overlays = .ok b ↔ ∃ m, (AdaptationJson.adaptation F G).of r = some m ∧
      b = { m with index := some (SectorIndex.buildTree ⟨env.order .index m.sectors, m.volumes⟩) } := by
  rw [applyOverlays_eq hne]
  unfold merge
  rw [he.2.2 _ _ hr]
  simp only [Option.bind_some]
  cases (AdaptationJson.adaptation F G).of r with
  | none => simp
  | some m => simp [rebuild, eq_comm]

/-- **C89, the rest is kept.**  At a place that no overlay touches there is what is read from what was written there. -/
theorem C89_rewritten {env : Env F G} {a b : Adaptation F G} {overlays : List Path} {docs : List Doc} (he : Evaluates env overlays docs)
    (hne : overlays ≠ []) {r : J} (hr : docs.foldlM plus ((AdaptationJson.adaptation F G).to a) = some r)
    (hb : applyOverlays env a overlays = .ok b)
    {A : Type} {path : List Str} {c : Codec A} {get : Adaptation F G → Option A} (hp : AdaptationPlace path c get)
    (hd : ∀ d ∈ docs, ¬ Touches d path) {x : A} (hx : get a = some x) : get b = c.of (c.to x) := by
  obtain ⟨m, hm, rfl⟩ := (C89_sum he hne hr b).1 hb
  rw [place_index hp m]
  have hw := place_write (back := AdaptationJson.ofContents) hp hx
  obtain ⟨x', h1, h2⟩ := place_read hp (fun _ => rfl) hm ((sum_untouched hr hd).trans hw)
  rw [h1, h2]

/-- **C89, the rest is kept.**  What is at a place that no overlay touches is still there. -/
theorem C89_untouched [LawfulJsonFloat F] [LawfulJsonFloat G] {env : Env F G} {a b : Adaptation F G}
    (hk : Keeps (AdaptationJson.adaptation F G) a)
    {overlays : List Path} {docs : List Doc} (he : Evaluates env overlays docs)
    {r : J} (hr : docs.foldlM plus ((AdaptationJson.adaptation F G).to a) = some r) (hb : applyOverlays env a overlays = .ok b)
    {A : Type} {path : List Str} {c : Codec A} {get : Adaptation F G → Option A} (hp : AdaptationPlace path c get)
    (hd : ∀ d ∈ docs, ¬ Touches d path) {x : A} (hx : get a = some x) : get b = some x := by
  by_cases hne : overlays = []
  · subst hne; cases hb; exact hx
  obtain ⟨m, hm, rfl⟩ := (C89_sum he hne hr b).1 hb
  rw [place_index hp m]
  have hw := place_write (back := AdaptationJson.ofContents) hp hx
  obtain ⟨x', h1, h2⟩ := place_read hp (fun _ => rfl) (Proofs.AdaptationJson.adaptation_back a hk) hw
  rw [place_index hp a, hx] at h2
  cases h2
  obtain ⟨x'', h3, h4⟩ := place_read hp (fun _ => rfl) hm ((sum_untouched hr hd).trans hw)
  rw [h4, ← h3, h1]

/-- **C89, what an overlay sets.**  What an overlay sets is there, unless a later overlay touches it. -/
theorem C89_set {env : Env F G} {a b : Adaptation F G} {overlays : List Path} {pre post : List Doc} {d : Doc}
    (he : Evaluates env overlays (pre ++ d :: post))
    {r : J} (hr : (pre ++ d :: post).foldlM plus ((AdaptationJson.adaptation F G).to a) = some r)
    (hb : applyOverlays env a overlays = .ok b)
    {A : Type} {path : List Str} {c : Codec A} {get : Adaptation F G → Option A} (hp : AdaptationPlace path c get)
    {v : J} (hs : Sets d path v) (hd : ∀ d ∈ post, ¬ Touches d path) : ∃ x, c.of v = some x ∧ get b = some x := by
  have hne : overlays ≠ [] := by
    rintro rfl
    have := he.2.1
    simp at this
  obtain ⟨m, hm, rfl⟩ := (C89_sum he hne hr b).1 hb
  rw [place_index hp m]
  exact place_read hp (fun _ => rfl) hm (sum_sets hr (he.1 d (by simp)) hs hd)

end Verif.Props
