import Verif.Props.AdaptationJson
import Verif.Props.AdaptationContentsExample
/-!
# The adaptation that is loaded, with overlays

The files of `Verif.Props.AdaptationContentsExample`, and the overlay of `/repo/fixtures/overlay.jsonnet`: the hypotheses of
C88 and C89 are met.
-/

namespace Verif.Props.AdaptationExample
open Verif.Adaptation Verif.Spec.Adaptation Verif.Json Verif.Spec.Json Verif.Spec.Jsonnet
open Verif.PrfPaths (Prf Path)
open Verif.Display (F32Ops)

attribute [local instance] asciiTables

instance : DecidablePred Kept
  | .float q back => inferInstanceAs (Decidable (q.isSome = true ∧ back = q))
  | .int lo hi n => inferInstanceAs (Decidable (lo ≤ n ∧ n < hi))
  | .colour c => inferInstanceAs (Decidable (c.a = 255))
  | .path p => inferInstanceAs (Decidable (∀ s ∈ p, s ≠ [] ∧ s ≠ ['.'] ∧ '/' ∉ s))

theorem of_loaded {r : Except Failure (Adaptation Int Int)} {f : Adaptation Int Int → Bool} (h : loaded r f = .inr true) :
    ∃ a, r = .ok a ∧ f a = true := by
  cases r with
  | ok a => exact ⟨a, rfl, by simpa [loaded] using h⟩
  | error e => cases h

/-- Everything in the loaded adaptation is kept by JSON. -/
theorem rich_keeps : ∃ a, fromPrf richEnv richPrf = .ok a ∧ Keeps (AdaptationJson.adaptation Int Int) a := by
  obtain ⟨a, h1, h2⟩ := of_loaded (r := fromPrf richEnv richPrf)
    (f := fun a => decide (∀ p ∈ (AdaptationJson.adaptation Int Int).parts a, Kept p)) (by decide +kernel)
  simp only [decide_eq_true_eq] at h2
  exact ⟨a, h1, h2⟩

/-- There are numbers, colours and paths in it. -/
example : loaded (fromPrf richEnv richPrf) (fun a =>
      let parts := (AdaptationJson.adaptation Int Int).parts a
      decide (20 < parts.countP fun | .float .. => true | _ => false) && decide (20 < parts.countP fun | .colour _ => true | _ => false) &&
      decide (0 < parts.countP fun | .path _ => true | _ => false)) = .inr true := by decide +kernel

theorem evaluates {paths : List Path} {docs : List Doc} (h : paths.map overlay = docs.map some) (hp : ∀ d ∈ docs, d.Proper) :
    Evaluates richEnv paths docs := by
  refine ⟨hp, by simpa using congrArg List.length h, fun j r hr => ?_⟩
  show paths.foldlM (fun j p => (overlay p).bind (plus j)) j = some r
  clear hp
  induction docs generalizing paths j with
  | nil => cases paths with
    | nil => exact hr
    | cons p paths => cases h
  | cons d docs ih => cases paths with
    | nil => cases h
    | cons p paths =>
      rw [List.map_cons, List.map_cons, List.cons.injEq] at h
      rw [List.foldlM_cons] at hr ⊢
      rw [h.1]
      obtain ⟨j', h1, h2⟩ := Option.bind_eq_some_iff.1 hr
      exact Option.bind_eq_some_iff.2 ⟨j', h1, ih h.2 _ h2⟩

theorem proper1 : overlay1.Proper := by simp [overlay1, Doc.Proper, ProperFields]
theorem proper2 : overlay2.Proper := by simp [overlay2, Doc.Proper, ProperFields]

/-- C88: the empty overlay. -/
example : fromPrfWithOverlays richEnv richPrf [[c!"home", c!"empty.jsonnet"]] = fromPrf richEnv richPrf := by
  obtain ⟨a, h1, h2⟩ := rich_keeps
  rw [h1]
  exact C88_empty_overlays_partial h1 h2 (evaluates (docs := [.object []]) rfl (by simp [Doc.Proper, ProperFields])) (by simp)

/-! ## The overlay of the fixture -/

def both : List Path := [[c!"home", c!"x.jsonnet"], [c!"home", c!"overlay.jsonnet"]]

theorem both_evaluate : Evaluates richEnv both [overlay1, overlay2] :=
  evaluates rfl (by simp [proper1, proper2])

theorem no_touch {d : Doc} {k : Str} {fs : List (Str × Bool × Doc)} (h : d = .object fs) (hk : k ∉ fs.map (·.1)) (ks : List Str) :
    ¬ Touches d (k :: ks) := by
  subst h
  intro ht
  cases ht with
  | replace _ hm => exact hk (List.mem_map.2 ⟨_, hm, rfl⟩)
  | add hm _ => exact hk (List.mem_map.2 ⟨_, hm, rfl⟩)

/-- The sum of an adaptation and both overlays -/
theorem both_sum {a b : Adaptation Int Int} (h : applyOverlays richEnv a both = .ok b) :
    ∃ r, [overlay1, overlay2].foldlM plus ((AdaptationJson.adaptation Int Int).to a) = some r := by
  rw [applyOverlays_eq (by simp [both])] at h
  unfold merge at h
  cases hr : [overlay1, overlay2].foldlM plus ((AdaptationJson.adaptation Int Int).to a) with
  | some r => exact ⟨r, rfl⟩
  | none =>
    have : richEnv.evaluate ((AdaptationJson.adaptation Int Int).to a) both = none := hr
    rw [this] at h
    cases h

theorem volumes_place : AdaptationPlace [c!"volumes"] (Codec.map AdaptationJson.volume) (fun a : Adaptation Int Int => some a.volumes) :=
  .top (root := AdaptationJson.adaptationFields Int Int) (proj := fun t => t.2.2.2.1) <|
    .there (by decide) <| .there (by decide) <| .there (by decide) <| .here ..

theorem vector_place : AdaptationPlace [c!"settings", c!"track", c!"vector"] AdaptationJson.vector
    (fun a : Adaptation Int Int => some a.settings.vector) :=
  .field (.field settings_place (fun _ => rfl) (.there (by decide) (.here ..))) (fun _ => rfl) (.here ..)

theorem codes_place : AdaptationPlace [c!"settings", c!"ssr", c!"special_use_codes"] (Codec.map Codec.text)
    (fun a : Adaptation Int Int => some a.settings.specialUseCodes) :=
  .field (.field settings_place (fun _ => rfl) (.there (by decide) (.there (by decide) (.there (by decide) (.here ..)))))
    (fun _ => rfl) (.here ..)

/-- With the two overlays the vector is enabled and the codes are those of the second overlay, the name is that of the first, and
the volumes and the length of the vector are those that were loaded. -/
example : ∃ a b, fromPrf richEnv richPrf = .ok a ∧ applyOverlays richEnv a both = .ok b ∧
    b.name = c!"merged" ∧ b.volumes = a.volumes ∧ b.settings.vector.enabled = true ∧
    b.settings.specialUseCodes = [(c!"7000", c!"V")] ∧ b.settings.vector.length = a.settings.vector.length := by
  obtain ⟨a, h1, h2⟩ := rich_keeps
  obtain ⟨b, h3, _⟩ := of_loaded (r := fromPrfWithOverlays richEnv richPrf both) (f := fun _ => true) (by decide +kernel)
  have hb : applyOverlays richEnv a both = .ok b := by
    unfold fromPrfWithOverlays at h3
    rw [h1] at h3
    exact h3
  obtain ⟨r, hr⟩ := both_sum hb
  refine ⟨a, b, h1, hb, ?_, ?_, ?_, ?_, ?_⟩
  · obtain ⟨x, hx, hg⟩ := C89_set (pre := []) (post := [overlay2]) both_evaluate hr hb (.top (.here ..)) (v := .str c!"merged")
      (.replace (d := .value (.str c!"merged")) (by simp) rfl) (by
        intro d hd
        obtain rfl := List.mem_singleton.1 hd
        exact no_touch rfl (by decide) _)
    cases hx
    exact Option.some.inj hg
  · have := C89_untouched h2 both_evaluate hr hb volumes_place (by
      intro d hd
      rcases List.mem_cons.1 hd with rfl | hd
      · exact no_touch rfl (by decide) _
      · obtain rfl := List.mem_singleton.1 hd
        exact no_touch rfl (by decide) _) (x := a.volumes) rfl
    exact Option.some.inj this
  · obtain ⟨x, hx, hg⟩ := C89_set (pre := [overlay1]) (post := []) both_evaluate hr hb (.field vector_place (fun _ => rfl) (.here ..))
      (v := .bool true) (.add List.mem_cons_self (.add (List.mem_cons_of_mem _ List.mem_cons_self) (.add List.mem_cons_self
        (.replace (d := .value (.bool true)) List.mem_cons_self rfl)))) (by simp)
    cases hx
    simpa using hg
  · obtain ⟨x, hx, hg⟩ := C89_set (pre := [overlay1]) (post := []) both_evaluate hr hb codes_place
      (.add List.mem_cons_self (.replace List.mem_cons_self rfl)) (by simp)
    have hx' : x = [(c!"7000", c!"V")] := (Option.some.inj hx).symm
    rw [← hx']
    exact Option.some.inj hg
  · have := C89_untouched h2 both_evaluate hr hb (.field vector_place (fun _ => rfl) (.there (by decide) (.here ..))) (by
      intro d hd
      rcases List.mem_cons.1 hd with rfl | hd
      · intro h
        cases h with
        | replace _ hm => simp at hm
        | add hm h =>
          simp at hm
          subst hm
          exact no_touch rfl (by decide) _ h
      · obtain rfl := List.mem_singleton.1 hd
        intro h
        cases h with
        | replace _ hm => simp at hm
        | add hm h =>
          simp at hm
          subst hm
          cases h with
          | replace _ hm => simp at hm
          | add hm h =>
            simp at hm
            subst hm
            cases h with
            | replace _ hm => simp at hm
            | add hm h =>
              simp at hm
              subst hm
              exact no_touch rfl (by decide) _ h) (x := a.settings.vector.length) rfl
    exact Option.some.inj this

/-! ## A number that is not finite -/

/-- Whole numbers and infinity (`none`). -/
abbrev Num := Option Int

instance : F64 Num := ⟨fun s => if s = c!"inf" then some none else some (some (whole s)), fun s hs => by
  by_cases h : s = c!"inf" <;> simp [h]⟩
instance : F32Ops Num := ⟨fun _ _ => none, fun _ _ => none, fun _ _ => some 1, fun a b => decide (a = b), id⟩
instance : JsonFloat Num := ⟨fun n => n.map fun n => (n : Rat), fun q => some q.num⟩
instance : LawfulJsonFloat Num := ⟨fun x y q h h' => by
  cases x with
  | none => cases h
  | some x => cases y with
    | none => cases h'
    | some y =>
      have : (x : Rat) = y := (Option.some.inj h).trans (Option.some.inj h').symm
      rw [Rat.intCast_inj.1 this]⟩

def infinite : Env Int Num where
  read := (env ([(c!"TopSkySettings.txt", c!"Maps_FontSize=inf\n")] ++ files)).read
  lossy _ := []
  fits _ := true
  upper := id
  fmt _ := c!"0"
  int := id
  nat n := some n
  quantize := id
  dequantize := id
  choose := List.head?
  ccw := id
  order _ _ _ l := l
  evaluate j ps := ps.foldlM (fun j p => (overlay p).bind (plus j)) j

/-- C88, negation: the adaptation is loaded without overlays but not with the empty overlay. -/
example : ∃ a, fromPrf infinite prf = .ok a ∧ fromPrfWithOverlays infinite prf [[c!"home", c!"empty.jsonnet"]] = .error .overlays := by
  have h : (match fromPrf infinite prf with | .ok a => decide (a.settings.maps.fontSize = none) | .error _ => false) = true := by
    decide +kernel
  cases ha : fromPrf infinite prf with
  | error e => rw [ha] at h; cases h
  | ok a =>
    rw [ha] at h
    refine ⟨a, rfl, C88_not_finite ha ?_ (by simp) (docs := [.object []]) ⟨by simp [Doc.Proper, ProperFields], rfl, ?_⟩ (by simp)⟩
    · rw [of_decide_eq_true h]; rfl
    · exact fun j r h => h

end Verif.Props.AdaptationExample
