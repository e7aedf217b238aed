import Verif.Props.Setup
import Verif.Props.Prf
/-!
# C90: what is reported if an adaptation cannot be loaded from `adaptation.toml`
-/

namespace Verif.Props
open Verif.Adaptation Verif.Spec.Setup Verif.Proofs.Setup
open Verif.PrfPaths (Prf Path)
open Verif.Json (JsonFloat)
open Verif.Display (F32Ops)
open Verif.Dms (DmsArith)
open Verif.Parse.SymbolRule (Close)
open Verif.Locations (FloatOps)

variable {F G : Type} [F64 F] [DmsArith F] [DecidableEq F] [FloatOps F] [Close F] [F64 G] [F32Ops G] [UnicodeTables]
  [LE F] [DecidableLE F] [JsonFloat F] [JsonFloat G]

/-- **C90, no `adaptation.toml`.** -/
theorem C90_no_file {env : SetupEnv F G} {file : Path} (hr : env.read file = none) :
    fromAdaptationToml env file = .error (.unreadable file) := by
  unfold fromAdaptationToml parseSetup SetupEnv.readFile
  rw [hr]
  rfl

/-- **C90, not a setup.** -/
theorem C90_bad_toml {env : SetupEnv F G} {file : Path} {bytes : List Spec.Decode.Byte} (hr : env.read file = some bytes)
    (ht : env.toml bytes = none) : fromAdaptationToml env file = .error .toml := by
  unfold fromAdaptationToml parseSetup SetupEnv.readFile
  simp only [hr, bind, Except.bind, ht]

/-- **C90, the profile is missing**: the error names it. -/
theorem C90_profile_missing {env : SetupEnv F G} {dir : Path} {name : Str} {bytes : List Spec.Decode.Byte} (hr : env.read (dir ++ [name]) = some bytes)
    {profile : Str} {overlays : List Str} (ht : env.toml bytes = some (profile, overlays)) {p : Path} (hp : Named dir profile p)
    (hm : env.canonicalize p = none) : fromAdaptationToml env (dir ++ [name]) = .error (.unreadable p) := by
  unfold fromAdaptationToml parseSetup SetupEnv.readFile
  simp only [hr, bind, Except.bind, ht, PrfPaths.parent_append]
  unfold normalisePath
  rw [join_named hp, hm]

theorem mapM_first {env : SetupEnv F G} {dir : Path} {before after : List Str} {s : Str} (hb : ∀ t ∈ before, ∃ q, Found env dir t q)
    {p : Path} (hp : Named dir s p) (hm : env.canonicalize p = none) :
    (before ++ s :: after).mapM (normalisePath env dir) = .error (.unreadable p) := by
  induction before with
  | nil =>
    rw [List.nil_append, List.mapM_cons]
    unfold normalisePath
    rw [join_named hp, hm]
    rfl
  | cons t before ih =>
    obtain ⟨q, hq⟩ := hb t (by simp)
    rw [List.cons_append, List.mapM_cons, normalise_found hq]
    rw [show ((Except.ok q : Except SetupFailure Path) >>= fun b => ((before ++ s :: after).mapM (normalisePath env dir)) >>= fun bs => pure (b :: bs)) =
      ((before ++ s :: after).mapM (normalisePath env dir)) >>= fun bs => pure (q :: bs) from rfl, ih fun t ht => hb t (by simp [ht])]
    rfl

/-- **C90, an overlay is missing**: the error names the first one that is. -/
theorem C90_overlay_missing {env : SetupEnv F G} {dir : Path} {name : Str} {bytes : List Spec.Decode.Byte} (hr : env.read (dir ++ [name]) = some bytes)
    {profile : Str} {before after : List Str} {s : Str} (ht : env.toml bytes = some (profile, before ++ s :: after))
    {q : Path} (hq : Found env dir profile q) (hb : ∀ t ∈ before, ∃ q, Found env dir t q) {p : Path} (hp : Named dir s p)
    (hm : env.canonicalize p = none) : fromAdaptationToml env (dir ++ [name]) = .error (.unreadable p) := by
  unfold fromAdaptationToml parseSetup SetupEnv.readFile
  simp only [hr, bind, Except.bind, ht, PrfPaths.parent_append, normalise_found hq]
  rw [mapM_first hb hp hm]

/-- **C90, the profile is unusable**: it cannot be read, or it is not a profile. -/
theorem C90_profile_unusable {env : SetupEnv F G} {dir : Path} {name : Str} {bytes : List Spec.Decode.Byte} (hr : env.read (dir ++ [name]) = some bytes)
    {profile : Str} {overlays : List Str} (ht : env.toml bytes = some (profile, overlays)) {p : Path} (hp : Found env dir profile p)
    (ho : ∀ t ∈ overlays, ∃ q, Found env dir t q) :
    (env.read p = none → fromAdaptationToml env (dir ++ [name]) = .error (.unreadable p)) ∧
    (∀ content, env.read p = some content → (¬ ∃ ws, ws ≠ [] ∧ Spec.Prf.IsFile (Decode.readToString env.lossy content) ws) →
      fromAdaptationToml env (dir ++ [name]) = .error .prf) := by
  have hqs : ∃ qs, overlays.mapM (normalisePath env dir) = .ok qs := by
    clear ht
    induction overlays with
    | nil => exact ⟨[], rfl⟩
    | cons t ts ih =>
      obtain ⟨q, hq⟩ := ho t (by simp)
      obtain ⟨qs, hqs⟩ := ih fun t ht => ho t (by simp [ht])
      exact ⟨q :: qs, by rw [List.mapM_cons, normalise_found hq, hqs]; rfl⟩
  obtain ⟨qs, hqs⟩ := hqs
  unfold fromAdaptationToml parseSetup SetupEnv.readFile
  simp only [hr, bind, Except.bind, ht, PrfPaths.parent_append, normalise_found hp, hqs]
  constructor
  · intro h
    rw [h]
  · intro content hc hn
    have h1 := C07_prf_no_panic (Decode.readToString env.lossy content)
    rw [← h1.2] at hn
    have h2 := h1.1.resolve_left hn
    simp only [hc, parseProfile, h2]

/-- **C90, no panic.**  Nothing but what is said of the profile in C80 makes the program panic, if the root of the file system is not a
file. -/
theorem C90_no_panic {env : SetupEnv F G} (hroot : env.read [] = none) (file : Path) : fromAdaptationToml env file ≠ .error .panic := by
  intro h
  rcases List.eq_nil_or_concat file with rfl | ⟨dir, name, rfl⟩
  · rw [C90_no_file hroot] at h
    cases h
  · rw [List.concat_eq_append] at h
    unfold fromAdaptationToml parseSetup SetupEnv.readFile at h
    cases hr : env.read (dir ++ [name]) with
    | none => rw [hr] at h; cases h
    | some bytes =>
      simp only [hr, bind, Except.bind] at h
      cases ht : env.toml bytes with
      | none => rw [ht] at h; cases h
      | some e =>
        obtain ⟨profile, overlays⟩ := e
        simp only [ht, PrfPaths.parent_append] at h
        have hn : ∀ s e, normalisePath env dir s = .error e → e ≠ .panic := by
          intro s e he
          unfold normalisePath at he
          split at he <;> cases he
          simp
        have hm : ∀ (l : List Str) e, l.mapM (normalisePath env dir) = .error e → e ≠ .panic := by
          intro l
          induction l with
          | nil => intro e he; cases he
          | cons s l ih =>
            intro e he
            rw [List.mapM_cons] at he
            cases hs : normalisePath env dir s with
            | error e' =>
              rw [hs] at he
              cases he
              exact hn _ _ hs
            | ok q =>
              rw [hs] at he
              cases hl : l.mapM (normalisePath env dir) with
              | error e' =>
                rw [hl] at he
                cases he
                exact ih _ hl
              | ok qs => rw [hl] at he; cases he
        cases hp : normalisePath env dir profile with
        | error e =>
          rw [hp] at h
          cases h
          exact hn _ _ hp rfl
        | ok p =>
          rw [hp] at h
          simp only at h
          cases hq : overlays.mapM (normalisePath env dir) with
          | error e =>
            rw [hq] at h
            cases h
            exact hm _ _ hq rfl
          | ok ps =>
            rw [hq] at h
            simp only at h
            cases hc : env.read p with
            | none => rw [hc] at h; cases h
            | some content =>
              rw [hc] at h
              simp only [parseProfile] at h
              rcases (C07_prf_no_panic (Decode.readToString env.lossy content)).1 with ⟨m, h1⟩ | h1
              · rw [h1] at h
                simp only at h
                split at h
                · rename_i h2
                  split at h2
                  · cases h2; cases h
                  · cases h2
                · split at h <;> cases h
              · rw [h1] at h
                cases h

end Verif.Props
