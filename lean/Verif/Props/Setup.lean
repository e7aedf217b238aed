import Verif.Proofs.Setup
import Verif.Props.Adaptation
/-!
# C90, C91: adaptations given by `adaptation.toml`, and moved directories

The words of the statements are in `Verif.Spec.Setup` and `Verif.Spec.Moved`.
-/

namespace Verif.Props
open Verif.Adaptation Verif.Spec.Adaptation Verif.Proofs.Adaptation Verif.Spec.PrfPaths Verif.Spec.Moved Verif.Spec.Setup
open Verif.Proofs.Moved Verif.Proofs.Setup
open Verif.PrfPaths (Prf Path isWhitespace)
open Verif.Json (JsonFloat)
open Verif.Display (F32Ops)
open Verif.Dms (DmsArith)
open Verif.Parse.SymbolRule (Close)
open Verif.Locations (FloatOps)

section
variable {F G : Type} [F64 F] [DmsArith F] [DecidableEq F] [FloatOps F] [Close F] [F64 G] [F32Ops G] [UnicodeTables]
  [LE F] [DecidableLE F]

/-! ## C91: moved directories -/

/-- **C91, profiles.**  A profile that is copied together with its directory gives the same adaptation, except that the ASR files are
those of the copy. -/
theorem C91_moved_profile {env : Env F G} (ho : AnyOrder env) {dir dir' : Path} (ht : SameTree env dir dir') {settings : Parse.Prf.Settings}
    (hv : ∀ e ∈ settings, Inside e.2) {name name' : Str} {cwd : Path} {a : Adaptation F G}
    (h : fromPrf env ⟨settings, dir ++ [name], some cwd⟩ = .ok a) :
    ∃ paths, fromPrf env ⟨settings, dir' ++ [name'], some cwd⟩ = .ok (withAsrFiles a paths) ∧
      MovedAll dir dir' a.settings.asrFiles paths :=
  fromPrf_moved (prf := ⟨settings, dir ++ [name], some cwd⟩) (prf' := ⟨settings, dir' ++ [name'], some cwd⟩) ho ht rfl rfl rfl rfl rfl hv h

theorem join_cwd {settings : Parse.Prf.Settings} {dir : Path} {name : Str} {v : Str} (hv : ∀ u, Trimmed isWhitespace v u → Rooted u)
    (cwd cwd' : Option Path) : PrfPaths.joinSettingsPath ⟨settings, dir ++ [name], cwd⟩ v =
      PrfPaths.joinSettingsPath ⟨settings, dir ++ [name], cwd'⟩ v := by
  obtain ⟨u, hu⟩ := PrfPaths.trim_exists v
  obtain ⟨c, rel, rfl, hs⟩ := hv u hu
  rw [PrfPaths.resolve_rooted rfl hu hs, PrfPaths.resolve_rooted rfl hu hs]

theorem setting_cwd {settings : Parse.Prf.Settings} (hv : ∀ e ∈ settings, ∀ u, Trimmed isWhitespace e.2 u → Rooted u)
    {dir : Path} {name : Str} (cwd cwd' : Option Path) (key : Str) :
    (PrfPaths.setting ⟨settings, dir ++ [name], cwd⟩ key >>= fun v => PrfPaths.joinSettingsPath ⟨settings, dir ++ [name], cwd⟩ v) =
    (PrfPaths.setting ⟨settings, dir ++ [name], cwd'⟩ key >>= fun v => PrfPaths.joinSettingsPath ⟨settings, dir ++ [name], cwd'⟩ v) := by
  unfold PrfPaths.setting
  cases hg : Map.get? settings (c!"Settings", key) with
  | none => rfl
  | some v =>
    obtain ⟨e, he, rfl⟩ := mem_of_get? hg
    exact join_cwd (hv e he) cwd cwd'

theorem findFile_cwd {settings : Parse.Prf.Settings} {es : List ((Str × Str) × Str)}
    (hv : ∀ e ∈ es, ∀ u, Trimmed isWhitespace e.2 u → Rooted u) {dir : Path} {name : Str} (cwd cwd' : Option Path) (n : Str) :
    PrfPaths.findFile ⟨settings, dir ++ [name], cwd⟩ n es = PrfPaths.findFile ⟨settings, dir ++ [name], cwd'⟩ n es := by
  induction es with
  | nil => rfl
  | cons e es ih =>
    unfold PrfPaths.findFile
    rw [join_cwd (hv e (by simp)) cwd cwd', ih fun e he => hv e (by simp [he])]

theorem recentPaths_cwd {settings : Parse.Prf.Settings} (hv : ∀ e ∈ settings, ∀ u, Trimmed isWhitespace e.2 u → Rooted u)
    {dir : Path} {name : Str} (cwd cwd' : Option Path) (l : List Nat) :
    Display.recentPaths ⟨settings, dir ++ [name], cwd⟩ l = Display.recentPaths ⟨settings, dir ++ [name], cwd'⟩ l := by
  induction l with
  | nil => rfl
  | cons i l ih =>
    unfold Display.recentPaths
    rw [ih]
    have : PrfPaths.recentPath ⟨settings, dir ++ [name], cwd⟩ i = PrfPaths.recentPath ⟨settings, dir ++ [name], cwd'⟩ i := by
      unfold PrfPaths.recentPath
      show (match Map.get? settings _ with | none => _ | some v => _) = (match Map.get? settings _ with | none => _ | some v => _)
      cases hg : Map.get? settings (c!"RecentFiles", c!"Recent" ++ showNat i) with
      | none => rfl
      | some v =>
        obtain ⟨e, he, rfl⟩ := mem_of_get? hg
        simp only [join_cwd (hv e he) cwd cwd']
    rw [this]

/-- **C91, the current directory.**  Whatever the current directory is, a profile whose values are all relative to the profile gives
the same result. -/
theorem C91_current_directory {env : Env F G} (ho : AnyOrder env) {settings : Parse.Prf.Settings}
    (hv : ∀ e ∈ settings, ∀ u, Trimmed isWhitespace e.2 u → Rooted u) {dir : Path} {name : Str} (cwd cwd' : Option Path) :
    fromPrf env ⟨settings, dir ++ [name], cwd⟩ = fromPrf env ⟨settings, dir ++ [name], cwd'⟩ := by
  have hk := setting_cwd hv (dir := dir) (name := name) cwd cwd'
  have hes : ∀ e ∈ env.order .settings settings, ∀ u, Trimmed isWhitespace e.2 u → Rooted u :=
    fun e he => hv e ((ho .settings settings).mem_iff.1 he)
  have h1 : squawks env ⟨settings, dir ++ [name], cwd⟩ = squawks env ⟨settings, dir ++ [name], cwd'⟩ := by
    unfold squawks PrfPaths.squawksPath
    simp only [findFile_cwd hes cwd cwd']
  have h2 : topsky env ⟨settings, dir ++ [name], cwd⟩ = topsky env ⟨settings, dir ++ [name], cwd'⟩ := by
    unfold topsky PrfPaths.topskyPath
    simp only [findFile_cwd hes cwd cwd']
  have h3 : PrfPaths.esePath ⟨settings, dir ++ [name], cwd⟩ = PrfPaths.esePath ⟨settings, dir ++ [name], cwd'⟩ := by
    have e : ∀ prf, PrfPaths.esePath prf = (PrfPaths.setting prf c!"sector" >>= fun v => PrfPaths.joinSettingsPath prf v) >>=
        fun p => .ok (PrfPaths.withExtension p c!"ese") := by
      intro prf
      unfold PrfPaths.esePath
      cases PrfPaths.setting prf c!"sector" <;> rfl
    rw [e, e, hk]
  unfold fromPrf
  rw [h1, h2, h3]
  unfold PrfPaths.sctPath PrfPaths.airwaysPath PrfPaths.symbologyPath PrfPaths.airportsPath PrfPaths.navdataAirportsPath
    PrfPaths.aircraftPath PrfPaths.airlinesPath
  simp only [hk]
  unfold Display.Settings.fromEuroscope
  simp only [recentPaths_cwd hv cwd cwd']

/-! ## C90: `adaptation.toml` -/

variable [JsonFloat F] [JsonFloat G]

/-- **C90, what is loaded.**  The profile and the overlays are the files named in `adaptation.toml`, relative to its directory; the
overlays are applied in the order in which they are named. -/
theorem C90_setup {env : SetupEnv F G} {dir : Path} {name : Str} {bytes : List Spec.Decode.Byte} (hr : env.read (dir ++ [name]) = some bytes)
    {profile : Str} {overlays : List Str} (ht : env.toml bytes = some (profile, overlays))
    {p : Path} (hp : Found env dir profile p) {ps : List Path} (hl : overlays.length = ps.length)
    (hps : ∀ e ∈ overlays.zip ps, Found env dir e.1 e.2) {content : List Spec.Decode.Byte} (hc : env.read p = some content)
    {settings : Parse.Prf.Settings} (hs : Parse.Prf.parsePrf (Decode.readToString env.lossy content) = .ok settings)
    (hcp : env.canonicalize p = some p) :
    (∀ a, fromAdaptationToml env (dir ++ [name]) = .ok a ↔ fromPrfWithOverlays env.toEnv ⟨settings, p, env.cwd⟩ ps = .ok a) ∧
    (∀ e, fromAdaptationToml env (dir ++ [name]) = .error e ↔
      ∃ e', e = .adaptation e' ∧ fromPrfWithOverlays env.toEnv ⟨settings, p, env.cwd⟩ ps = .error e') := by
  have h : fromAdaptationToml env (dir ++ [name]) = match fromPrfWithOverlays env.toEnv ⟨settings, p, env.cwd⟩ ps with
      | .ok a => .ok a
      | .error e => .error (.adaptation e) := by
    unfold fromAdaptationToml parseSetup SetupEnv.readFile
    rw [hr]
    simp only [bind, Except.bind, ht, PrfPaths.parent_append, normalise_found hp]
    have := mapM_found hl hps
    rw [this]
    simp only [hc]
    unfold parseProfile
    rw [hs, hcp]
    rfl
  rw [h]
  cases fromPrfWithOverlays env.toEnv ⟨settings, p, env.cwd⟩ ps with
  | ok a => simp
  | error e => simp [eq_comm]

/-- **C90, missing files.**  If the profile or an overlay is missing, there is no adaptation. -/
theorem C90_missing {env : SetupEnv F G} {dir : Path} {name : Str} {bytes : List Spec.Decode.Byte} (hr : env.read (dir ++ [name]) = some bytes)
    {profile : Str} {overlays : List Str} (ht : env.toml bytes = some (profile, overlays)) {s : Str} (hs : s ∈ profile :: overlays)
    (hm : Missing env dir s) (a : Adaptation F G) : fromAdaptationToml env (dir ++ [name]) ≠ .ok a := by
  intro h
  obtain ⟨p, _, hp⟩ := normalise_missing hm
  unfold fromAdaptationToml parseSetup SetupEnv.readFile at h
  rw [hr] at h
  simp only [bind, Except.bind, ht, PrfPaths.parent_append] at h
  rcases List.mem_cons.1 hs with rfl | hs
  · rw [hp] at h
    cases h
  · cases hq : normalisePath env dir profile with
    | error e => rw [hq] at h; cases h
    | ok q =>
      rw [hq] at h
      cases hqs : overlays.mapM (normalisePath env dir) with
      | error e => simp only [hqs] at h; cases h
      | ok qs =>
        obtain ⟨b, hb⟩ := mapM_error hqs s hs
        rw [hp] at hb
        cases hb

theorem movedAll_below {dir dir' sub : Path} (hs : ['.', '.'] ∉ sub) {ps qs : List Path} (h : MovedAll (dir ++ sub) (dir' ++ sub) ps qs) :
    MovedAll dir dir' ps qs := by
  refine ⟨h.1, fun e he => ?_⟩
  rcases h.2 e he with h | ⟨rel, h1, h2, h3⟩
  · exact .inl h
  · exact .inr ⟨sub ++ rel, by simp [hs, h1], by simp [h2], by simp [h3]⟩

/-- **C91, setups.**  An `adaptation.toml` without overlays that is copied together with its directory, in which the profile is, gives
the same adaptation, except that the ASR files are those of the copy. -/
theorem C91_moved_setup {env : SetupEnv F G} (ho : AnyOrder env.toEnv) {dir dir' : Path} (ht : SameTree env.toEnv dir dir')
    (hl : SameLinks env dir dir') (hcan : ∀ p q, env.canonicalize p = some q → env.canonicalize q = some q)
    (hdir : env.read dir = none) {cwd : Path} (hcwd : env.cwd = some cwd)
    {name : Str} (hname : name ≠ ['.', '.']) {bytes : List Spec.Decode.Byte} (hr : env.read (dir ++ [name]) = some bytes)
    {n : Str} {rel : Path} (hn : ∀ m ∈ n :: rel, Proper m ∧ m ≠ ['.', '.'])
    (htoml : env.toml bytes = some (n ++ rel.flatMap fun m => '/' :: m, []))
    (hv : ∀ p content settings, env.canonicalize (dir ++ n :: rel) = some p → env.read p = some content →
      Parse.Prf.parsePrf (Decode.readToString env.lossy content) = .ok settings → ∀ e ∈ settings, Inside e.2)
    {a : Adaptation F G} (h : fromAdaptationToml env (dir ++ [name]) = .ok a) :
    ∃ paths, fromAdaptationToml env (dir' ++ [name]) = .ok (withAsrFiles a paths) ∧ MovedAll dir dir' a.settings.asrFiles paths := by
  have hnd : ∀ d, Named d (n ++ rel.flatMap fun m => '/' :: m) (d ++ n :: rel) := fun d => .relative fun m hm => (hn m hm).1
  have hdots : ['.', '.'] ∉ n :: rel := fun hm => (hn _ hm).2 rfl
  rcases hl _ hdots with ⟨h1, _⟩ | ⟨rel', hrel', h1, h2⟩
  · exact absurd h (C90_missing hr htoml (by simp) ⟨_, hnd dir, h1⟩ a)
  · have hc1 := hcan _ _ h1
    have hc2 := hcan _ _ h2
    have hread := ht rel' hrel'
    have hr' : env.read (dir' ++ [name]) = some bytes := by rw [← ht [name] (by simpa [eq_comm] using hname), hr]
    cases hcont : env.read (dir ++ rel') with
    | none =>
      unfold fromAdaptationToml parseSetup SetupEnv.readFile at h
      rw [hr] at h
      simp only [bind, Except.bind, htoml, PrfPaths.parent_append, normalise_found ⟨_, hnd dir, h1⟩] at h
      simp only [List.mapM_nil, pure, Except.pure, hcont] at h
      cases h
    | some content =>
      cases hset : Parse.Prf.parsePrf (Decode.readToString env.lossy content) with
      | error e =>
        unfold fromAdaptationToml parseSetup SetupEnv.readFile at h
        rw [hr] at h
        simp only [bind, Except.bind, htoml, PrfPaths.parent_append, normalise_found ⟨_, hnd dir, h1⟩] at h
        simp only [List.mapM_nil, pure, Except.pure, hcont, parseProfile, hset] at h
        cases e <;> cases h
      | ok settings =>
        have hin := hv _ _ _ h1 hcont hset
        have e1 := ((C90_setup hr htoml ⟨_, hnd dir, h1⟩ (ps := []) rfl (by simp) hcont hset hc1).1 a).1 h
        have e2 := (C90_setup hr' htoml ⟨_, hnd dir', h2⟩ (ps := []) rfl (by simp) (hread ▸ hcont) hset hc2).1
        rw [C79_no_overlays, hcwd] at e1
        have hne : rel' ≠ [] := by
          rintro rfl
          rw [List.append_nil] at hcont
          rw [hcont] at hdir
          cases hdir
        obtain ⟨sub, file, rfl⟩ : ∃ sub file, rel' = sub ++ [file] := ⟨_, _, (List.dropLast_concat_getLast hne).symm⟩
        have hsub : ['.', '.'] ∉ sub := fun hm => hrel' (by simp [hm])
        rw [← List.append_assoc] at e1
        obtain ⟨paths, h3, h4⟩ := C91_moved_profile (dir := dir ++ sub) (dir' := dir' ++ sub) (name' := file) ho (fun r hr => by
          simpa using ht (sub ++ r) (by simp [hsub, hr])) hin e1
        refine ⟨paths, (e2 _).2 ?_, movedAll_below hsub h4⟩
        rw [C79_no_overlays, hcwd, ← List.append_assoc]
        exact h3

end
end Verif.Props
