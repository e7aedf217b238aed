import Verif.Proofs.Converted
import Verif.Proofs.Adaptation
import Verif.Proofs.JsonLines
/-!
# C98: converting the line ends of the files makes no difference

`Spec/Converted.lean` says what it means that files have been converted.
-/

namespace Verif.Props
open Verif.Spec Verif.Spec.Decode Verif.Adaptation Verif.Proofs.Converted
open Verif.PrfPaths (Prf Path)
open Verif.Json (JsonFloat)
open Verif.Display (F32Ops)
open Verif.Dms (DmsArith)
open Verif.Parse.SymbolRule (Close)
open Verif.Locations (FloatOps)

/-- Converting the line ends of a file converts the line ends of the text that is read, be it UTF-8 or windows-1252.
The result is again such a file. -/
theorem C98_text (lossy : List Byte → Str) {b b' : List Byte} (h : SameLineBytes b b') (hp : IsPlain b) :
    SameLines (Decode.readToString lossy b) (Decode.readToString lossy b') ∧ IsPlain b' :=
  ⟨read_same lossy h hp, isPlain_same h hp⟩

variable {F G : Type} [F64 F] [DmsArith F] [DecidableEq F] [FloatOps F] [Close F] [F64 G] [F32Ops G] [UnicodeTables]

theorem required_converted {A : Type} {env : Env F G} {r : Path → Option (List Byte)} (hr : Converted env.read r) (f : File)
    {path path' : Run Path} (hpath : path' = path) {parse : Str → Run A}
    (hs : ∀ p b b', path = .ok p → env.read p = some b → r p = some b' →
      SameLines (Decode.readToString env.lossy b) (Decode.readToString env.lossy b') →
      parse (Decode.readToString env.lossy b') = parse (Decode.readToString env.lossy b)) :
    required { env with read := r } f path' parse = required env f path parse := by
  subst hpath
  cases path' with
  | error e => rfl
  | ok p =>
    unfold required
    simp only [lift, bind, Except.bind]
    rcases hr p with ⟨h1, h2⟩ | ⟨b, b', h1, h2, h3, h4⟩
    · rw [h1, h2]
    · rw [h1, h2]
      simp only
      rw [hs p b b' rfl h1 h2 (read_same env.lossy h3 h4)]

theorem required_same {A : Type} {env : Env F G} {r : Path → Option (List Byte)} (hr : Converted env.read r) (f : File)
    {path path' : Run Path} (hpath : path' = path) {parse : Str → Run A} (hs : ∀ s t, SameLines s t → parse s = parse t) :
    required { env with read := r } f path' parse = required env f path parse :=
  required_converted hr f hpath fun _ _ _ _ _ _ h => (hs _ _ h).symm

theorem text_same {env : Env F G} {r : Path → Option (List Byte)} (hr : Converted env.read r) (p : Path) {A : Type}
    (f : Option Str → A) (hf : ∀ s t, SameLines s t → f (some s) = f (some t)) :
    f (text { env with read := r } p) = f (text env p) := by
  unfold text
  rcases hr p with ⟨h1, h2⟩ | ⟨b, b', h1, h2, h3, h4⟩
  · simp only [h1, h2]
  · simp only [h1, h2]
    exact (hf _ _ (read_same env.lossy h3 h4)).symm

theorem topsky_parse_same {env : Env F G} {r : Path → Option (List Byte)} (hr : Converted env.read r) (p q o : Path) :
    Parse.Topsky.parse (F := F) (G := G) env.upper (text { env with read := r } p) (text { env with read := r } q)
        (text { env with read := r } o) =
      Parse.Topsky.parse env.upper (text env p) (text env q) (text env o) := by
  have key := fun s t (h : SameLines s t) => C97_topsky (F := F) (G := G) env.upper h
  rw [text_same hr p (fun x => Parse.Topsky.parse (F := F) (G := G) env.upper x _ _) fun s t h => by
      simp only [Parse.Topsky.parse, (key s t h).1],
    text_same hr q (fun x => Parse.Topsky.parse (F := F) (G := G) env.upper _ x _) fun s t h => by
      simp only [Parse.Topsky.parse, (key s t h).2.1],
    text_same hr o (fun x => Parse.Topsky.parse (F := F) (G := G) env.upper _ _ x) fun s t h => by
      simp only [Parse.Topsky.parse, (key s t h).2.2]]

theorem json_converted {env : Env F G} {r : Path → Option (List Byte)} {b b' : List Byte} (h : SameLineBytes b b') :
    Env.json { env with read := r } b' = Env.json env b := by
  have key : ∀ {b b' : List Byte}, SameLineBytes b b' → ∀ j, JsonText.readBytes env.fits b = some j → JsonText.readBytes env.fits b' = some j := by
    intro b b' h j hj
    obtain ⟨s, rfl, ht⟩ := Proofs.JsonText.readBytes_iff.1 hj
    obtain ⟨s', rfl, hs⟩ := utf8_same s.length s (Nat.le_refl _) h
    exact Proofs.JsonText.readBytes_iff.2 ⟨s', rfl, Proofs.JsonText.text_lines ht hs⟩
  show JsonText.readBytes env.fits b' = JsonText.readBytes env.fits b
  cases hb : JsonText.readBytes env.fits b with
  | some j => exact key h j hb
  | none =>
    cases hb' : JsonText.readBytes env.fits b' with
    | none => rfl
    | some j => rw [key (sameLineBytes_symm h) j hb'] at hb; cases hb

variable [LE F] [DecidableLE F]

/-- **C98.** `r` are the same files with other line ends, and `prf'` is a profile whose values differ in carriage
returns at their ends only (see `C97_prf_partial`).  Then the outcome of loading is the same.  `ho` says
that the settings are searched in the same order. -/
theorem C98_load {env : Env F G} {r : Path → Option (List Byte)} (hr : Converted env.read r)
    {m m' : Parse.Prf.Settings} {path : Path} {cwd : Option Path}
    (hm : SameEntries m m') (ho : SameEntries (env.order .settings m) (env.order .settings m'))
    (hd : PlainDrawings env ⟨m, path, cwd⟩) (hd' : PlainDrawings { env with read := r } ⟨m', path, cwd⟩) :
    fromPrf { env with read := r } ⟨m', path, cwd⟩ = fromPrf env ⟨m, path, cwd⟩ := by
  obtain ⟨hp, hrec, _⟩ := C97_prf_paths hm path cwd
  have hp : ∀ f ∈ [PrfPaths.sctPath, PrfPaths.esePath, PrfPaths.airwaysPath, PrfPaths.isecPath, PrfPaths.navdataAirportsPath,
      PrfPaths.airlinesPath, PrfPaths.aircraftPath, PrfPaths.airportsPath, PrfPaths.symbologyPath],
      f ⟨m', path, cwd⟩ = f ⟨m, path, cwd⟩ := fun f hf => (hp f hf).symm
  have e1 : required { env with read := r } .sct (PrfPaths.sctPath ⟨m', path, cwd⟩) (Parse.Sct.parse (F := F)) =
      required env .sct (PrfPaths.sctPath ⟨m, path, cwd⟩) (Parse.Sct.parse (F := F)) := by
    refine required_converted hr _ (hp _ (by simp)) ?_
    intro p b b' h1 h2 h3 h4
    cases hx : Parse.Sct.parse (F := F) (Decode.readToString env.lossy b) with
    | error e => exact (C97_sct_error h4 e).1 hx
    | ok x =>
      cases hy : Parse.Sct.parse (F := F) (Decode.readToString env.lossy b') with
      | error e => rw [(C97_sct_error h4 e).2 hy] at hx; cases hx
      | ok y =>
        rw [C97_sct h4 hx hy (hd p b x h1 h2 hx) (hd' p b' y ((hp _ (by simp)).trans h1) h3 hy)]
  have e2 := required_same hr .ese (hp PrfPaths.esePath (by simp)) (parse := Parse.Ese.parse (F := F) G) fun _ _ h => C97_ese h
  have e3 := required_same hr .airways (hp PrfPaths.airwaysPath (by simp)) (parse := parseAirways env) fun _ _ h =>
    @C97_airways F _ _ _ ⟨fun p => env.quantize (p.x, p.y)⟩ h
  have e4 := required_same hr .symbology (hp PrfPaths.symbologyPath (by simp)) (parse := Parse.Symbology.parse (F := F) (G := G))
    fun _ _ h => C97_symbology h
  have e5 := required_same hr .airports (hp PrfPaths.airportsPath (by simp)) (parse := Parse.Icao.parseAirports)
    fun _ _ h => (C97_icao (F := F) h).2.1
  have e6 := required_same hr .navdata (hp PrfPaths.navdataAirportsPath (by simp)) (parse := Parse.Icao.parseNavdataAirports (F := F))
    fun _ _ h => (C97_icao h).2.2.1
  have e7 := required_same hr .aircraft (hp PrfPaths.aircraftPath (by simp)) (parse := Parse.Icao.parseAircraft)
    fun _ _ h => (C97_icao (F := F) h).1
  have e8 := required_same hr .airlines (hp PrfPaths.airlinesPath (by simp)) (parse := Parse.Icao.parseAirlines)
    fun _ _ h => (C97_icao (F := F) h).2.2.2
  have e9 : squawks { env with read := r } ⟨m', path, cwd⟩ = squawks env ⟨m, path, cwd⟩ := by
    unfold squawks
    have : PrfPaths.squawksPath ⟨m', path, cwd⟩ (env.order .settings m') = PrfPaths.squawksPath ⟨m, path, cwd⟩ (env.order .settings m) := by
      simp only [PrfPaths.squawksPath, Verif.Proofs.LineEnds.sameEntries_find ho m m' path cwd]
    show (lift (PrfPaths.squawksPath ⟨m', path, cwd⟩ (env.order .settings m')) >>= _) = _
    rw [this]
    cases PrfPaths.squawksPath ⟨m, path, cwd⟩ (env.order .settings m) with
    | error e => rfl
    | ok q =>
      cases q with
      | none => rfl
      | some q =>
        show Except.ok ((r q).bind env.squawks) = Except.ok ((env.read q).bind env.squawks)
        rcases hr q with ⟨h1, h2⟩ | ⟨b, b', h1, h2, h3, h4⟩
        · rw [h1, h2]
        · rw [h1, h2]
          simp only [Option.bind_some, Env.squawks, json_converted h3]
  have e10 : topsky { env with read := r } ⟨m', path, cwd⟩ = topsky env ⟨m, path, cwd⟩ := by
    unfold topsky
    have : PrfPaths.topskyPath ⟨m', path, cwd⟩ (env.order .settings m') = PrfPaths.topskyPath ⟨m, path, cwd⟩ (env.order .settings m) :=
      (Verif.Proofs.LineEnds.sameEntries_find ho m m' path cwd _).symm
    show (lift (PrfPaths.topskyPath ⟨m', path, cwd⟩ (env.order .settings m')) >>= _) = _
    rw [this]
    cases PrfPaths.topskyPath ⟨m, path, cwd⟩ (env.order .settings m) with
    | error e => rfl
    | ok q =>
      cases q with
      | none => rfl
      | some q =>
        simp only [lift, bind, Except.bind]
        rw [topsky_parse_same hr]
  have e11 : ∀ items t q, Display.Settings.fromEuroscope (F := F) (G := G) items t q ⟨m', path, cwd⟩ =
      Display.Settings.fromEuroscope items t q ⟨m, path, cwd⟩ := by
    intro items t q
    have : ∀ l, Display.recentPaths ⟨m', path, cwd⟩ l = Display.recentPaths ⟨m, path, cwd⟩ l := by
      intro l
      induction l with
      | nil => rfl
      | cons i l ih => unfold Display.recentPaths; rw [ih, hrec i]
    unfold Display.Settings.fromEuroscope
    rw [this]
  unfold fromPrf
  rw [e1, e2, e4, e5, e6, e7, e8, e9, e10]
  simp only [e11]
  rw [show required { env with read := r } .airways (PrfPaths.airwaysPath ⟨m', path, cwd⟩) (parseAirways { env with read := r }) = _ from e3]
  rfl

variable [JsonFloat F] [JsonFloat G]

/-- **C98.** The same for loading by way of `adaptation.toml`, with the profile and the overlays it names.  `ht` says that for
TOML line ends make no difference. -/
theorem C98_setup {env : SetupEnv F G} {r : Path → Option (List Byte)} (hr : Converted env.read r)
    (ht : ∀ b b', SameLineBytes b b' → env.toml b' = env.toml b)
    (ho : ∀ m m' : Parse.Prf.Settings, SameEntries m m' → SameEntries (env.order .settings m) (env.order .settings m'))
    {file : Path} (hp : ∀ p b, ProfileAt env file p → env.read p = some b → PlainProfile (Decode.readToString env.lossy b))
    (hd : ∀ prf, IsProfile env file prf → PlainDrawings env.toEnv prf)
    (hd' : ∀ prf, IsProfile { env with read := r } file prf → PlainDrawings { env.toEnv with read := r } prf) :
    fromAdaptationToml { env with read := r } file = fromAdaptationToml env file := by
  have e1 : parseSetup { env with read := r } file = parseSetup env file := by
    unfold parseSetup SetupEnv.readFile
    rcases hr file with ⟨h1, h2⟩ | ⟨b, b', h1, h2, h3, _⟩
    · simp only [h1, h2]
      rfl
    · simp only [h1, h2, bind, Except.bind, ht b b' h3]
      rfl
  unfold fromAdaptationToml
  rw [e1]
  cases hx : parseSetup env file with
  | error e => rfl
  | ok x =>
    obtain ⟨p, overlays⟩ := x
    have hpp : ProfileAt env file p := ⟨overlays, hx⟩
    have hpp' : ProfileAt { env with read := r } file p := ⟨overlays, e1.trans hx⟩
    simp only [bind, Except.bind, SetupEnv.readFile]
    rcases hr p with ⟨h1, h2⟩ | ⟨b, b', h1, h2, h3, h4⟩
    · rw [h1, h2]
    · rw [h1, h2]
      simp only
      have hl := read_same env.lossy h3 h4
      obtain ⟨ws, hne, hf, hv⟩ := hp p b hpp h1
      obtain ⟨m, m', g1, g2, g3⟩ := C97_prf_partial hl hf hne hv
      unfold parseProfile
      rw [g1, g2]
      simp only
      cases hq : env.canonicalize p with
      | none => rfl
      | some q =>
        simp only
        have i1 : IsProfile env file ⟨m, q, env.cwd⟩ := ⟨p, b, hpp, h1, by simp only [parseProfile, g1, hq]⟩
        have i2 : IsProfile { env with read := r } file ⟨m', q, env.cwd⟩ := ⟨p, b', hpp', h2, by simp only [parseProfile, g2, hq]⟩
        have := C98_load (F := F) (G := G) (env := env.toEnv) hr (path := q) (cwd := env.cwd) g3 (ho m m' g3) (hd _ i1) (hd' _ i2)
        unfold fromPrfWithOverlays
        rw [show fromPrf { env.toEnv with read := r } ⟨m', q, env.cwd⟩ = _ from this]
        rfl

end Verif.Props
