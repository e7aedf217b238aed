import Verif.Props.Converted
import Verif.Props.SetupExample
/-!
# An adaptation whose files have been converted to CR LF
-/

namespace Verif.Props.AdaptationExample
open Verif.Adaptation Verif.Spec Verif.Spec.Decode
open Verif.PrfPaths (Prf Path)

attribute [local instance] asciiTables

/-- Every line end as `0D 0A`. -/
def crlfBytes (l : List Byte) : List Byte := l.flatMap fun b => if b = 0x0A then [0x0D, 0x0A] else [b]

theorem crlfBytes_same {l : List Byte} (h : ∀ b ∈ l, b ≠ 0x0D) : SameLineBytes l (crlfBytes l) := by
  induction l with
  | nil => exact .nil
  | cons b l ih =>
    have ih := ih fun x hx => h x (by simp [hx])
    rcases Classical.em (b = 0x0A) with rfl | hb
    · exact SameLineBytes.lineEnd (e := [0x0A]) (f := [0x0D, 0x0A]) (Or.inl rfl) (Or.inr rfl) ih
    · have : crlfBytes (b :: l) = b :: crlfBytes l := by simp [crlfBytes, hb]
      rw [this]
      exact .byte b (h b (by simp)) hb ih

/-- Reading the TOML file, whatever its line ends. -/
def toCrlf : SetupEnv Int Int := { setupEnv [] with toml := fun b => (setupEnv []).toml (b.filter (· ≠ 0x0D)) }

/-- The converted files. -/
def crlfRead (p : Path) : Option (List Byte) := (toCrlf.read p).map crlfBytes

/-- The converted files are loaded. -/
example : loadedSetup (fromAdaptationToml { toCrlf with read := crlfRead } [c!"home", c!"adaptation.toml"])
    (fun a => (a.name, a.settings.asrFiles)) = .inr (c!"EDMM 2401", [[c!"home", c!"x.asr"]]) := by decide +kernel

/-! ## The hypotheses of C98 are met -/

theorem files_ascii : ∀ f ∈ setupFiles, ∀ b ∈ bytes f.2, b.val < 128 ∧ b ≠ 0x0D := by decide +kernel

theorem read_file {p : Path} {b : List Byte} (h : toCrlf.read p = some b) : ∃ f ∈ setupFiles, b = bytes f.2 := by
  have key : ∀ n, (Map.get? setupFiles n).map bytes = some b → ∃ f ∈ setupFiles, b = bytes f.2 := by
    intro n hn
    cases hg : Map.get? setupFiles n with
    | none => rw [hg] at hn; cases hn
    | some s =>
      rw [hg] at hn
      obtain ⟨e, he, rfl⟩ := Verif.Proofs.Moved.mem_of_get? hg
      exact ⟨e, he, (Option.some.inj hn).symm⟩
  simp only [toCrlf, setupEnv] at h
  split at h
  · split at h
    · exact key _ h
    · cases h
  · cases h

theorem ascii_utf8 {l : List Byte} (h : ∀ b ∈ l, b.val < 128) : IsUtf8 l := by
  refine ⟨l.map fun b => Char.ofNat b.val, ?_⟩
  induction l with
  | nil => rfl
  | cons b l ih =>
    have hb := h b (by simp)
    rw [List.map_cons, List.flatMap_cons, ← ih fun x hx => h x (by simp [hx])]
    have : (Char.ofNat b.val).toNat = b.val := Verif.Decode.toNat_ofNat (Or.inl (by omega))
    simp only [encode, this, if_pos hb]
    rw [Verif.Decode.fin_eq rfl]
    rfl

theorem example_converted : Converted toCrlf.read crlfRead := by
  intro p
  unfold crlfRead
  cases h : toCrlf.read p with
  | none => exact Or.inl ⟨rfl, rfl⟩
  | some b =>
    obtain ⟨f, hf, rfl⟩ := read_file h
    exact Or.inr ⟨_, _, rfl, rfl, crlfBytes_same fun b hb => (files_ascii f hf b hb).2,
      Or.inl (ascii_utf8 fun b hb => (files_ascii f hf b hb).1)⟩

theorem filter_same {b b' : List Byte} (h : SameLineBytes b b') : b'.filter (· ≠ 0x0D) = b.filter (· ≠ 0x0D) := by
  induction h with
  | nil => rfl
  | byte b h1 h2 _ ih => rw [List.filter_cons_of_pos (by simpa using h1), List.filter_cons_of_pos (by simpa using h1), ih]
  | lineEnd he hf _ ih =>
    rw [List.filter_append, List.filter_append, ih]
    rcases he with rfl | rfl <;> rcases hf with rfl | rfl <;> rfl

theorem sameEntries_snoc {K : Type} {m m' : List (K × Str)} (h : SameEntries m m') (k : K) {v v' : Str} (hv : SameValue v v') :
    SameEntries (m ++ [(k, v)]) (m' ++ [(k, v')]) := by
  induction h with
  | nil => exact .cons k hv .nil
  | cons k2 h _ ih => exact .cons k2 h ih

theorem sameEntries_reverse {K : Type} {m m' : List (K × Str)} (h : SameEntries m m') : SameEntries m.reverse m'.reverse := by
  induction h with
  | nil => exact .nil
  | cons k h _ ih => rw [List.reverse_cons, List.reverse_cons]; exact sameEntries_snoc ih k h

def plainNames (r : Run (Parse.Sct.Sct Int)) : Bool :=
  match r with
  | .ok x => (drawings x).all fun d => d.name.all (· != '\r')
  | .error _ => true

theorem names_plain : ∀ f ∈ setupFiles,
    plainNames (Parse.Sct.parse (Verif.Decode.readToString (fun _ => []) (bytes f.2))) = true ∧
    plainNames (Parse.Sct.parse (Verif.Decode.readToString (fun _ => []) (crlfBytes (bytes f.2)))) = true := by decide +kernel

theorem plain_of {r : Run (Parse.Sct.Sct Int)} (h : plainNames r = true) {x : Parse.Sct.Sct Int} (hx : r = .ok x) :
    ∀ d ∈ drawings x, '\r' ∉ d.name := by
  subst hx
  intro d hd hm
  have := List.all_eq_true.1 (List.all_eq_true.1 h d hd) _ hm
  simp at this

/-- The settings of the profile. -/
def profileSettings : List Prf.Setting := [⟨c!"Settings", c!"sector", c!"\\edmm.sct"⟩, ⟨c!"Settings", c!"airways", c!"\\airway.txt"⟩,
  ⟨c!"Settings", c!"SettingsfileSYMBOLOGY", c!"\\sym.txt"⟩, ⟨c!"Settings", c!"airports", c!"\\airports.txt"⟩,
  ⟨c!"Settings", c!"airportcoords", c!"\\coords.txt"⟩, ⟨c!"Settings", c!"aircraft", c!"\\aircraft.txt"⟩,
  ⟨c!"Settings", c!"airlines", c!"\\airlines.txt"⟩, ⟨c!"Plugins", c!"Plugin0", c!"\\TopSky.dll"⟩,
  ⟨c!"RecentFiles", c!"Recent1", c!"\\x.asr"⟩]

def settingLine (w : Prf.Setting) : Str := w.category ++ ['\t'] ++ w.key ++ ['\t'] ++ w.value

theorem settings_file {ws : List Prf.Setting} (h : ∀ w ∈ ws, w.category ≠ [] ∧ (∀ c ∈ w.category, UnicodeTables.letter c = true) ∧
    w.key ≠ [] ∧ (∀ c ∈ w.key, Prf.isKeyChar c = true) ∧ w.value ≠ [] ∧ (∀ c ∈ w.value, c ≠ '\n') ∧
    ∀ c ∈ w.value.head?, Prf.isGapChar c = false) : Prf.IsFile (lines (ws.map settingLine)) ws := by
  induction ws with
  | nil => exact .last [] (by simp)
  | cons w ws ih =>
    have e : lines ((w :: ws).map settingLine) = settingLine w ++ '\n' :: lines (ws.map settingLine) := by
      simp [lines]
    rw [e]
    obtain ⟨h1, h2, h3, h4, h5, h6, h7⟩ := h w (by simp)
    exact .line w _ _ _ ⟨[], ['\t'], ['\t'], by simp [settingLine], by simp, by decide, by decide, h1, h2, h3, h4, h5, h6, h7, by simp, by simp⟩
      (ih fun w hw => h w (by simp [hw]))

theorem profile_file : PlainProfile profile :=
  ⟨profileSettings, by decide, by
    rw [show profile = lines (profileSettings.map settingLine) by decide +kernel]
    exact settings_file (by decide +kernel), by decide⟩

def toSum {E A : Type} : Except E A → E ⊕ A
  | .ok a => .inr a
  | .error e => .inl e

example : fromAdaptationToml { toCrlf with read := crlfRead } [c!"home", c!"adaptation.toml"] =
    fromAdaptationToml toCrlf [c!"home", c!"adaptation.toml"] := by
  refine C98_setup example_converted ?_ (fun m m' h => sameEntries_reverse h) ?_ ?_ ?_
  · intro b b' h
    show (setupEnv []).toml _ = (setupEnv []).toml _
    rw [filter_same h]
  · rintro p b ⟨overlays, h1⟩ h2
    have h3 : toSum (parseSetup toCrlf [c!"home", c!"adaptation.toml"]) = .inr ([c!"home", c!"edmm.prf"], []) := by decide +kernel
    rw [h1] at h3
    cases h3
    have h4 : toCrlf.read [c!"home", c!"edmm.prf"] = some (bytes profile) := by decide +kernel
    rw [h4] at h2
    cases h2
    have h5 : Verif.Decode.readToString toCrlf.lossy (bytes profile) = profile := by decide +kernel
    rw [h5]
    exact profile_file
  · intro prf _ p b x _ h2 h3
    obtain ⟨f, hf, rfl⟩ := read_file h2
    exact plain_of (names_plain f hf).1 h3
  · intro prf _ p b x _ h2 h3
    have h2 : crlfRead p = some b := h2
    unfold crlfRead at h2
    cases h : toCrlf.read p with
    | none => rw [h] at h2; cases h2
    | some b0 =>
      obtain ⟨f, hf, rfl⟩ := read_file h
      rw [h] at h2
      cases h2
      exact plain_of (names_plain f hf).2 h3

end Verif.Props.AdaptationExample
