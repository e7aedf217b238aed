import Verif.Props.AdaptationLoad
import Verif.Proofs.AdaptationKeys
import Verif.Spec.AdaptationContents
/-!
# What is in an adaptation: lemmas
-/

namespace Verif.Proofs.Adaptation
open Verif.Adaptation Verif.Spec.Adaptation Verif.Props
open Verif.PrfPaths (Prf Path)
open Verif.Display (F32Ops)
open Verif.Dms (DmsArith)
open Verif.Parse.SymbolRule (Close)
open Verif.Parse.Topsky (Topsky)
open Verif.Locations (FloatOps)
open Verif.Settings (SquawkDef)

theorem get?_mapSnd {K V W : Type} [DecidableEq K] (m : Map K V) (f : V → W) (k : K) :
    Map.get? (m.map fun e => (e.1, f e.2)) k = (Map.get? m k).map f := by
  induction m with
  | nil => rfl
  | cons e m ih =>
    by_cases hk : e.1 = k
    · simp [Map.get?, hk]
    · simp only [List.map_cons]
      simpa [Map.get?, hk, List.find?] using ih

theorem get?_perm {V : Type} {m m' : Map Str V} (hn : m.keys.Nodup) (hp : m'.Perm m) (k : Str) : Map.get? m' k = Map.get? m k := by
  have hn' : Map.keys m' |>.Nodup := (hp.map _).nodup_iff.2 hn
  apply Option.ext
  intro v
  rw [← Map.mem_iff_get? hn, ← Map.mem_iff_get? hn']
  exact hp.mem_iff

section
variable {F G : Type} [F64 F] [DmsArith F] [DecidableEq F] [FloatOps F] [Close F] [F64 G] [F32Ops G] [UnicodeTables]
  [LE F] [DecidableLE F]

theorem parsed_unique {A : Type} {env : Env F G} {prf : Prf} {f : File} {parse : Str → Run A} {a b : A} (h : Parsed env prf f parse a)
    (h' : Parsed env prf f parse b) : a = b := by
  obtain ⟨p, s, h1, h2, h3⟩ := h
  obtain ⟨q, t, h4, h5, h6⟩ := h'
  rw [h1] at h4
  cases h4
  rw [textAt_unique h2 h5] at h3
  rw [h3] at h6
  cases h6
  rfl

theorem parsed_of_text {A : Type} {env : Env F G} {prf : Prf} {f : File} {parse : Str → Run A} {a : A} {s : Str}
    (h : TextOf env prf f s) (hp : parse s = .ok a) : Parsed env prf f parse a := by
  obtain ⟨p, h1, h2⟩ := h
  exact ⟨p, s, h1, h2, hp⟩

theorem topsky_of_is {env : Env F G} {prf : Prf} {t : Option (Topsky F G)} (h : TopskyIs env prf t) : topsky env prf = .ok t := by
  cases t with
  | none => exact topsky_none h
  | some t =>
    obtain ⟨dir, h1, h2⟩ := h
    unfold topsky
    rw [h1]
    simp only [lift, bind, Except.bind]
    rw [h2]

theorem squawks_of_are {env : Env F G} {prf : Prf} {l : Option (List SquawkDef)} (h : SquawksAre env prf l) : squawks env prf = .ok l := by
  cases l with
  | none => exact squawks_none h
  | some l =>
    obtain ⟨p, b, j, x, h1, h2, h3, h4, rfl⟩ := h
    have h5 : env.squawks b = some (x.squawks.map Prod.fst) := by
      unfold Env.squawks
      rw [Env.json, Proofs.JsonText.readBytes_iff.2 h3, Option.bind_some, (Proofs.Squawks.read_iff j x).2 h4]
      rfl
    unfold squawks
    rw [h1]
    simp only [lift, bind, Except.bind, Option.bind_some]
    rw [h2]
    simp [h5]

theorem topskyIs_unique {env : Env F G} {prf : Prf} {t u : Option (Topsky F G)} (h : topsky env prf = .ok t) (h' : TopskyIs env prf u) :
    t = u := by
  rw [topsky_of_is h'] at h
  cases h; rfl

theorem squawksAre_unique {env : Env F G} {prf : Prf} {l k : Option (List SquawkDef)} (h : squawks env prf = .ok l)
    (h' : SquawksAre env prf k) : l = k := by
  rw [squawks_of_are h'] at h
  cases h; rfl

end

/-! ## Maps -/

section
open Verif.Maps Verif.Maps.Spec Verif.Maps.World
variable [World]

theorem isMapOf {s : Maps.Settings} {get : Str → Option Col} {conv : Loc → Option Point} {d : MapDef} {m : MapV}
    (h : buildMap s get conv d = some m) (n : Str) : IsMapOf s get conv d n { m with name := n } := by
  obtain ⟨_, h2, h3⟩ := (C28_built s get conv d).2 m h
  refine ⟨rfl, h2, h3, C30_active s get conv d m h, ?_⟩
  obtain ⟨c, hc, h4, h5, h6, h7, _⟩ := C29_attributes_partial s get conv d m h
  exact ⟨c, hc, h4, h5, h6, h7⟩

theorem forall₂_maps {s : Maps.Settings} {get : Str → Option Col} {conv : Loc → Option Point} :
    ∀ {defs : List MapDef} {ms : List (Str × MapV)}, defs.length = ms.length →
      ms.map (fun e => some e.2) = List.zipWith (fun d n => (buildMap s get conv d).map fun m => { m with name := n }) defs (ms.map (·.1)) →
      List.Forall₂ (fun d e => IsMapOf s get conv d e.1 e.2) defs ms
  | [], [], _, _ => .nil
  | d :: defs, e :: ms, hl, h => by
    simp only [List.map_cons, List.zipWith_cons_cons, List.cons.injEq] at h
    obtain ⟨h1, h2⟩ := h
    obtain ⟨m, hm, he⟩ := Option.map_eq_some_iff.1 h1.symm
    refine .cons ?_ (forall₂_maps (by simpa using hl) h2)
    rw [← he]
    exact isMapOf hm e.1
  | [], _ :: _, hl, _ => by cases hl
  | _ :: _, [], hl, _ => by cases hl

theorem folders_spec {s : Maps.Settings} {get : Str → Option Col} {conv : Loc → Option Point} {overrides : List OverrideSct}
    {defs : List MapDef} {folders : Map Str Folder} (h : fromTopsky s get conv overrides defs = .ok folders) (f : Str) :
    (folders.get? f = none ↔ inFolder s get f defs = []) ∧
    ∀ fd, folders.get? f = some fd →
      fd.name = f ∧ (fd.hidden = true ↔ f = s.autoFolder ∨ ⟨f, none⟩ ∈ overrides) ∧
      (fd.maps.map (·.1)).Nodup ∧ AreNamesFor ((inFolder s get f defs).map (·.name)) (fd.maps.map (·.1)) ∧
      List.Forall₂ (fun d e => IsMapOf s get conv d e.1 e.2) (inFolder s get f defs) fd.maps := by
  obtain ⟨folders', h1, h2⟩ := C28_folders s get conv overrides defs
  rw [h] at h1
  cases h1
  refine ⟨(h2 f).1, fun fd hfd => ?_⟩
  obtain ⟨h3, h4, given, h5, h6, h7, h8⟩ := (h2 f).2 fd hfd
  subst h7
  refine ⟨h3, h4, h6, h5, forall₂_maps ?_ h8⟩
  simpa using h5.1

end

section
variable {F G : Type} [DecidableEq F] [F32Ops G]

theorem sameRule (r : Parse.Topsky.MapRule F G) : SameRule r (mapRule r) := by
  cases r with
  | symbol s =>
    cases hl : s.label with
    | none =>
      have : mapRule (G := G) (.symbol s) = @Maps.MapRule.symbol (world F G) (@Maps.MapSymbol.mk (world F G) s.name s.location none none) := by
        unfold mapRule; dsimp only; rw [hl]; rfl
      rw [this]; exact .bareSymbol s hl
    | some l =>
      have : mapRule (G := G) (.symbol s) =
          @Maps.MapRule.symbol (world F G) (@Maps.MapSymbol.mk (world F G) s.name s.location (some (l.text, l.pos)) none) := by
        unfold mapRule; dsimp only; rw [hl]; rfl
      rw [this]; exact .symbol s l hl
  | fontSize x => cases x <;> constructor
  | _ => constructor

theorem sameMaps (l : List (Parse.Topsky.MapDef F G)) : List.Forall₂ SameMap l (l.map mapDef) := by
  induction l with
  | nil => exact .nil
  | cons d l ih =>
    refine .cons ⟨rfl, ?_⟩ ih
    show List.Forall₂ SameRule d.rules (d.rules.map mapRule)
    induction d.rules with
    | nil => exact .nil
    | cons r l ih => exact .cons (sameRule r) ih

end
end Verif.Proofs.Adaptation
