import Verif.Spec.Moved
import Verif.Proofs.PrfPaths
import Verif.Proofs.Adaptation
/-!
# Loading from a copied directory
-/

namespace Verif.Proofs.Moved
open Verif.Adaptation Verif.PrfPaths Verif.Spec.PrfPaths Verif.Spec.Moved Verif.Proofs.Adaptation
open Verif.Display (F32Ops)
open Verif.Dms (DmsArith)
open Verif.Parse.SymbolRule (Close)
open Verif.Locations (FloatOps)

/-- The path is somewhere else, or it is at the same place in the other directory and not the directory itself. -/
def MovedFile (dir dir' p q : Path) : Prop := p = q ∨ ∃ rel, rel ≠ [] ∧ ['.', '.'] ∉ rel ∧ p = dir ++ rel ∧ q = dir' ++ rel

theorem MovedFile.moved {d d' p q : Path} (h : MovedFile d d' p q) : Moved d d' p q := by
  rcases h with h | ⟨rel, _, h⟩
  · exact .inl h
  · exact .inr ⟨rel, h⟩

variable {d d' : Path}

theorem getLast_append {rel : Path} (d : Path) (h : rel ≠ []) : (d ++ rel).getLast? = rel.getLast? := by
  rw [List.getLast?_append]
  cases hr : rel.getLast? with
  | none => exact absurd (List.getLast?_eq_none_iff.1 hr) h
  | some x => rfl

theorem MovedFile.fileName {p q : Path} (h : MovedFile d d' p q) : fileName p = fileName q := by
  rcases h with rfl | ⟨rel, h1, _, rfl, rfl⟩
  · rfl
  · simp only [PrfPaths.fileName, getLast_append _ h1]

theorem dropLast_append (d : Path) {rel : Path} (h : rel ≠ []) : (d ++ rel).dropLast = d ++ rel.dropLast :=
  List.dropLast_append_of_ne_nil h

theorem not_mem_dropLast {rel : Path} {x : Str} (h : x ∉ rel) : x ∉ rel.dropLast := fun hm => h (List.dropLast_subset _ hm)

theorem MovedFile.parent {p q r : Path} (h : MovedFile d d' p q) (hr : parent p = some r) :
    ∃ r', parent q = some r' ∧ Moved d d' r r' := by
  rcases h with rfl | ⟨rel, h1, h2, rfl, rfl⟩
  · exact ⟨r, hr, .inl rfl⟩
  · have e : ∀ d : Path, d ++ rel ≠ [] := fun d he => h1 (List.append_eq_nil_iff.1 he).2
    simp only [PrfPaths.parent, e d, if_false, Option.some.injEq] at hr
    subst hr
    refine ⟨d' ++ rel.dropLast, by simp only [PrfPaths.parent, e d', if_false, dropLast_append _ h1], .inr ⟨_, not_mem_dropLast h2, ?_, rfl⟩⟩
    exact dropLast_append _ h1

theorem MovedFile.parent_none {p q : Path} (h : MovedFile d d' p q) (hr : PrfPaths.parent p = none) : PrfPaths.parent q = none := by
  rcases h with rfl | ⟨rel, h1, h2, rfl, rfl⟩
  · exact hr
  · have e : d ++ rel ≠ [] := fun he => h1 (List.append_eq_nil_iff.1 he).2
    simp [PrfPaths.parent, e] at hr

theorem moved_append {p q : Path} (h : Moved d d' p q) {l : Path} (hl : ['.', '.'] ∉ l) : Moved d d' (p ++ l) (q ++ l) := by
  rcases h with rfl | ⟨rel, h1, rfl, rfl⟩
  · exact .inl rfl
  · exact .inr ⟨rel ++ l, by simp [h1, hl], by simp, by simp⟩

theorem MovedFile.withExtension {p q : Path} (h : MovedFile d d' p q) (ext : Str) (he : ext ≠ []) (he' : ext ≠ ['.']) :
    MovedFile d d' (withExtension p ext) (withExtension q ext) := by
  have hf := h.fileName
  rcases h with rfl | ⟨rel, h1, h2, rfl, rfl⟩
  · exact .inl rfl
  · unfold PrfPaths.withExtension
    rw [← hf]
    cases PrfPaths.fileName (d ++ rel) with
    | none => exact .inr ⟨rel, h1, h2, rfl, rfl⟩
    | some n =>
      refine .inr ⟨rel.dropLast ++ [stem n ++ '.' :: ext], by simp, ?_, ?_, ?_⟩
      · simp only [List.mem_append, not_or, List.mem_singleton]
        refine ⟨not_mem_dropLast h2, fun hx => ?_⟩
        cases hs : stem n with
        | nil => rw [hs] at hx; simp at hx; exact he' hx.symm
        | cons c s =>
          rw [hs] at hx
          cases s with
          | nil => simp at hx; exact he hx.2
          | cons c s => simp at hx
      · simp [dropLast_append _ h1]
      · simp [dropLast_append _ h1]

variable {settings : Parse.Prf.Settings} {n n' : Str} {cwd : Path}

/-- A value names the same place in both directories. -/
theorem join_moved {prf prf' : Prf} (hp : prf.path = d ++ [n]) (hp' : prf'.path = d' ++ [n']) (hc : prf.cwd = some cwd)
    (hc' : prf'.cwd = some cwd) {v : Str} (hv : Inside v) :
    ∃ p q, joinSettingsPath prf v = .ok p ∧ joinSettingsPath prf' v = .ok q ∧ MovedFile d d' p q := by
  obtain ⟨u, hu⟩ := trim_exists v
  by_cases hr : Rooted u
  · obtain ⟨c, rel, rfl, hs⟩ := hr
    obtain ⟨ps, hps⟩ := names_exists rel
    refine ⟨_, _, resolve_rooted hp hu hs, resolve_rooted hp' hu hs, ?_⟩
    have hd : Denotes rel _ := ⟨ps, hps, rfl⟩
    rw [join_norm _ hd, join_norm _ hd]
    by_cases hr : Rooted rel
    · rw [if_pos (head_norm.2 hr), if_pos (head_norm.2 hr)]
      exact .inl rfl
    · rw [if_neg (fun h => hr (head_norm.1 h)), if_neg (fun h => hr (head_norm.1 h))]
      obtain ⟨h1, h2⟩ := hv c rel _ hu hs hr hd
      exact .inr ⟨_, h1, h2, rfl, rfl⟩
  · exact ⟨_, _, resolve_unrooted hc hu hr, resolve_unrooted hc' hu hr, .inl rfl⟩

theorem findFile_moved {prf prf' : Prf} (hp : prf.path = d ++ [n]) (hp' : prf'.path = d' ++ [n']) (hc : prf.cwd = some cwd)
    (hc' : prf'.cwd = some cwd) (name : Str) {es : List ((Str × Str) × Str)} (hv : ∀ e ∈ es, Inside e.2) :
    (findFile prf name es = .ok none ∧ findFile prf' name es = .ok none) ∨
    ∃ r r', findFile prf name es = .ok (some r) ∧ findFile prf' name es = .ok (some r') ∧ Moved d d' r r' := by
  induction es with
  | nil => exact .inl ⟨rfl, rfl⟩
  | cons e es ih =>
    obtain ⟨k, v⟩ := e
    obtain ⟨p, q, h1, h2, h3⟩ := join_moved hp hp' hc hc' (hv (k, v) (by simp))
    have e1 : ∀ {prf : Prf} {p : Path}, joinSettingsPath prf v = .ok p → ∀ {d : Path} {n : Str}, prf.path = d ++ [n] →
        findFile prf name ((k, v) :: es) = if fileName p = some name then .ok (parent p) else findFile prf name es := by
      intro prf p h d n hp
      show (joinSettingsPath prf v >>= fun path => if fileName path = some name then
        (unwrap (parent prf.path) >>= fun _ => .ok (parent path)) else findFile prf name es) = _
      rw [h, hp, parent_append]
      rfl
    rw [e1 h1 hp, e1 h2 hp', ← h3.fileName]
    split
    · cases hr : parent p with
      | none => exact .inl ⟨rfl, by rw [h3.parent_none hr]⟩
      | some r =>
        obtain ⟨r', hr', hm⟩ := h3.parent hr
        exact .inr ⟨r, r', rfl, by rw [hr'], hm⟩
    · exact ih fun e he => hv e (by simp [he])

variable {F G : Type} [F64 F] [DmsArith F] [DecidableEq F] [FloatOps F] [Close F] [F64 G] [F32Ops G] [UnicodeTables]

theorem moved_read {env : Env F G} (ht : SameTree env d d') {p q : Path} (h : Moved d d' p q) : env.read p = env.read q := by
  rcases h with rfl | ⟨rel, h1, rfl, rfl⟩
  · rfl
  · exact ht rel h1

theorem required_moved {A : Type} {env : Env F G} (ht : SameTree env d d') {f : File} {path path' : Run Path} {parse : Str → Run A}
    (hm : ∀ p, path = .ok p → ∃ q, path' = .ok q ∧ Moved d d' p q) {a : A} (h : required env f path parse = .ok a) :
    required env f path' parse = .ok a := by
  cases path with
  | error e => cases h
  | ok p =>
    obtain ⟨q, rfl, hq⟩ := hm p rfl
    unfold required at h ⊢
    simp only [lift, bind, Except.bind] at h ⊢
    rw [← moved_read ht hq]
    cases hr : env.read p with
    | none => rw [hr] at h; cases h
    | some bytes => rw [hr] at h; exact h

theorem setting_moved {prf prf' : Prf} (hs : prf'.settings = prf.settings) (key : Str) : setting prf' key = setting prf key := by
  unfold setting; rw [hs]

theorem mem_of_get? {K V : Type} [DecidableEq K] {m : Map K V} {k : K} {v : V} (h : Map.get? m k = some v) : ∃ e ∈ m, e.2 = v := by
  induction m with
  | nil => cases h
  | cons e m ih =>
    obtain ⟨k', v'⟩ := e
    simp only [Map.get?] at h
    split at h
    · cases h; exact ⟨(k', v), by simp, rfl⟩
    · obtain ⟨e, he, hv⟩ := ih h
      exact ⟨e, by simp [he], hv⟩

theorem settingPath_moved {prf prf' : Prf} (hp : prf.path = d ++ [n]) (hp' : prf'.path = d' ++ [n']) (hc : prf.cwd = some cwd)
    (hc' : prf'.cwd = some cwd) (hs : prf'.settings = prf.settings) (hv : ∀ e ∈ prf.settings, Inside e.2) (key : Str) (p : Path)
    (h : (setting prf key >>= fun v => joinSettingsPath prf v) = .ok p) :
    ∃ q, (setting prf' key >>= fun v => joinSettingsPath prf' v) = .ok q ∧ MovedFile d d' p q := by
  rw [setting_moved hs]
  cases hk : setting prf key with
  | error e => rw [hk] at h; cases h
  | ok v =>
    have hm : ∃ e ∈ prf.settings, e.2 = v := by
      unfold setting at hk
      cases hg : Map.get? prf.settings (c!"Settings", key) with
      | none => rw [hg] at hk; cases hk
      | some w => rw [hg] at hk; cases hk; exact mem_of_get? hg
    obtain ⟨e, he, rfl⟩ := hm
    obtain ⟨p', q, h1, h2, h3⟩ := join_moved hp hp' hc hc' (hv e he)
    rw [hk] at h
    have : p' = p := by
      have h : joinSettingsPath prf e.2 = .ok p := h
      rw [h1] at h
      cases h
      rfl
    subst this
    exact ⟨q, h2, h3⟩

theorem recentPaths_moved {prf prf' : Prf} (hp : prf.path = d ++ [n]) (hp' : prf'.path = d' ++ [n']) (hc : prf.cwd = some cwd)
    (hc' : prf'.cwd = some cwd) (hs : prf'.settings = prf.settings) (hv : ∀ e ∈ prf.settings, Inside e.2) (l : List Nat) :
    ∃ ps qs, Display.recentPaths prf l = .ok ps ∧ Display.recentPaths prf' l = .ok qs ∧ MovedAll d d' ps qs := by
  induction l with
  | nil => exact ⟨[], [], rfl, rfl, rfl, by simp⟩
  | cons i l ih =>
    obtain ⟨ps, qs, h1, h2, h3⟩ := ih
    unfold Display.recentPaths recentPath
    rw [hs]
    cases hg : Map.get? prf.settings (c!"RecentFiles", c!"Recent" ++ showNat i) with
    | none =>
      refine ⟨ps, qs, ?_, ?_, h3⟩
      · rw [h1]; rfl
      · rw [h2]; rfl
    | some v =>
      obtain ⟨e, he, rfl⟩ := mem_of_get? hg
      obtain ⟨p, q, h4, h5, h6⟩ := join_moved hp hp' hc hc' (hv e he)
      refine ⟨p :: ps, q :: qs, ?_, ?_, by simp [h3.1], ?_⟩
      · simp only [h4, h1]; rfl
      · simp only [h5, h2]; rfl
      · intro e he
        rcases List.mem_cons.1 he with rfl | he
        · exact h6.moved
        · exact h3.2 e he

variable [LE F] [DecidableLE F]

theorem fromPrf_moved {env : Env F G} (ho : Spec.Adaptation.AnyOrder env) (ht : SameTree env d d') {prf prf' : Prf}
    (hp : prf.path = d ++ [n]) (hp' : prf'.path = d' ++ [n']) (hc : prf.cwd = some cwd)
    (hc' : prf'.cwd = some cwd) (hs : prf'.settings = prf.settings) (hv : ∀ e ∈ prf.settings, Inside e.2) {a : Adaptation F G}
    (h : fromPrf env prf = .ok a) :
    ∃ paths, fromPrf env prf' = .ok (withAsrFiles a paths) ∧ MovedAll d d' a.settings.asrFiles paths := by
  have key := fun k p h => settingPath_moved hp hp' hc hc' hs hv k p h
  have hm : ∀ k p, (setting prf k >>= fun v => joinSettingsPath prf v) = .ok p →
      ∃ q, (setting prf' k >>= fun v => joinSettingsPath prf' v) = .ok q ∧ Moved d d' p q := fun k p h =>
    let ⟨q, h1, h2⟩ := key k p h; ⟨q, h1, h2.moved⟩
  have hes : ∀ e ∈ env.order .settings prf.settings, Inside e.2 := fun e he => hv e ((ho .settings prf.settings).mem_iff.1 he)
  have hsq : squawks env prf' = squawks env prf := by
    unfold squawks squawksPath
    rw [hs]
    rcases findFile_moved hp hp' hc hc' c!"Squawks.dll" hes with ⟨h1, h2⟩ | ⟨r, r', h1, h2, h3⟩
    · rw [h1, h2]
    · rw [h1, h2]
      have e : ∀ r, join r c!"squawks.json" = r ++ [c!"squawks.json"] := fun r => rfl
      show Except.ok ((env.read (join r' c!"squawks.json")).bind _) = Except.ok ((env.read (join r c!"squawks.json")).bind _)
      rw [e, e, moved_read ht (moved_append h3 (l := [c!"squawks.json"]) (by decide))]
  have htp : topsky env prf' = topsky env prf := by
    unfold topsky topskyPath
    rw [hs]
    rcases findFile_moved hp hp' hc hc' c!"TopSky.dll" hes with ⟨h1, h2⟩ | ⟨r, r', h1, h2, h3⟩
    · rw [h1, h2]
    · rw [h1, h2]
      have e : ∀ n ∈ [c!"TopSkySettings.txt", c!"TopSkySymbols.txt", c!"TopSkyMaps.txt"], text env (join r' n) = text env (join r n) := by
        intro n hn
        have hj : ∀ r, join r n = r ++ [n] := by
          simp only [List.mem_cons, List.not_mem_nil, or_false] at hn
          rcases hn with rfl | rfl | rfl <;> exact fun r => rfl
        rw [hj, hj]
        unfold text
        rw [moved_read ht (moved_append h3 (l := [n]) (by
          simp only [List.mem_cons, List.not_mem_nil, or_false] at hn
          rcases hn with rfl | rfl | rfl <;> decide))]
      simp only [lift, bind, Except.bind]
      rw [e _ (by simp), e _ (by simp), e _ (by simp)]
  obtain ⟨ps, qs, hps, hqs, hpq⟩ := recentPaths_moved hp hp' hc hc' hs hv [1, 2, 3, 4, 5, 6, 7, 8, 9]
  unfold fromPrf at h
  simp only [bind_ok] at h
  obtain ⟨sct, hsct, ese, hese, airways, hairways, ⟨volumes, sectors⟩, hsectors, symbology, hsymbology, squawks, hsquawks,
    topsky, htopsky, settings, hsettings, airports, hairports, navdata, hnavdata, locations, hlocations, items, hitems,
    aircraft, haircraft, airlines, hairlines, maps, hmaps, h⟩ := h
  cases h
  have hset : Display.Settings.fromEuroscope symbology.items (topsky.map Parse.Topsky.Topsky.settings) squawks prf' =
      .ok { settings with asrFiles := qs } ∧ settings.asrFiles = ps := by
    have hset := lift_ok.1 hsettings
    unfold Display.Settings.fromEuroscope at hset ⊢
    rw [hps] at hset
    rw [hqs]
    cases hset
    exact ⟨rfl, rfl⟩
  refine ⟨qs, ?_, hset.2 ▸ hpq⟩
  unfold fromPrf
  simp only [bind_ok]
  refine ⟨sct, required_moved ht (hm _) hsct, ese, required_moved ht ?_ hese, airways, required_moved ht (hm _) hairways,
    ⟨volumes, sectors⟩, hsectors, symbology, required_moved ht (hm _) hsymbology, squawks, hsq.trans hsquawks, topsky,
    htp.trans htopsky, { settings with asrFiles := qs }, lift_ok.2 hset.1, airports, required_moved ht (hm _) hairports, navdata, required_moved ht (hm _) hnavdata, locations, hlocations,
    items, hitems, aircraft, required_moved ht (hm _) haircraft, airlines, required_moved ht (hm _) hairlines, maps, hmaps, rfl⟩
  intro p hp1
  have e : ∀ prf, esePath prf = (setting prf c!"sector" >>= fun v => joinSettingsPath prf v) >>= fun p => .ok (withExtension p c!"ese") := by
    intro prf
    unfold esePath
    cases setting prf c!"sector" <;> rfl
  rw [e] at hp1 ⊢
  cases hk : (setting prf c!"sector" >>= fun v => joinSettingsPath prf v) with
  | error f => rw [hk] at hp1; cases hp1
  | ok r =>
    rw [hk] at hp1
    cases hp1
    obtain ⟨q, h1, h2⟩ := key _ _ hk
    rw [h1]
    exact ⟨_, rfl, (h2.withExtension c!"ese" (by decide) (by decide)).moved⟩

end Verif.Proofs.Moved
