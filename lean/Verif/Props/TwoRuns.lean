import Verif.Proofs.TwoRuns
/-!
# C110: what of a loaded adaptation does not depend on hash orders

The words of the statements are in `Verif.Spec.TwoRuns`.
-/

namespace Verif.Props
open Verif.Adaptation Verif.Spec.Adaptation Verif.Proofs.Adaptation Verif.Spec.TwoRuns Verif.Proofs.TwoRuns
open Verif.PrfPaths (Prf Path)
open Verif.Display (F32Ops)
open Verif.Dms (DmsArith)
open Verif.Parse.SymbolRule (Close)
open Verif.Locations (FloatOps)

section
variable {F G : Type} [F64 F] [DmsArith F] [DecidableEq F] [FloatOps F] [Close F] [F64 G] [F32Ops G] [UnicodeTables]

theorem required_run {A : Type} {env env' : Env F G} (hr : OtherRun env env') (f : File) (p : Run Path) (parse : Str → Run A) :
    required env' f p parse = required env f p parse := by
  rw [hr.same]
  rfl

theorem text_run {env env' : Env F G} (hr : OtherRun env env') (p : Path) : text env' p = text env p := by
  rw [hr.same]
  rfl

theorem upper_run {env env' : Env F G} (hr : OtherRun env env') : env'.upper = env.upper := by rw [hr.same]

theorem topsky_run {env env' : Env F G} (hr : OtherRun env env') {prf : Prf} (hp : prf.path ≠ []) (hc : prf.cwd ≠ none)
    (h : OneFile prf c!"TopSky.dll") : topsky env' prf = topsky env prf := by
  unfold topsky
  rw [topskyPath_same hp hc h (hr.sane'.order .settings prf.settings) (hr.sane.order .settings prf.settings)]
  simp only [text_run hr, upper_run hr]

theorem squawks_run {env env' : Env F G} (hr : OtherRun env env') {prf : Prf} (hp : prf.path ≠ []) (hc : prf.cwd ≠ none)
    (h : OneFile prf c!"Squawks.dll") : squawks env' prf = squawks env prf := by
  unfold squawks
  rw [squawksPath_same hp hc h (hr.sane'.order .settings prf.settings) (hr.sane.order .settings prf.settings)]
  have h1 : env'.read = env.read := by rw [hr.same]
  have h2 : env'.squawks = env.squawks := by
    funext b
    unfold Env.squawks Env.json
    rw [hr.same]
  rw [h1, h2]

theorem topskyIs_some {env : Env F G} {prf : Prf} {u : Parse.Topsky.Topsky F G} (h : topsky env prf = .ok (some u)) :
    TopskyIs env prf (some u) := by
  unfold topsky at h
  rw [bind_ok] at h
  obtain ⟨d, hd, h⟩ := h
  rw [lift_ok] at hd
  cases d with
  | none => cases h
  | some d =>
    simp only at h
    split at h
    · next hp =>
      cases h
      exact ⟨d, hd, hp⟩
    · cases h
    · cases h
    · cases h

theorem topsky_keys {env : Env F G} {prf : Prf} {t : Option (Parse.Topsky.Topsky F G)} (h : topsky env prf = .ok t)
    (u : Parse.Topsky.Topsky F G) (hu : t = some u) : u.colours.keys.Nodup := by
  subst hu
  obtain ⟨_, _, hp⟩ := topskyIs_some h
  exact Proofs.topsky_colours_nodup hp

variable [LE F] [DecidableLE F]

/-- **C110.** Two runs of the program with the same files end with the same error, or with adaptations that are the same but for the
order of entries, the names of sectors, and where the borders of volumes begin: if the profile names no two places for TopSky,
nor for the squawks. -/
theorem C110_same_outcome {env env' : Env F G} (hr : OtherRun env env') {prf : Prf} (hp : prf.path ≠ []) (hc : prf.cwd ≠ none)
    (ht : OneFile prf c!"TopSky.dll") (hq : OneFile prf c!"Squawks.dll") :
    SameOutcome SameContents (fromPrf env prf) (fromPrf env' prf) := by
  have same : ∀ {A : Type} (x : Except Failure A), SameOutcome Eq x x := fun x => outcome_refl (fun _ => rfl) x
  have ho := hr.sane.order
  have ho' := hr.sane'.order
  unfold fromPrf
  simp only [required_run hr, topsky_run hr hp hc ht, squawks_run hr hp hc hq]
  refine outcome_bind (same _) ?_
  rintro sct _ hsct _ rfl
  refine outcome_bind (same _) ?_
  rintro ese _ hese _ rfl
  have ha : parseAirways env' = parseAirways env := by rw [hr.same]; rfl
  rw [ha]
  refine outcome_bind (same _) ?_
  rintro airways _ _ _ rfl
  obtain ⟨_, _, _, _, psct⟩ := required_ok.1 hsct
  obtain ⟨_, _, _, _, pese⟩ := required_ok.1 hese
  refine outcome_bind (sectors_same hr pese) ?_
  rintro ⟨volumes, sectors⟩ ⟨volumes', sectors'⟩ _ _ ⟨hv, hs, hs'⟩
  refine outcome_bind (same _) ?_
  rintro symbology _ _ _ rfl
  refine outcome_bind (same _) ?_
  rintro squawks _ _ _ rfl
  refine outcome_bind (same _) ?_
  rintro topsky _ htopsky _ rfl
  refine outcome_bind (same _) ?_
  rintro settings _ _ _ rfl
  have hcol := colours_same ho ho' psct (topsky_keys htopsky)
  have hget : Colours.get (Colours.otherColours (env'.order .sctColours sct.colours)
        ((topskyColours topsky).map fun m => env'.order .topskyColours m)) settings.coopans =
      Colours.get (Colours.otherColours (env.order .sctColours sct.colours)
        ((topskyColours topsky).map fun m => env.order .topskyColours m)) settings.coopans := by
    funext n
    unfold Colours.get
    rw [hcol n]
  rw [hget]
  refine outcome_bind (same _) ?_
  rintro airports _ hairports _ rfl
  refine outcome_bind (same _) ?_
  rintro navdata _ hnavdata _ rfl
  obtain ⟨_, _, _, _, pair⟩ := required_ok.1 hairports
  obtain ⟨_, _, _, _, pnav⟩ := required_ok.1 hnavdata
  have hloc : SameOutcome SameLocations
      (Locations.fromEuroscope (sctData sct) ese.sidsStars
        ((env.order .airports airports).map fun e => (e.1, ⟨e.2.name, e.2.country⟩))
        ((env.order .navdata navdata).map fun e => (e.1, ⟨e.2.designator, e.2.name, (e.2.location.x, e.2.location.y)⟩)))
      (Locations.fromEuroscope (sctData sct) ese.sidsStars
        ((env'.order .airports airports).map fun e => (e.1, ⟨e.2.name, e.2.country⟩))
        ((env'.order .navdata navdata).map fun e => (e.1, ⟨e.2.designator, e.2.name, (e.2.location.x, e.2.location.y)⟩))) :=
    fromEuroscope_same _ _
      (by rw [List.map_map]; exact ((ho .airports airports).map Prod.fst).nodup_iff.2 (Proofs.airports_nodup pair))
      (by rw [List.map_map]; exact ((ho .navdata navdata).map Prod.fst).nodup_iff.2 (Proofs.navdata_nodup pnav))
      (((ho .airports airports).trans (ho' .airports airports).symm).map _)
      (((ho .navdata navdata).trans (ho' .navdata navdata).symm).map _)
  refine outcome_bind (outcome_lift hloc) ?_
  rintro db db' _ _ hdb
  have hfmt : env'.fmt = env.fmt := by rw [hr.same]
  rw [hfmt]
  refine outcome_bind (items_same _ (fun l => ho .airways l) (fun l => ho' .airways l) psct hdb _ _) ?_
  rintro items items' _ _ hitems
  refine outcome_bind (same _) ?_
  rintro aircraft _ _ _ rfl
  refine outcome_bind (same _) ?_
  rintro airlines _ _ _ rfl
  rw [maps_same _ _ hdb]
  refine outcome_bind (same _) ?_
  rintro maps _ _ _ rfl
  have hint : env'.int = env.int := by rw [hr.same]
  exact ⟨rfl, hdb, rfl, rfl, hv, hs, hs', rfl, rfl, rfl, by rw [hint], rfl, rfl, rfl, hcol, rfl, rfl, rfl, hitems⟩

/-- **C110.** In other words: if one run loads an adaptation, the other one does. -/
theorem C110_loads {env env' : Env F G} (hr : OtherRun env env') {prf : Prf} (hp : prf.path ≠ []) (hc : prf.cwd ≠ none)
    (ht : OneFile prf c!"TopSky.dll") (hq : OneFile prf c!"Squawks.dll") {a : Adaptation F G} (h : fromPrf env prf = .ok a) :
    ∃ a', fromPrf env' prf = .ok a' ∧ SameContents a a' := by
  have := C110_same_outcome hr hp hc ht hq
  rw [h] at this
  cases h' : fromPrf env' prf with
  | ok a' => rw [h'] at this; exact ⟨a', rfl, this⟩
  | error e => rw [h'] at this; exact this.elim

/-- **C110, line styles.** So is the line style of a name, if no two styles of TopSky have names that are this one in upper case. -/
theorem C110_line_styles {env env' : Env F G} (hr : OtherRun env env') {prf : Prf} (hp : prf.path ≠ []) (hc : prf.cwd ≠ none)
    (ht : OneFile prf c!"TopSky.dll") {a a' : Adaptation F G} (h : fromPrf env prf = .ok a) (h' : fromPrf env' prf = .ok a') (k : Str)
    (hk : ∀ t, TopskyIs env prf (some t) → ∀ e ∈ t.lineStyles, ∀ e' ∈ t.lineStyles, env.upper e.1 = k → env.upper e'.1 = k → e = e') :
    a.lineStyles.get? k = a'.lineStyles.get? k := by
  obtain ⟨s⟩ := steps h
  obtain ⟨s'⟩ := steps h'
  by_cases hb : k ∈ Settings.builtinNames
  · have b1 := C83_builtin_line_styles h
    have b2 := C83_builtin_line_styles h'
    have hn : env'.nat = env.nat := by rw [hr.same]
    rw [hn] at b2
    simp only [Settings.builtinNames, List.mem_cons, List.not_mem_nil, or_false] at hb
    rcases hb with rfl | rfl | rfl | rfl | rfl | rfl
    all_goals simp only [b1, b2]
  · have e : s'.topsky = s.topsky := by
      have := s'.htopsky
      rw [topsky_run hr hp hc ht, s.htopsky] at this
      exact (Except.ok.inj this).symm
    have hn : env'.nat = env.nat := by rw [hr.same]
    rw [s.hlineStyles, s'.hlineStyles, e, hn, upper_run hr]
    cases hs : s.topsky with
    | none => rfl
    | some t =>
      have hk := hk t (topskyIs_some (hs ▸ s.htopsky))
      simp only [Option.map_some]
      have hm : ∀ {env : Env F G}, AnyOrder env → ∀ x, x ∈ (env.order .lineStyles t.lineStyles).map (fun e => (e.1, e.2.dashLengths)) ↔
          ∃ e ∈ t.lineStyles, (e.1, e.2.dashLengths) = x := by
        intro env ho x
        simp only [List.mem_map, (ho .lineStyles t.lineStyles).mem_iff]
      obtain ⟨n1, p1⟩ := Settings.C45_other env.nat env.upper ((env.order .lineStyles t.lineStyles).map fun e => (e.1, e.2.dashLengths)) k hb
      obtain ⟨n2, p2⟩ := Settings.C45_other env.nat env.upper ((env'.order .lineStyles t.lineStyles).map fun e => (e.1, e.2.dashLengths)) k hb
      generalize Map.get? (Settings.lineStyles env.nat env.upper
        (some ((env.order .lineStyles t.lineStyles).map fun e => (e.1, e.2.dashLengths)))) k = x at n1 p1
      generalize Map.get? (Settings.lineStyles env.nat env.upper
        (some ((env'.order .lineStyles t.lineStyles).map fun e => (e.1, e.2.dashLengths)))) k = y at n2 p2
      have hxy : x = none ↔ y = none := by
        rw [n1, n2]
        simp only [hm hr.sane.order, hm hr.sane'.order]
      cases x with
      | none => exact (hxy.1 rfl).symm
      | some px =>
        cases y with
        | none => cases hxy.2 rfl
        | some py =>
          obtain ⟨e1, m1, u1, q1⟩ := p1 px rfl
          obtain ⟨e2, m2, u2, q2⟩ := p2 py rfl
          obtain ⟨d1, i1, rfl⟩ := (hm hr.sane.order _).1 m1
          obtain ⟨d2, i2, rfl⟩ := (hm hr.sane'.order _).1 m2
          have := hk d1 i1 d2 i2 u1 u2
          subst this
          rw [Settings.isPattern_unique q1 q2]

end
end Verif.Props
