import Verif.Proofs.OriginSct
import Verif.Proofs.TopskyPanic
import Verif.Spec.OriginTopsky
/-!
# Where the texts of TopSky maps come from
-/

namespace Verif.Proofs.OriginTopsky
open Verif.Proofs Verif.Peg Verif.Spec Verif.Spec.Origin Verif.Parse.Topsky Verif.Parse
open Verif.Peg.Topsky (Rule skip)
open Verif.Dms (DmsArith)
open Verif.Parse.Sct (Loc)
open Verif.Parse.SymbolRule (Close)
open Verif.Parse.TopskySettings (ColourDef)
open Verif.Proofs.OriginEse (next_ok mem_insert mem_ofList row_infix)
open Verif.Proofs.OriginSct (flatMap_sublist addLine_sublist Queue.tail)

set_option linter.unusedSectionVars false

/-- The last token -/
theorem Queue.last {R : Type} {t : Tree R} {ts : List (Tree R)} {T : Str} {l : List Str} (h : Queue (t :: ts) T) (hl : InOrder l t.asStr) :
    InOrder l T := by
  have := h.step (l' := []) hl fun T _ => .nil _
  rwa [List.append_nil] at this

theorem nextStr_ok {ts : List (Tree Rule)} {p : Str × List (Tree Rule)} (h : nextStr ts = .ok p) : ∃ t, ts = t :: p.2 ∧ p.1 = t.asStr := by
  obtain ⟨⟨t, us⟩, h1, h⟩ := run_bind_ok_iff.1 h
  cases h
  exact ⟨t, next_ok h1, rfl⟩

/-! ## Conditions -/

theorem origin_names {t : Tree Rule} {v : Option (List Str)} (ht : All Ordered t) (h : parseNames t = .ok v) : InOrder (names v) t.asStr := by
  unfold parseNames at h
  split at h
  · cases h; exact .nil _
  · cases h; exact ht.queue.strs
  · cases h

theorem nextNames_ok {ts : List (Tree Rule)} {p : Option (List Str) × List (Tree Rule)} (h : nextNames ts = .ok p) :
    ∃ t, ts = t :: p.2 ∧ parseNames t = .ok p.1 := by
  obtain ⟨⟨t, us⟩, h1, h⟩ := run_bind_ok_iff.1 h
  obtain ⟨v, h2, h⟩ := run_bind_ok_iff.1 h
  cases h
  exact ⟨t, next_ok h1, h2⟩

theorem origin_ids {t : Tree Rule} {v : ActiveIds} (ht : All Ordered t) (h : parseActiveIds t = .ok v) :
    InOrder (names v.own ++ (names v.ownExcludes ++ (names v.online ++ names v.onlineExcludes))) t.asStr := by
  have hr := ht.queue
  obtain ⟨⟨v1, ts1⟩, a1, h⟩ := run_bind_ok_iff.1 h
  obtain ⟨⟨v2, ts2⟩, a2, h⟩ := run_bind_ok_iff.1 h
  obtain ⟨⟨v3, ts3⟩, a3, h⟩ := run_bind_ok_iff.1 h
  obtain ⟨⟨v4, ts4⟩, a4, h⟩ := run_bind_ok_iff.1 h
  cases h
  obtain ⟨t1, e1, b1⟩ := nextNames_ok a1
  obtain ⟨t2, e2, b2⟩ := nextNames_ok a2
  obtain ⟨t3, e3, b3⟩ := nextNames_ok a3
  obtain ⟨t4, e4, b4⟩ := nextNames_ok a4
  dsimp only at e1 e2 e3 e4 b1 b2 b3 b4
  rw [e1, e2, e3, e4] at hr
  exact hr.step (origin_names (hr.2 _ List.mem_cons_self) b1) fun T hr => hr.step (origin_names (hr.2 _ List.mem_cons_self) b2) fun T hr =>
    hr.step (origin_names (hr.2 _ List.mem_cons_self) b3) fun T hr => Queue.last hr (origin_names (hr.2 _ List.mem_cons_self) b4)

theorem origin_runwayIdentifier {t : Tree Rule} {v : RunwayIdentifier} (ht : All Ordered t) (h : parseRunwayIdentifier t = .ok v) :
    InOrder [v.icao, v.designator] t.asStr := by
  have hr := ht.queue
  obtain ⟨⟨s1, ts1⟩, a1, h⟩ := run_bind_ok_iff.1 h
  obtain ⟨⟨s2, ts2⟩, a2, h⟩ := run_bind_ok_iff.1 h
  cases h
  obtain ⟨t1, e1, b1⟩ := nextStr_ok a1
  obtain ⟨t2, e2, b2⟩ := nextStr_ok a2
  dsimp only at e1 e2 b1 b2
  rw [e1, e2] at hr
  rw [b1, b2]
  exact hr.str fun T hr => hr.str fun T _ => .nil _

theorem origin_runways {t : Tree Rule} {v : Option (List RunwayIdentifier)} (ht : All Ordered t) (h : parseRunways t = .ok v) :
    InOrder (runways v) t.asStr := by
  unfold parseRunways at h
  split at h
  · cases h; exact .nil _
  · obtain ⟨l, h1, h⟩ := run_bind_ok_iff.1 h
    cases h
    exact ht.queue.mapM (fields := fun r : RunwayIdentifier => [r.icao, r.designator]) (fun _ _ => origin_runwayIdentifier) h1
  · cases h

theorem nextRunways_ok {ts : List (Tree Rule)} {p : Option (List RunwayIdentifier) × List (Tree Rule)} (h : nextRunways ts = .ok p) :
    ∃ t, ts = t :: p.2 ∧ parseRunways t = .ok p.1 := by
  obtain ⟨⟨t, us⟩, h1, h⟩ := run_bind_ok_iff.1 h
  obtain ⟨v, h2, h⟩ := run_bind_ok_iff.1 h
  cases h
  exact ⟨t, next_ok h1, h2⟩

theorem origin_activeRunways {t : Tree Rule} {v : ActiveRunways} (ht : All Ordered t) (h : parseActiveRunways t = .ok v) :
    InOrder (runways v.arrival ++ (runways v.arrivalExcludes ++ (runways v.departure ++ runways v.departureExcludes))) t.asStr := by
  have hr := ht.queue
  obtain ⟨⟨v1, ts1⟩, a1, h⟩ := run_bind_ok_iff.1 h
  obtain ⟨⟨v2, ts2⟩, a2, h⟩ := run_bind_ok_iff.1 h
  cases h
  obtain ⟨t1, e1, b1⟩ := nextRunways_ok a1
  obtain ⟨t2, e2, b2⟩ := nextRunways_ok a2
  dsimp only at e1 e2 b1 b2
  rw [e1, e2] at hr
  exact hr.step (origin_runways (hr.2 _ List.mem_cons_self) b1) fun T hr => hr.step (origin_runways (hr.2 _ List.mem_cons_self) b2) fun T _ => .nil _

theorem origin_activeRunwaysWithExcludes {t : Tree Rule} {v : ActiveRunways} (ht : All Ordered t)
    (h : parseActiveRunwaysWithExcludes t = .ok v) :
    InOrder (runways v.arrival ++ (runways v.arrivalExcludes ++ (runways v.departure ++ runways v.departureExcludes))) t.asStr := by
  have hr := ht.queue
  obtain ⟨⟨v1, ts1⟩, a1, h⟩ := run_bind_ok_iff.1 h
  obtain ⟨⟨v2, ts2⟩, a2, h⟩ := run_bind_ok_iff.1 h
  obtain ⟨⟨v3, ts3⟩, a3, h⟩ := run_bind_ok_iff.1 h
  obtain ⟨⟨v4, ts4⟩, a4, h⟩ := run_bind_ok_iff.1 h
  cases h
  obtain ⟨t1, e1, b1⟩ := nextRunways_ok a1
  obtain ⟨t2, e2, b2⟩ := nextRunways_ok a2
  obtain ⟨t3, e3, b3⟩ := nextRunways_ok a3
  obtain ⟨t4, e4, b4⟩ := nextRunways_ok a4
  dsimp only at e1 e2 e3 e4 b1 b2 b3 b4
  rw [e1, e2, e3, e4] at hr
  exact hr.step (origin_runways (hr.2 _ List.mem_cons_self) b1) fun T hr => hr.step (origin_runways (hr.2 _ List.mem_cons_self) b2) fun T hr =>
    hr.step (origin_runways (hr.2 _ List.mem_cons_self) b3) fun T hr => Queue.last hr (origin_runways (hr.2 _ List.mem_cons_self) b4)

theorem origin_areas {t : Tree Rule} {v : ActiveAreas} (ht : All Ordered t) (h : parseActiveAreas t = .ok v) :
    InOrder (v.areas ++ names v.areaExcludes) t.asStr := by
  have hr := ht.queue
  obtain ⟨⟨t1, ts1⟩, a1, h⟩ := run_bind_ok_iff.1 h
  cases h
  have e1 := next_ok a1
  dsimp only at e1
  rw [e1] at hr
  exact hr.step (hr.2 _ List.mem_cons_self).queue.strs fun T _ => .nil _

theorem origin_areasWithExcludes {t : Tree Rule} {v : ActiveAreas} (ht : All Ordered t) (h : parseActiveAreasWithExcludes t = .ok v) :
    InOrder (v.areas ++ names v.areaExcludes) t.asStr := by
  have hr := ht.queue
  obtain ⟨⟨t1, ts1⟩, a1, h⟩ := run_bind_ok_iff.1 h
  obtain ⟨⟨t2, ts2⟩, a2, h⟩ := run_bind_ok_iff.1 h
  cases h
  have e1 := next_ok a1
  have e2 := next_ok a2
  dsimp only at e1 e2
  rw [e1, e2] at hr
  exact hr.step (hr.2 _ List.mem_cons_self).queue.strs fun T hr => Queue.last hr (hr.2 _ List.mem_cons_self).queue.strs

theorem origin_active {t : Tree Rule} {v : Active} (ht : All Ordered t) (h : parseActive t = .ok v) : InOrder (condition v) t.asStr := by
  have hr := ht.queue
  obtain ⟨⟨a, ts1⟩, a1, h⟩ := run_bind_ok_iff.1 h
  have e1 := next_ok a1
  dsimp only at e1
  rw [e1] at hr
  have ha := hr.2 _ List.mem_cons_self
  refine Queue.last hr ?_
  have hq := ha.queue
  dsimp only at h
  split at h
  · cases h; exact .nil _
  · obtain ⟨x, h1, h⟩ := run_bind_ok_iff.1 h
    cases h
    exact origin_ids ha h1
  · obtain ⟨x, h1, h⟩ := run_bind_ok_iff.1 h
    cases h
    exact origin_ids ha h1
  · cases h; exact hq.strs
  · obtain ⟨⟨s, ts⟩, h1, h⟩ := run_bind_ok_iff.1 h
    cases h
    obtain ⟨u, e, e'⟩ := nextStr_ok h1
    dsimp only at e e'
    rw [e] at hq
    show InOrder (s :: strings ts) _
    rw [e']
    exact hq.str fun T hq => hq.strs
  · obtain ⟨x, h1, h⟩ := run_bind_ok_iff.1 h
    cases h
    exact origin_areas ha h1
  · obtain ⟨x, h1, h⟩ := run_bind_ok_iff.1 h
    cases h
    exact origin_areasWithExcludes ha h1
  · cases h; exact .nil _
  · obtain ⟨x, h1, h⟩ := run_bind_ok_iff.1 h
    cases h
    exact origin_activeRunways ha h1
  · obtain ⟨x, h1, h⟩ := run_bind_ok_iff.1 h
    cases h
    exact origin_activeRunwaysWithExcludes ha h1
  · obtain ⟨⟨s1, ts1⟩, b1, h⟩ := run_bind_ok_iff.1 h
    obtain ⟨op, _, h⟩ := run_bind_ok_iff.1 h
    obtain ⟨⟨s2, ts2⟩, b2, h⟩ := run_bind_ok_iff.1 h
    obtain ⟨⟨s3, ts3⟩, b3, h⟩ := run_bind_ok_iff.1 h
    cases h
    obtain ⟨u1, c1, d1⟩ := nextStr_ok b1
    obtain ⟨u2, c2, d2⟩ := nextStr_ok b2
    obtain ⟨u3, c3, d3⟩ := nextStr_ok b3
    dsimp only at c1 c2 c3 d1 d2 d3
    rw [c1, c2, c3] at hq
    show InOrder [s2, s3] _
    rw [d2, d3]
    exact hq.skip fun T hq => hq.str fun T hq => hq.str fun T _ => .nil _
  · cases h

/-! ## Lines of maps -/

section
variable {F : Type} [F64 F] [DmsArith F]

theorem origin_location {t : Tree Rule} {v : Loc F} (h : parseLocation t = .ok v) : InOrder (location v) t.asStr := by
  unfold parseLocation at h
  split at h
  · cases h; exact InOrder.one _
  · obtain ⟨_, _, h⟩ := run_bind_ok_iff.1 h
    cases h
    exact .nil _
  · cases h

theorem nextLocation_ok {ts : List (Tree Rule)} {p : Loc F × List (Tree Rule)} (h : nextLocation ts = .ok p) :
    ∃ t, ts = t :: p.2 ∧ parseLocation t = .ok p.1 := by
  obtain ⟨⟨t, us⟩, h1, h⟩ := run_bind_ok_iff.1 h
  obtain ⟨n, hl, h⟩ := run_bind_ok_iff.1 h
  cases h
  exact ⟨t, next_ok h1, hl⟩

theorem skipAlignment_ok {ts : List (Tree Rule)} {p : Tree Rule × List (Tree Rule)} {T : Str} (hr : Queue ts T) (h : skipAlignment ts = .ok p) :
    Queue (p.1 :: p.2) T := by
  obtain ⟨⟨t, us⟩, h1, h⟩ := run_bind_ok_iff.1 h
  have e1 := next_ok h1
  dsimp only at e1 h
  rw [e1] at hr
  split at h
  · have := next_ok h
    rw [← this]
    exact Queue.tail hr
  · cases h; exact hr

theorem origin_optLabel {ts : List (Tree Rule)} {v : Option (Label F)} {T : Str} (hr : Queue ts T) (h : parseOptLabel ts = .ok v) :
    InOrder (v.toList.map (·.text)) T := by
  cases ts with
  | nil => cases h; exact .nil _
  | cons t ts =>
    obtain ⟨l, h1, h⟩ := run_bind_ok_iff.1 h
    cases h
    refine Queue.last hr ?_
    have hq := (hr.2 _ List.mem_cons_self).queue
    obtain ⟨⟨s, us⟩, b1, h1⟩ := run_bind_ok_iff.1 h1
    obtain ⟨⟨p, _⟩, b2, h1⟩ := run_bind_ok_iff.1 h1
    obtain ⟨pos, b3, h1⟩ := run_bind_ok_iff.1 h1
    cases h1
    obtain ⟨u, e, e'⟩ := nextStr_ok b1
    dsimp only at e e'
    rw [e] at hq
    show InOrder [s] _
    rw [e']
    exact hq.str fun T _ => .nil _

theorem origin_symbol {t : Tree Rule} {v : MapSymbol F} (ht : All Ordered t) (h : parseMapSymbol t = .ok v) :
    InOrder (v.name :: (location v.location ++ v.label.toList.map (·.text))) t.asStr := by
  have hr := ht.queue
  obtain ⟨⟨n, ts1⟩, a1, h⟩ := run_bind_ok_iff.1 h
  obtain ⟨⟨l, ts2⟩, a2, h⟩ := run_bind_ok_iff.1 h
  obtain ⟨o, a3, h⟩ := run_bind_ok_iff.1 h
  cases h
  have hr := skipAlignment_ok hr a1
  obtain ⟨t2, e2, b2⟩ := nextLocation_ok a2
  dsimp only at hr e2 b2 a3
  rw [e2] at hr
  exact hr.str fun T hr => hr.step (origin_location b2) fun T hr => origin_optLabel hr a3

theorem origin_text {t : Tree Rule} {v : Text F} (ht : All Ordered t) (h : parseText t = .ok v) :
    InOrder (location v.location ++ [v.content]) t.asStr := by
  have hr := ht.queue
  obtain ⟨⟨n, ts1⟩, a1, h⟩ := run_bind_ok_iff.1 h
  obtain ⟨l, a2, h⟩ := run_bind_ok_iff.1 h
  obtain ⟨⟨s, ts3⟩, a3, h⟩ := run_bind_ok_iff.1 h
  cases h
  have hr := skipAlignment_ok hr a1
  obtain ⟨u, e, e'⟩ := nextStr_ok a3
  dsimp only at hr e e' a2
  rw [e] at hr
  rw [e']
  exact hr.step (origin_location a2) fun T hr => hr.str fun T _ => .nil _

theorem origin_ends {t : Tree Rule} {v : Loc F × Loc F} (ht : All Ordered t) (h : parseEnds t = .ok v) :
    InOrder (location v.1 ++ location v.2) t.asStr := by
  have hr := ht.queue
  obtain ⟨⟨l1, ts1⟩, a1, h⟩ := run_bind_ok_iff.1 h
  obtain ⟨⟨l2, ts2⟩, a2, h⟩ := run_bind_ok_iff.1 h
  cases h
  obtain ⟨t1, e1, b1⟩ := nextLocation_ok a1
  obtain ⟨t2, e2, b2⟩ := nextLocation_ok a2
  dsimp only at e1 e2 b1 b2
  rw [e1, e2] at hr
  exact hr.step (origin_location b1) fun T hr => Queue.last hr (origin_location b2)

theorem mergeLines_sublist {L : Type} [DecidableEq L] (ls : List (L × L)) : (Lines.mergeLines ls).flatten.Sublist (ls.flatMap fun l => [l.1, l.2]) := by
  have : ∀ (ls : List (L × L)) (acc : List (List L)), (ls.foldl Lines.addLine acc).flatten.Sublist (acc.flatten ++ ls.flatMap fun l => [l.1, l.2]) := by
    intro ls
    induction ls with
    | nil => intro acc; simp
    | cons l ls ih =>
      intro acc
      refine (ih _).trans ?_
      rw [List.flatMap_cons, ← List.append_assoc]
      exact List.Sublist.append (addLine_sublist acc l) (List.Sublist.refl _)
  simpa [Lines.mergeLines] using this ls []

variable [DecidableEq F]

theorem origin_mapLine {t : Tree Rule} {v : List (List (Loc F))} (ht : All Ordered t) (h : parseMapLine t = .ok v) :
    InOrder (v.flatten.flatMap location) t.asStr := by
  obtain ⟨ls, h1, h⟩ := run_bind_ok_iff.1 h
  cases h
  have := ht.queue.mapM (fields := fun l : Loc F × Loc F => location l.1 ++ location l.2) (fun _ _ => origin_ends) h1
  refine this.sub ?_
  have hs := flatMap_sublist (location (F := F)) (mergeLines_sublist ls)
  rw [List.flatMap_assoc] at hs
  simpa using hs

variable {G : Type} [F64 G]

theorem origin_mapRule {upper : Str → Str} {t : Tree Rule} {v : Option (MapRule F G)} (ht : All Ordered t) (h : parseMapRule upper t = .ok v) :
    InOrder (v.toList.flatMap mapRule) t.asStr := by
  have hr := ht.queue
  have one : ∀ {mk : Str → MapRule F G}, (∀ s, mapRule (mk s) = [s]) →
      (do let (s, _) ← nextStr t.inner
          return some (mk s) : Run (Option (MapRule F G))) = .ok v → InOrder (v.toList.flatMap mapRule) t.asStr := by
    intro mk hmk h
    obtain ⟨⟨s, ts⟩, h1, h⟩ := run_bind_ok_iff.1 h
    cases h
    obtain ⟨u, e, e'⟩ := nextStr_ok h1
    dsimp only at e e'
    rw [e] at hr
    show InOrder (mapRule (mk s) ++ []) _
    rw [hmk, List.append_nil, e']
    exact hr.str fun T _ => .nil _
  have use : ∀ {A : Type} {f : Tree Rule → Run A} {mk : A → MapRule F G}, (∀ a, f t = .ok a → InOrder (mapRule (mk a)) t.asStr) →
      (do let a ← f t
          return some (mk a) : Run (Option (MapRule F G))) = .ok v → InOrder (v.toList.flatMap mapRule) t.asStr := by
    intro A f mk hf h
    obtain ⟨a, h1, h⟩ := run_bind_ok_iff.1 h
    cases h
    show InOrder (mapRule (mk a) ++ []) _
    rw [List.append_nil]
    exact hf a h1
  have no : ∀ {A : Type} {x : Run (A × List (Tree Rule))} {mk : A → MapRule F G}, (∀ a, mapRule (mk a) = []) →
      (do let (a, _) ← x
          return some (mk a) : Run (Option (MapRule F G))) = .ok v → InOrder (v.toList.flatMap mapRule) t.asStr := by
    intro A x mk hmk h
    obtain ⟨⟨a, _⟩, h1, h⟩ := run_bind_ok_iff.1 h
    cases h
    show InOrder (mapRule (mk a) ++ []) _
    rw [hmk]
    exact .nil _
  unfold parseMapRule at h
  split at h
  · exact one (fun _ => rfl) h
  · exact one (fun _ => rfl) h
  · obtain ⟨⟨u, us⟩, h1, h⟩ := run_bind_ok_iff.1 h
    obtain ⟨l, h2, h⟩ := run_bind_ok_iff.1 h
    cases h
    have e := next_ok h1
    dsimp only at e
    rw [e] at hr
    show InOrder (names l ++ []) _
    rw [List.append_nil]
    exact Queue.last hr (origin_names (hr.2 _ List.mem_cons_self) h2)
  · exact use (fun a => origin_active ht) h
  · exact use (fun a => origin_active ht) h
  · exact no (fun _ => rfl) h
  · exact use (fun a => origin_symbol ht) h
  · exact use (mk := .fontSize) (fun a _ => .nil _) h
  · exact no (fun _ => rfl) h
  · exact use (f := parseLineStyle upper) (mk := .lineStyle) (fun a _ => .nil _) h
  · exact use (fun a => origin_mapLine ht) h
  · exact use (fun a => origin_text ht) h
  · cases h; exact .nil _
  · cases h; exact .nil _
  · cases h; exact .nil _
  · cases h; exact .nil _
  · obtain ⟨⟨l, us⟩, h1, h⟩ := run_bind_ok_iff.1 h
    cases h
    obtain ⟨u, e, e'⟩ := nextLocation_ok h1
    dsimp only at e e'
    rw [e] at hr
    show InOrder (location l ++ []) _
    rw [List.append_nil]
    exact Queue.last hr (origin_location e')
  · exact one (fun _ => rfl) h
  all_goals (cases h; try exact .nil _)

theorem flatMap_filterMap {A B : Type} (f : A → List B) : ∀ l : List (Option A), (l.filterMap id).flatMap f = l.flatMap fun o => o.toList.flatMap f
  | [] => rfl
  | none :: l => by simpa using flatMap_filterMap f l
  | some a :: l => by simpa using flatMap_filterMap f l

theorem origin_map {upper : Str → Str} {t : Tree Rule} {v : Option (MapDef F G)} (ht : All Ordered t) (h : parseMap upper t = .ok v) :
    InOrder (v.toList.flatMap map) t.asStr := by
  have hr := ht.queue
  unfold parseMap at h
  split at h
  · obtain ⟨⟨s, ts⟩, h1, h⟩ := run_bind_ok_iff.1 h
    obtain ⟨rules, h2, h⟩ := run_bind_ok_iff.1 h
    cases h
    obtain ⟨u, e, e'⟩ := nextStr_ok h1
    dsimp only at e e' h2
    rw [e] at hr
    show InOrder ((s :: (rules.filterMap id).flatMap mapRule) ++ []) _
    rw [List.append_nil, e', flatMap_filterMap]
    exact hr.str fun T hr => hr.mapM (fun _ _ => origin_mapRule) h2
  · cases h; exact .nil _
  · cases h

theorem origin_override {t : Tree Rule} {v : Option OverrideSct} (ht : All Ordered t) (h : parseOverride t = .ok v) :
    InOrder (v.toList.flatMap override) t.asStr := by
  have hr := ht.queue
  unfold parseOverride at h
  split at h
  · obtain ⟨⟨s, ts⟩, h1, h⟩ := run_bind_ok_iff.1 h
    cases h
    obtain ⟨u, e, e'⟩ := nextStr_ok h1
    dsimp only at e e'
    rw [e] at hr
    show InOrder ((s :: (ts.head?.map Tree.asStr).toList) ++ []) _
    rw [List.append_nil, e']
    refine hr.str fun T hr => ?_
    cases ts with
    | nil => exact .nil _
    | cons a l => exact hr.str fun T _ => .nil _
  · cases h; exact .nil _
  · cases h

theorem origin_lineStyle {t : Tree Rule} {v : LineStyleDef G} (ht : All Ordered t) (h : parseLinestyle t = .ok (some v)) :
    InOrder (lineStyle v) t.asStr := by
  have hr := ht.queue
  unfold parseLinestyle at h
  split at h
  · obtain ⟨⟨s1, ts1⟩, a1, h⟩ := run_bind_ok_iff.1 h
    obtain ⟨⟨s2, ts2⟩, a2, h⟩ := run_bind_ok_iff.1 h
    obtain ⟨⟨s3, ts3⟩, a3, h⟩ := run_bind_ok_iff.1 h
    obtain ⟨d, _, h⟩ := run_bind_ok_iff.1 h
    cases h
    obtain ⟨t1, e1, b1⟩ := nextStr_ok a1
    obtain ⟨t2, e2, b2⟩ := nextStr_ok a2
    obtain ⟨t3, e3, b3⟩ := nextStr_ok a3
    dsimp only at e1 e2 e3 b1 b2 b3
    rw [e1, e2, e3] at hr
    show InOrder [s1, s2, s3] _
    rw [b1, b2, b3]
    exact hr.str fun T hr => hr.str fun T hr => hr.str fun T _ => .nil _
  · cases h
  · cases h

theorem origin_colour {t : Tree Rule} {v : ColourDef} (ht : All Ordered t) (h : parseColour t = .ok (some v)) : v.name <:+: t.asStr := by
  have hr := ht.queue
  unfold parseColour at h
  split at h
  · obtain ⟨⟨s1, ts1⟩, a1, h⟩ := run_bind_ok_iff.1 h
    obtain ⟨⟨r, ts2⟩, a2, h⟩ := run_bind_ok_iff.1 h
    obtain ⟨⟨g, ts3⟩, a3, h⟩ := run_bind_ok_iff.1 h
    obtain ⟨⟨b, ts4⟩, a4, h⟩ := run_bind_ok_iff.1 h
    cases h
    obtain ⟨t1, e1, b1⟩ := nextStr_ok a1
    dsimp only at e1 b1
    rw [e1] at hr
    show s1 <:+: _
    rw [b1]
    exact row_infix hr List.mem_cons_self
  · cases h
  · cases h

variable [Close F]

theorem origin_symbolDef {t : Tree Rule} {v : SymbolDef F} (ht : All Ordered t) (h : parseSymbol t = .ok (some v)) : v.name <:+: t.asStr := by
  have hr := ht.queue
  unfold parseSymbol at h
  have main : (do
      let (name, symbol) ← nextStr t.inner
      let rules ← symbol.mapM (Parse.SymbolRule.parseRule kind)
      return some { name, rules } : Run (Option (SymbolDef F))) = .ok (some v) → v.name <:+: t.asStr := by
    intro h
    obtain ⟨⟨s1, ts1⟩, a1, h⟩ := run_bind_ok_iff.1 h
    obtain ⟨r, _, h⟩ := run_bind_ok_iff.1 h
    cases h
    obtain ⟨t1, e1, b1⟩ := nextStr_ok a1
    dsimp only at e1 b1
    rw [e1] at hr
    show s1 <:+: _
    rw [b1]
    exact row_infix hr List.mem_cons_self
  split at h
  · exact main h
  · exact main h
  · cases h
  · cases h

/-! ## Files -/

/-- The texts of the maps in a file -/
def mapTexts : Option (MapDefinition F G) → List Str
  | some (.map d) => map d
  | _ => []

/-- The texts of the overrides in a file -/
def overrideTexts : Option (MapDefinition F G) → List Str
  | some (.override d) => override d
  | _ => []

/-- Where the other definitions come from -/
def DefOrigin (T : Str) : MapDefinition F G → Prop
  | .colour d => d.name <:+: T
  | .symbol d => d.name <:+: T
  | .lineStyle d => InOrder (lineStyle d) T
  | _ => True

theorem map_some {A B : Type} {x : Run (Option A)} {mk : A → B} {v : Option B}
    (h : (do let d ← x; return d.map mk : Run (Option B)) = .ok v) : ∃ d, x = .ok d ∧ v = d.map mk := by
  obtain ⟨d, h1, h⟩ := run_bind_ok_iff.1 h
  cases h
  exact ⟨d, h1, rfl⟩

theorem origin_definition {upper : Str → Str} {t : Tree Rule} {v : Option (MapDefinition F G)} (ht : All Ordered t)
    (h : parseDefinition upper t = .ok v) :
    InOrder (mapTexts v) t.asStr ∧ InOrder (overrideTexts v) t.asStr ∧ ∀ d, v = some d → DefOrigin t.asStr d := by
  unfold parseDefinition at h
  split at h
  · obtain ⟨d, h1, rfl⟩ := map_some h
    have := origin_map ht h1
    cases d with
    | none => exact ⟨.nil _, .nil _, by simp⟩
    | some d =>
      refine ⟨by simpa [mapTexts] using this, .nil _, ?_⟩
      intro x hx; cases hx; trivial
  · obtain ⟨d, h1, rfl⟩ := map_some h
    cases d with
    | none => exact ⟨.nil _, .nil _, by simp⟩
    | some d => exact ⟨.nil _, .nil _, fun x hx => by cases hx; exact origin_colour ht h1⟩
  · obtain ⟨d, h1, rfl⟩ := map_some h
    cases d with
    | none => exact ⟨.nil _, .nil _, by simp⟩
    | some d => exact ⟨.nil _, .nil _, fun x hx => by cases hx; exact origin_symbolDef ht h1⟩
  · obtain ⟨d, h1, rfl⟩ := map_some h
    cases d with
    | none => exact ⟨.nil _, .nil _, by simp⟩
    | some d => exact ⟨.nil _, .nil _, fun x hx => by cases hx; exact origin_lineStyle ht h1⟩
  · obtain ⟨d, h1, rfl⟩ := map_some h
    have := origin_override ht h1
    cases d with
    | none => exact ⟨.nil _, .nil _, by simp⟩
    | some d =>
      refine ⟨.nil _, by simpa [overrideTexts] using this, ?_⟩
      intro x hx; cases hx; trivial
  · cases h; exact ⟨.nil _, .nil _, by simp⟩
  · cases h; exact ⟨.nil _, .nil _, by simp⟩
  · cases h

/-- What the collections are made of -/
structure Collected (T : Str) (m : Maps F G) : Prop where
  symbols : ∀ x ∈ m.symbols, x.1 = x.2.name ∧ x.1 <:+: T
  colours : ∀ x ∈ m.colours, x.1 = x.2.name ∧ x.1 <:+: T
  lineStyles : ∀ x ∈ m.lineStyles, x.1 = x.2.name ∧ InOrder (lineStyle x.2) T

theorem collected_step {T : Str} {m : Maps F G} {d : MapDefinition F G} (hm : Collected T m) (hd : DefOrigin T d) : Collected T (step m d) := by
  cases d with
  | map d => exact ⟨hm.1, hm.2, hm.3⟩
  | override d => exact ⟨hm.1, hm.2, hm.3⟩
  | colour d =>
    refine ⟨hm.1, fun x hx => ?_, hm.3⟩
    rcases mem_insert hx with rfl | hx
    · exact ⟨rfl, hd⟩
    · exact hm.2 x hx
  | symbol d =>
    refine ⟨fun x hx => ?_, hm.2, hm.3⟩
    rcases mem_insert hx with rfl | hx
    · exact ⟨rfl, hd⟩
    · exact hm.1 x hx
  | lineStyle d =>
    refine ⟨hm.1, hm.2, fun x hx => ?_⟩
    rcases mem_insert hx with rfl | hx
    · exact ⟨rfl, hd⟩
    · exact hm.3 x hx

theorem collected_all {T : Str} {l : List (MapDefinition F G)} : ∀ {m : Maps F G}, Collected T m → (∀ d ∈ l, DefOrigin T d) →
    Collected T (l.foldl step m) := by
  induction l with
  | nil => intro m hm _; exact hm
  | cons d l ih =>
    intro m hm h
    exact ih (collected_step hm (h d List.mem_cons_self)) fun x hx => h x (List.mem_cons_of_mem _ hx)

theorem fold_maps : ∀ (l : List (Option (MapDefinition F G))) (m : Maps F G),
    ((l.filterMap id).foldl step m).maps.flatMap map = m.maps.flatMap map ++ l.flatMap mapTexts ∧
    ((l.filterMap id).foldl step m).overrides.flatMap override = m.overrides.flatMap override ++ l.flatMap overrideTexts
  | [], m => by simp
  | none :: l, m => by simpa [mapTexts, overrideTexts] using fold_maps l m
  | some d :: l, m => by
    have := fold_maps l (step m d)
    simp only [List.filterMap_cons, id_eq, List.foldl_cons, List.flatMap_cons]
    rw [this.1, this.2]
    cases d <;> simp [step, mapTexts, overrideTexts]

theorem mapM_all {A : Type} {f : Tree Rule → Run A} : ∀ {ts : List (Tree Rule)} {vs : List A}, ts.mapM f = .ok vs → ∀ v ∈ vs, ∃ t ∈ ts, f t = .ok v
  | [], vs, hm => by cases hm; simp
  | t :: ts, vs, hm => by
    rw [List.mapM_cons] at hm
    obtain ⟨v, hv, hm⟩ := run_bind_ok_iff.1 hm
    obtain ⟨ws, hw, hm⟩ := run_bind_ok_iff.1 hm
    cases hm
    intro x hx
    rcases List.mem_cons.1 hx with rfl | hx
    · exact ⟨t, List.mem_cons_self, hv⟩
    · obtain ⟨u, hu, h⟩ := mapM_all hw x hx
      exact ⟨u, List.mem_cons_of_mem _ hu, h⟩

theorem defOrigin_mono {T U : Str} {d : MapDefinition F G} (h : DefOrigin T d) (hi : T <:+: U) : DefOrigin U d := by
  cases d with
  | colour d => exact List.IsInfix.trans (l₂ := T) h hi
  | symbol d => exact List.IsInfix.trans (l₂ := T) h hi
  | lineStyle d => exact InOrder.of_infix h hi
  | _ => trivial

theorem origin_file {upper : Str → Str} {content : Str} {m : Maps F G} (h : parseMaps upper content = .ok m) :
    InOrder (m.maps.flatMap map) content ∧ InOrder (m.overrides.flatMap override) content ∧ Collected content m := by
  obtain ⟨pairs, h1, h⟩ := run_bind_ok_iff.1 h
  obtain ⟨⟨p, _⟩, h2, h⟩ := run_bind_ok_iff.1 h
  obtain ⟨found, h3, h9⟩ := run_bind_ok_iff.1 h
  rcases run_tok Peg.Topsky.maps rfl Topsky.good.ok rfl rfl content with h' | ⟨kids, h', ho⟩
  · rw [h'] at h1; cases h1
  · rw [h'] at h1
    cases h1
    have e2 := next_ok h2
    injection e2 with e2 _
    dsimp only at e2
    subst e2
    have hr := out_queue ho
    cases h9
    have hf := fold_maps found ⟨[], [], [], [], []⟩
    have c1 := hr.mapM (fields := mapTexts (F := F) (G := G)) (fun _ _ ht h => (origin_definition ht h).1) h3
    have c2 := hr.mapM (fields := overrideTexts (F := F) (G := G)) (fun _ _ ht h => (origin_definition ht h).2.1) h3
    refine ⟨by rw [hf.1]; simpa using c1, by rw [hf.2]; simpa using c2, ?_⟩
    refine collected_all ⟨by simp, by simp, by simp⟩ fun d hd => ?_
    rw [List.mem_filterMap] at hd
    obtain ⟨o, ho', hd⟩ := hd
    obtain ⟨t, ht, ht'⟩ := mapM_all h3 o ho'
    exact defOrigin_mono ((origin_definition (hr.2 t ht) ht').2.2 d hd) (row_infix hr ht)
end

end Verif.Proofs.OriginTopsky
