import Verif.Proofs.Joined
import Verif.Props.Icao
import Verif.Props.Isec
import Verif.Props.Prf
import Verif.Props.Airway
import Verif.Props.AirwayGraph
/-!
# C112: files that are put together

Two files, the first of which ends with a line feed, are written one behind the other.  The theorems say which of the texts made this
way are accepted, and what is read from them, in terms of what is read from the parts.
-/

namespace Verif.Props
open Verif.Proofs.Joined
open Verif.Parse (Point)

/-- Which joined texts are accepted if a file needs at least one line with data. -/
theorem accepted_join {D : Type} {ok : Str → Prop} {file : Str → List D → Prop} (h : ∀ t, ok t ↔ ∃ ds, ds ≠ [] ∧ file t ds) {u v : Str}
    (hj : ∀ ds, file (u ++ '\n' :: v) ds ↔ ∃ d1 d2, ds = d1 ++ d2 ∧ file (u ++ ['\n']) d1 ∧ file v d2) :
    ok (u ++ '\n' :: v) ↔ (ok (u ++ ['\n']) ∧ ok v) ∨ (ok (u ++ ['\n']) ∧ file v []) ∨ (file (u ++ ['\n']) [] ∧ ok v) := by
  simp only [h]
  constructor
  · rintro ⟨ds, hne, hf⟩
    obtain ⟨d1, d2, rfl, h1, h2⟩ := (hj _).1 hf
    cases d1 with
    | nil => exact Or.inr (Or.inr ⟨h1, d2, hne, h2⟩)
    | cons a d1 =>
      cases d2 with
      | nil => exact Or.inr (Or.inl ⟨⟨_, by simp, h1⟩, h2⟩)
      | cons b d2 => exact Or.inl ⟨⟨_, by simp, h1⟩, _, by simp, h2⟩
  · rintro (⟨⟨d1, hne, h1⟩, d2, _, h2⟩ | ⟨⟨d1, hne, h1⟩, h2⟩ | ⟨h1, d2, hne, h2⟩)
    · exact ⟨d1 ++ d2, by simp [hne], (hj _).2 ⟨d1, d2, rfl, h1, h2⟩⟩
    · exact ⟨d1, hne, (hj _).2 ⟨d1, [], by simp, h1, h2⟩⟩
    · exact ⟨d2, hne, (hj _).2 ⟨[], d2, rfl, h1, h2⟩⟩

section Icao
open Verif.Parse.Icao
open Verif.Spec.Icao (IsFile IsRest Final AtEnd first)

theorem first_append {D : Type} (name : D → Str) (d1 d2 : List D) (k : Str) :
    first name (d1 ++ d2) k = (first name d1 k).or (first name d2 k) := List.find?_append ..

theorem map_or' {α β : Type} (f : α → β) (a b : Option α) : (a.or b).map f = (a.map f).or (b.map f) := by cases a <;> rfl

/-- **C112.** Two lists of airlines behind each other: of each designator the airline of the first list is returned, or else that of
the second. -/
theorem C112_airlines {u v : Str} {m1 m2 : Map Str Airline} (h1 : parseAirlines (u ++ ['\n']) = .ok m1) (h2 : parseAirlines v = .ok m2) :
    ∃ m, parseAirlines (u ++ ['\n'] ++ v) = .ok m ∧ ∀ k, Map.get? m k = (Map.get? m1 k).or (Map.get? m2 k) := by
  obtain ⟨d1, hne, hf1⟩ := (C06_airlines_accepts _).1 ⟨_, h1⟩
  obtain ⟨d2, _, hf2⟩ := (C06_airlines_accepts _).1 ⟨_, h2⟩
  obtain ⟨_, e1, k1⟩ := C06_airlines hf1 hne
  obtain ⟨_, e2, k2⟩ := C06_airlines hf2 (by assumption)
  cases h1.symm.trans e1
  cases h2.symm.trans e2
  obtain ⟨m, e, k⟩ := C06_airlines ((icao_iff airlines_lines).2 ⟨d1, d2, rfl, hf1, hf2⟩) (by simp [hne])
  refine ⟨m, by simpa using e, fun x => ?_⟩
  rw [k, k1, k2, first_append, map_or']

/-- **C112.** Two lists of airports behind each other: of each designator the airport of the first list is returned, or else that of
the second. -/
theorem C112_airports [UnicodeTables] {u v : Str} {m1 m2 : Map Str IcaoAirport} (h1 : parseAirports (u ++ ['\n']) = .ok m1)
    (h2 : parseAirports v = .ok m2) :
    ∃ m, parseAirports (u ++ ['\n'] ++ v) = .ok m ∧ ∀ k, Map.get? m k = (Map.get? m1 k).or (Map.get? m2 k) := by
  obtain ⟨d1, hne, hf1⟩ := (C06_airports_accepts _).1 ⟨_, h1⟩
  obtain ⟨d2, _, hf2⟩ := (C06_airports_accepts _).1 ⟨_, h2⟩
  obtain ⟨_, e1, k1⟩ := C06_airports hf1 hne
  obtain ⟨_, e2, k2⟩ := C06_airports hf2 (by assumption)
  cases h1.symm.trans e1
  cases h2.symm.trans e2
  obtain ⟨m, e, k⟩ := C06_airports ((icao_iff airports_lines).2 ⟨d1, d2, rfl, hf1, hf2⟩) (by simp [hne])
  refine ⟨m, by simpa using e, fun x => ?_⟩
  rw [k, k1, k2, first_append, map_or']

/-- **C112.** Two lists of aircraft behind each other: of each designator the aircraft of the first list is returned, or else that of
the second. -/
theorem C112_aircraft [UnicodeTables] {u v : Str} {m1 m2 : AircraftMap} (h1 : parseAircraft (u ++ ['\n']) = .ok m1)
    (h2 : parseAircraft v = .ok m2) :
    ∃ m, parseAircraft (u ++ ['\n'] ++ v) = .ok m ∧ ∀ k, Map.get? m k = (Map.get? m1 k).or (Map.get? m2 k) := by
  obtain ⟨d1, hne, hf1⟩ := (C06_aircraft_accepts _).1 ⟨_, h1⟩
  obtain ⟨d2, _, hf2⟩ := (C06_aircraft_accepts _).1 ⟨_, h2⟩
  obtain ⟨_, e1, k1⟩ := C06_aircraft hf1 hne
  obtain ⟨_, e2, k2⟩ := C06_aircraft hf2 (by assumption)
  cases h1.symm.trans e1
  cases h2.symm.trans e2
  obtain ⟨m, e, k⟩ := C06_aircraft ((icao_iff aircraft_lines).2 ⟨d1, d2, rfl, hf1, hf2⟩) (by simp [hne])
  refine ⟨m, by simpa using e, fun x => ?_⟩
  rw [k, k1, k2, List.filterMap_append, first_append, map_or']

/-- **C112.** A joined list of airlines is accepted exactly if both parts are, or one is and the other has only blank lines and comments. -/
theorem C112_airlines_accepts (u v : Str) : (∃ m, parseAirlines (u ++ '\n' :: v) = .ok m) ↔
    ((∃ m, parseAirlines (u ++ ['\n']) = .ok m) ∧ (∃ m, parseAirlines v = .ok m)) ∨
    ((∃ m, parseAirlines (u ++ ['\n']) = .ok m) ∧ IsFile IsRest (Spec.Icao.AirlineText Final) (Spec.Icao.AirlineText AtEnd) v []) ∨
    (IsFile IsRest (Spec.Icao.AirlineText Final) (Spec.Icao.AirlineText AtEnd) (u ++ ['\n']) [] ∧ (∃ m, parseAirlines v = .ok m)) :=
  accepted_join (ok := fun t => ∃ m, parseAirlines t = .ok m) C06_airlines_accepts fun _ => icao_iff airlines_lines

/-- **C112.** The same of the lists of airports. -/
theorem C112_airports_accepts [UnicodeTables] (u v : Str) : (∃ m, parseAirports (u ++ '\n' :: v) = .ok m) ↔
    ((∃ m, parseAirports (u ++ ['\n']) = .ok m) ∧ (∃ m, parseAirports v = .ok m)) ∨
    ((∃ m, parseAirports (u ++ ['\n']) = .ok m) ∧ IsFile IsRest (Spec.Icao.AirportText Final) (Spec.Icao.AirportText AtEnd) v []) ∨
    (IsFile IsRest (Spec.Icao.AirportText Final) (Spec.Icao.AirportText AtEnd) (u ++ ['\n']) [] ∧ (∃ m, parseAirports v = .ok m)) :=
  accepted_join (ok := fun t => ∃ m, parseAirports t = .ok m) C06_airports_accepts fun _ => icao_iff airports_lines

/-- **C112.** The same of the lists of aircraft. -/
theorem C112_aircraft_accepts [UnicodeTables] (u v : Str) : (∃ m, parseAircraft (u ++ '\n' :: v) = .ok m) ↔
    ((∃ m, parseAircraft (u ++ ['\n']) = .ok m) ∧ (∃ m, parseAircraft v = .ok m)) ∨
    ((∃ m, parseAircraft (u ++ ['\n']) = .ok m) ∧
      IsFile IsRest (Spec.Icao.AircraftLine Spec.Isec.IsBlank Final) (Spec.Icao.AircraftLine IsRest AtEnd) v []) ∨
    (IsFile IsRest (Spec.Icao.AircraftLine Spec.Isec.IsBlank Final) (Spec.Icao.AircraftLine IsRest AtEnd) (u ++ ['\n']) [] ∧
      (∃ m, parseAircraft v = .ok m)) :=
  accepted_join (ok := fun t => ∃ m, parseAircraft t = .ok m) C06_aircraft_accepts fun _ => icao_iff aircraft_lines

/-- **C112.** Two files of navigation data behind each other are accepted exactly if both are, and of each designator the airport of
the first file is returned, or else that of the second. -/
theorem C112_navdata [UnicodeTables] {F : Type} [F64 F] (num : Str → F) (hnum : ∀ s, IsDecimal s → F64.ofText s = some (num s)) (u v : Str) :
    ((∃ m, parseNavdataAirports (F := F) (u ++ ['\n'] ++ v) = .ok m) ↔
      (∃ m, parseNavdataAirports (F := F) (u ++ ['\n']) = .ok m) ∧ (∃ m, parseNavdataAirports (F := F) v = .ok m)) ∧
    ∀ m m1 m2, parseNavdataAirports (F := F) (u ++ ['\n'] ++ v) = .ok m → parseNavdataAirports (u ++ ['\n']) = .ok m1 →
      parseNavdataAirports v = .ok m2 → ∀ k, Map.get? m k = (Map.get? m1 k).or (Map.get? m2 k) := by
  rw [show u ++ ['\n'] ++ v = u ++ '\n' :: v by simp]
  constructor
  · simp only [C06_navdata_accepts]
    constructor
    · rintro ⟨ds, hf⟩
      obtain ⟨d1, d2, _, h1, h2⟩ := (icao_iff navdata_lines).1 hf
      exact ⟨⟨d1, h1⟩, d2, h2⟩
    · rintro ⟨⟨d1, h1⟩, d2, h2⟩
      exact ⟨_, (icao_iff navdata_lines).2 ⟨d1, d2, rfl, h1, h2⟩⟩
  · intro m m1 m2 h h1 h2 x
    obtain ⟨d1, hf1⟩ := (C06_navdata_accepts (F := F) _).1 ⟨_, h1⟩
    obtain ⟨d2, hf2⟩ := (C06_navdata_accepts (F := F) _).1 ⟨_, h2⟩
    obtain ⟨_, e1, k1⟩ := C06_navdata num hnum hf1
    obtain ⟨_, e2, k2⟩ := C06_navdata num hnum hf2
    obtain ⟨_, e, k⟩ := C06_navdata num hnum ((icao_iff navdata_lines).2 ⟨d1, d2, rfl, hf1, hf2⟩)
    cases h1.symm.trans e1
    cases h2.symm.trans e2
    cases h.symm.trans e
    rw [k, k1, k2, first_append, map_or']

end Icao

section Isec
open Verif.Parse.Isec
variable {F : Type} [F64 F]

/-- **C112.** Two waypoint files behind each other: looking a designator up returns the fixes of the first file, then those of the
second. -/
theorem C112_isec {u v : Str} {m1 m2 : IsecMap F} (h1 : parseIsecTxt (u ++ ['\n']) = .ok m1) (h2 : parseIsecTxt v = .ok m2) :
    ∃ m : IsecMap F, parseIsecTxt (u ++ ['\n'] ++ v) = .ok m ∧
      ∀ d, MultiMap.getVec m d = MultiMap.getVec m1 d ++ MultiMap.getVec m2 d := by
  obtain ⟨w1, hne, hf1⟩ := (C02_isec_no_panic (F := F) _).2.1 ⟨_, h1⟩
  obtain ⟨w2, hne2, hf2⟩ := (C02_isec_no_panic (F := F) _).2.1 ⟨_, h2⟩
  obtain ⟨f1, k1, e1⟩ := parse_complete (F := F) hf1 hne
  obtain ⟨f2, k2, e2⟩ := parse_complete (F := F) hf2 hne2
  obtain ⟨f, k, e⟩ := parse_complete (F := F) (isec_iff.2 ⟨w1, w2, rfl, hf1, hf2⟩) (by simp [hne])
  cases h1.symm.trans e1
  cases h2.symm.trans e2
  refine ⟨_, by simpa using e, fun d => ?_⟩
  have : f = f1 ++ f2 := by
    rw [List.map_append, k1, k2, ← List.map_append] at k
    exact ((List.map_inj_right fun _ _ h => Option.some.inj h).1 k).symm
  rw [lookup_collect, lookup_collect, lookup_collect, this, List.filter_append]

/-- **C112.** A joined waypoint file is accepted exactly if both parts are, or one is and the other has only blank lines and comments. -/
theorem C112_isec_accepts (u v : Str) : (∃ m, parseIsecTxt (F := F) (u ++ '\n' :: v) = .ok m) ↔
    ((∃ m, parseIsecTxt (F := F) (u ++ ['\n']) = .ok m) ∧ (∃ m, parseIsecTxt (F := F) v = .ok m)) ∨
    ((∃ m, parseIsecTxt (F := F) (u ++ ['\n']) = .ok m) ∧ Spec.Isec.IsFile v []) ∨
    (Spec.Isec.IsFile (u ++ ['\n']) [] ∧ (∃ m, parseIsecTxt (F := F) v = .ok m)) :=
  accepted_join (ok := fun t => ∃ m, parseIsecTxt (F := F) t = .ok m) (fun t => (C02_isec_no_panic t).2) fun _ => isec_iff

end Isec

section Prf
open Verif.Parse.Prf
variable [UnicodeTables]

/-- **C112.** Two profiles behind each other: each setting has the value of the second profile, or else that of the first. -/
theorem C112_prf {u v : Str} {m1 m2 : Settings} (h1 : parsePrf (u ++ ['\n']) = .ok m1) (h2 : parsePrf v = .ok m2) :
    ∃ m, parsePrf (u ++ ['\n'] ++ v) = .ok m ∧ ∀ k, Map.get? m k = (Map.get? m2 k).or (Map.get? m1 k) := by
  obtain ⟨w1, hne, hf1⟩ := (C07_prf_no_panic _).2.1 ⟨_, h1⟩
  obtain ⟨w2, hne2, hf2⟩ := (C07_prf_no_panic _).2.1 ⟨_, h2⟩
  obtain ⟨_, e1, k1⟩ := C07_prf_last_wins _ _ hf1 hne
  obtain ⟨_, e2, k2⟩ := C07_prf_last_wins _ _ hf2 hne2
  obtain ⟨m, e, k⟩ := C07_prf_last_wins _ _ (prf_iff.2 ⟨w1, w2, rfl, hf1, hf2⟩) (by simp [hne])
  cases h1.symm.trans e1
  cases h2.symm.trans e2
  refine ⟨m, by simpa using e, fun (a, b) => ?_⟩
  rw [k, k1, k2, List.filter_append, List.getLast?_append, map_or']

/-- **C112.** A joined profile is accepted exactly if both parts are, or one is and the other has only blank lines. -/
theorem C112_prf_accepts (u v : Str) : (∃ m, parsePrf (u ++ '\n' :: v) = .ok m) ↔
    ((∃ m, parsePrf (u ++ ['\n']) = .ok m) ∧ (∃ m, parsePrf v = .ok m)) ∨
    ((∃ m, parsePrf (u ++ ['\n']) = .ok m) ∧ Spec.Prf.IsFile v []) ∨
    (Spec.Prf.IsFile (u ++ ['\n']) [] ∧ (∃ m, parsePrf v = .ok m)) :=
  accepted_join (ok := fun t => ∃ m, parsePrf t = .ok m) (fun t => (C07_prf_no_panic t).2) fun _ => prf_iff

end Prf

section Airway
open Verif.Parse.Airway Verif.AirwayGraph Verif.AirwayGraph.Spec Verif.Spec.Airway
variable {F : Type} [F64 F] [Quantize (Point F)]

/-- The lines of an accepted airway file. -/
theorem airway_lines (num : Str → F) (hnum : ∀ s, Verif.Spec.Isec.IsCoord s → F64.ofText s = some (num s)) {t : Str} {g : Graph (Point F)}
    (h : parseAirwayTxt t = .ok g) : ∃ ws, ws ≠ [] ∧ IsFile t ws ∧ (∀ w ∈ ws, LevelsFit w) ∧ build (ws.flatMap (segs num)) = .ok g := by
  rcases parse_sound (F := F) t with h' | ⟨ws, hne, hf⟩
  · rw [h] at h'
    cases h'
  · refine ⟨ws, hne, hf, ?_⟩
    have e := parse_complete hnum hf hne
    rw [h] at e
    split at e
    · exact ⟨by assumption, e.symm⟩
    · cases e

/-- **C112.** Two airway files behind each other: there is a leg of an airway between two fixes exactly if one of the files gives it; it
can be flown exactly if one of the files lets it be flown, and its minimum level is the least one that the files give. -/
theorem C112_airway (num : Str → F) (hnum : ∀ s, Verif.Spec.Isec.IsCoord s → F64.ofText s = some (num s)) {u v : Str}
    {g1 g2 : Graph (Point F)} (h1 : parseAirwayTxt (u ++ ['\n']) = .ok g1) (h2 : parseAirwayTxt v = .ok g2) :
    ∃ g : Graph (Point F), parseAirwayTxt (u ++ ['\n'] ++ v) = .ok g ∧ ∀ w a b,
      ((∃ e, HasEdge g w a b e) ↔ ∃ e, HasEdge g1 w a b e ∨ HasEdge g2 w a b e) ∧
      ∀ e, HasEdge g w a b e →
        (e.validDirection = true ↔ ∃ e', (HasEdge g1 w a b e' ∨ HasEdge g2 w a b e') ∧ e'.validDirection = true) ∧
        IsLeast e.minimumLevel fun n => ∃ e', (HasEdge g1 w a b e' ∨ HasEdge g2 w a b e') ∧ e'.minimumLevel = some n := by
  obtain ⟨w1, n1, f1, l1, b1⟩ := airway_lines num hnum h1
  obtain ⟨w2, n2, f2, l2, b2⟩ := airway_lines num hnum h2
  obtain ⟨g, hg⟩ := build_ok ((w1 ++ w2).flatMap (segs num))
  have hp := parse_complete hnum (airway_iff.2 ⟨w1, w2, rfl, f1, f2⟩) (by simp [n1])
  rw [if_pos (by
    intro w hw
    rcases List.mem_append.1 hw with hw | hw
    · exact l1 w hw
    · exact l2 w hw), hg] at hp
  refine ⟨g, by simpa using hp, fun w a b => ?_⟩
  rw [List.flatMap_append] at hg
  generalize w1.flatMap (segs num) = s1 at *
  generalize w2.flatMap (segs num) = s2 at *
  have adj : Adjacent (s1 ++ s2) w a b ↔ Adjacent s1 w a b ∨ Adjacent s2 w a b := by
    simp only [Adjacent, List.mem_append, or_and_right, exists_or]
  have fly : Flyable (s1 ++ s2) w a b ↔ Flyable s1 w a b ∨ Flyable s2 w a b := by
    simp only [Flyable, List.mem_append, or_and_right, exists_or]
  have lev : ∀ n, LevelReported (s1 ++ s2) w a b n ↔ LevelReported s1 w a b n ∨ LevelReported s2 w a b n := fun n => by
    simp only [LevelReported, List.mem_append, or_and_right, exists_or]
  have flyEdge : ∀ {s : List (Segment (Point F))} {h : Graph (Point F)}, build s = .ok h →
      (Flyable s w a b ↔ ∃ e', HasEdge h w a b e' ∧ e'.validDirection = true) := by
    intro s h hb
    constructor
    · rintro ⟨x, hx, hr, hv⟩
      obtain ⟨e', he⟩ := (C10_edge_iff s h hb w a b).2 ⟨x, hx, Or.inl hr⟩
      exact ⟨e', he, (C11_aggregate s h hb w a b e' he).1.2 ⟨x, hx, hr, hv⟩⟩
    · rintro ⟨e', he, hv⟩
      exact (C11_aggregate s h hb w a b e' he).1.1 hv
  -- the levels of the legs are among the reported ones, and below each reported one is that of a leg
  have up : ∀ {s : List (Segment (Point F))} {h : Graph (Point F)}, build s = .ok h → ∀ n,
      (∃ e', HasEdge h w a b e' ∧ e'.minimumLevel = some n) → LevelReported s w a b n := by
    rintro s h hb n ⟨e', he, hm⟩
    have := (C11_aggregate s h hb w a b e' he).2
    rw [hm] at this
    exact this.1
  have down : ∀ {s : List (Segment (Point F))} {h : Graph (Point F)}, build s = .ok h → ∀ n,
      LevelReported s w a b n → ∃ e' k, HasEdge h w a b e' ∧ e'.minimumLevel = some k ∧ k ≤ n := by
    rintro s h hb n ⟨x, hx, hj, hm⟩
    obtain ⟨e', he⟩ := (C10_edge_iff s h hb w a b).2 ⟨x, hx, hj⟩
    have := (C11_aggregate s h hb w a b e' he).2
    cases hk : e'.minimumLevel with
    | none =>
      rw [hk] at this
      exact (this n ⟨x, hx, hj, hm⟩).elim
    | some k =>
      rw [hk] at this
      exact ⟨e', k, he, hk, this.2 n ⟨x, hx, hj, hm⟩⟩
  refine ⟨?_, fun e he => ?_⟩
  · rw [C10_edge_iff _ _ hg, adj, exists_or, C10_edge_iff _ _ b1, C10_edge_iff _ _ b2]
  · have k := C11_aggregate _ _ hg w a b e he
    refine ⟨?_, ?_⟩
    · rw [k.1, fly, flyEdge b1, flyEdge b2]
      simp only [or_and_right, exists_or]
    · have k := k.2
      have low : ∀ n, LevelReported (s1 ++ s2) w a b n → ∃ e' j, (HasEdge g1 w a b e' ∨ HasEdge g2 w a b e') ∧ e'.minimumLevel = some j ∧ j ≤ n := by
        intro n hn
        rcases (lev n).1 hn with hn | hn
        · obtain ⟨e', j, x, y, z⟩ := down b1 n hn
          exact ⟨e', j, Or.inl x, y, z⟩
        · obtain ⟨e', j, x, y, z⟩ := down b2 n hn
          exact ⟨e', j, Or.inr x, y, z⟩
      have high : ∀ n, (∃ e', (HasEdge g1 w a b e' ∨ HasEdge g2 w a b e') ∧ e'.minimumLevel = some n) → LevelReported (s1 ++ s2) w a b n := by
        rintro n ⟨e', he' | he', hm⟩
        · exact (lev n).2 (Or.inl (up b1 n ⟨e', he', hm⟩))
        · exact (lev n).2 (Or.inr (up b2 n ⟨e', he', hm⟩))
      cases hm : e.minimumLevel with
      | none =>
        rw [hm] at k
        exact fun n hn => k n (high n hn)
      | some j =>
        rw [hm] at k
        refine ⟨?_, fun n hn => k.2 n (high n hn)⟩
        obtain ⟨e', i, x, y, z⟩ := low j k.1
        have : j ≤ i := k.2 i (high i ⟨e', x, y⟩)
        have : i = j := by omega
        exact ⟨e', x, this ▸ y⟩

/-- **C112.** A joined airway file is no error exactly if both parts are none, or one is none and the other has only blank lines and
comments. -/
theorem C112_airway_accepts (num : Str → F) (hnum : ∀ s, Verif.Spec.Isec.IsCoord s → F64.ofText s = some (num s)) (u v : Str) :
    parseAirwayTxt (F := F) (u ++ '\n' :: v) ≠ .error .parseError ↔
    (parseAirwayTxt (F := F) (u ++ ['\n']) ≠ .error .parseError ∧ parseAirwayTxt (F := F) v ≠ .error .parseError) ∨
    (parseAirwayTxt (F := F) (u ++ ['\n']) ≠ .error .parseError ∧ IsFile v []) ∨
    (IsFile (u ++ ['\n']) [] ∧ parseAirwayTxt (F := F) v ≠ .error .parseError) :=
  accepted_join (ok := fun t => parseAirwayTxt (F := F) t ≠ .error .parseError)
    (fun t => by rw [Ne, C08_airway_error_iff num hnum t, Classical.not_not]) fun _ => airway_iff

end Airway

/-! ## Concrete cases -/

section Examples
attribute [local instance] asciiTables
local instance textF64j : F64 Str := ⟨some, fun _ _ => rfl⟩
local instance : AirwayGraph.Quantize (Point Str) := ⟨fun p => (p.x.length, p.y.length)⟩

/-- Both lists define DLH: the first one wins. -/
example : Parse.Icao.parseAirlines (c!"DLH\ta\tb\tc" ++ ['\n']) = .ok [(c!"DLH", ⟨c!"DLH", c!"a", c!"b", c!"c"⟩)] ∧
    Parse.Icao.parseAirlines c!"DLH\tx\ty\tz" = .ok [(c!"DLH", ⟨c!"DLH", c!"x", c!"y", c!"z"⟩)] ∧
    Parse.Icao.parseAirlines (c!"DLH\ta\tb\tc" ++ ['\n'] ++ c!"DLH\tx\ty\tz") = .ok [(c!"DLH", ⟨c!"DLH", c!"a", c!"b", c!"c"⟩)] := by
  decide +kernel

/-- Without the line feed between them the second line becomes part of the country. -/
example : Parse.Icao.parseAirlines (c!"DLH\ta\tb\tc" ++ c!"DLH\tx\ty\tz") = .error .parseError := by
  decide +kernel

/-- Both profiles give a value: the second one wins. -/
example : ((Parse.Prf.parsePrf (c!"Settings\tsector\ta" ++ ['\n'])).toOption.map fun m => Map.get? m (c!"Settings", c!"sector")) = some (some c!"a") ∧
    ((Parse.Prf.parsePrf c!"Settings\tsector\tb").toOption.map fun m => Map.get? m (c!"Settings", c!"sector")) = some (some c!"b") ∧
    ((Parse.Prf.parsePrf (c!"Settings\tsector\ta" ++ ['\n'] ++ c!"Settings\tsector\tb")).toOption.map fun m =>
      Map.get? m (c!"Settings", c!"sector")) = some (some c!"b") := by
  decide +kernel

/-- Both files give a position of the same designator: both are returned. -/
example : ((Parse.Isec.parseIsecTxt (F := Str) (c!"ABC 49.1 10.7 15" ++ ['\n'] ++ c!"ABC 50.1 10.7 15" ++ ['\n'])).toOption.map fun m =>
    (MultiMap.getVec m c!"ABC").map fun f => f.coordinate.y) = some [c!"49.1", c!"50.1"] := by decide +kernel

/-- A file of airways joined with itself. -/
example : ∃ g1 : AirwayGraph.Graph (Point Str), Parse.Airway.parseAirwayTxt (airwayExample c!"100") = .ok g1 ∧
    ∃ u, airwayExample c!"100" = u ++ ['\n'] := by
  obtain ⟨g, h, _⟩ := C08_airway_ok (F := Str) id (fun _ _ => rfl) _ _ (airwayExample_isFile (level := c!"100")
    (by decide)) (by simp) (by
      intro w hw n hn l hl
      rw [List.mem_singleton.1 hw] at hn
      rcases hn with hn | hn
      · cases hn
        revert hl
        decide +revert
      · cases hn)
  exact ⟨g, h, c!"; airways" ++ ['\n'] ++ c!"ASPAT\t49.1\t10.7\t14\tL603\tH\tRODIX\t49.5\t10.25\t100\tY\t0\t0\t\t0\t0N// end" ++ ['\r'], by decide⟩

end Examples

end Verif.Props
