import Verif.Proofs.InOrder
import Verif.Props.Icao
/-!
# C114 for the ICAO tables and the airports of the navigation data
-/

namespace Verif.Props
open Verif.Parse.Icao
open Verif.Spec (InOrder)
open Verif.Spec.Icao (IsFile IsRest Final AtEnd Inner first)

namespace OriginTables

/-- A definition stands on a line of the file. -/
theorem on_line {D : Type} {rest : Str → Prop} {line last : D → Str → Prop} {content : Str} {ds : List D}
    (h : IsFile rest line last content ds) : ∀ d ∈ ds, ∃ s, s <:+: content ∧ (line d s ∨ last d s) := by
  induction h with
  | blanks => intro d hd; cases hd
  | blank b c t ds _ _ _ ih =>
    intro d hd
    obtain ⟨s, hs, hl⟩ := ih d hd
    exact ⟨s, hs.trans ⟨b ++ [c], [], by simp⟩, hl⟩
  | line e s c t ds he _ _ ih =>
    intro d hd
    rcases List.mem_cons.1 hd with rfl | hd
    · exact ⟨s, ⟨[], c :: t, by simp⟩, Or.inl he⟩
    · obtain ⟨s', hs, hl⟩ := ih d hd
      exact ⟨s', hs.trans ⟨s ++ [c], [], by simp⟩, hl⟩
  | last e s he =>
    intro d hd
    rw [List.mem_singleton] at hd
    subst hd
    exact ⟨s, List.infix_refl _, Or.inr he⟩

theorem inner {f t : Str} (h : Inner f t) : InOrder [f] t := by
  obtain ⟨b, b', rfl, _⟩ := h
  exact (((InOrder.one f).pad b).left b').left _

theorem final {f t : Str} (h : Final f t) : InOrder [f] t := by
  obtain ⟨b, b', rfl, _⟩ := h
  exact ((InOrder.one f).pad b).left b'

theorem atEnd {f t : Str} (h : AtEnd f t) : InOrder [f] t := by
  obtain ⟨b, b', rfl, _⟩ := h
  exact ((InOrder.one f).pad b).left b'

theorem first_mem {D : Type} {name : D → Str} {ds : List D} {k : Str} {d : D} (h : first name ds k = some d) : d ∈ ds ∧ name d = k :=
  ⟨List.mem_of_find?_eq_some h, by simpa using List.find?_some h⟩

end OriginTables
open OriginTables

/-- **C114, airlines.** Designator, name, callsign and country stand in the file, in this order. -/
theorem C114_airlines {content : Str} {m : Map Str Airline} (h : parseAirlines content = .ok m) {k : Str} {a : Airline}
    (ha : Map.get? m k = some a) : a.designator = k ∧ InOrder [a.designator, a.name, a.callsign, a.country] content := by
  obtain ⟨ds, hf, hm⟩ := C06_airlines_every h
  rw [hm] at ha
  obtain ⟨d, hd, rfl⟩ := Option.map_eq_some_iff.1 ha
  obtain ⟨hdm, rfl⟩ := first_mem hd
  refine ⟨rfl, ?_⟩
  obtain ⟨s, hs, hl⟩ := on_line hf d hdm
  refine InOrder.of_infix ?_ hs
  have key : ∀ c : Str → Str → Prop, (∀ f t, c f t → InOrder [f] t) → Spec.Icao.AirlineText c d s →
      InOrder [d.designator, d.name, d.callsign, d.country] s := by
    rintro c hc ⟨b0, b1, n, x, k, rfl, _, _, _, hn, hx, hk⟩
    exact ((((((InOrder.one _).pad b0).left b1).left _).append (inner hn)).append (inner hx)).append (hc _ _ hk)
  rcases hl with hl | hl
  · exact key _ (fun _ _ => final) hl
  · exact key _ (fun _ _ => atEnd) hl

variable [UnicodeTables]

/-- **C114, airports.** Designator, name and country stand in the file, in this order. -/
theorem C114_airports {content : Str} {m : Map Str IcaoAirport} (h : parseAirports content = .ok m) {k : Str} {a : IcaoAirport}
    (ha : Map.get? m k = some a) : a.designator = k ∧ InOrder [a.designator, a.name, a.country] content := by
  obtain ⟨ds, hf, hm⟩ := C06_airports_every h
  rw [hm] at ha
  obtain ⟨d, hd, rfl⟩ := Option.map_eq_some_iff.1 ha
  obtain ⟨hdm, rfl⟩ := first_mem hd
  refine ⟨rfl, ?_⟩
  obtain ⟨s, hs, hl⟩ := on_line hf d hdm
  refine InOrder.of_infix ?_ hs
  have key : ∀ c : Str → Str → Prop, (∀ f t, c f t → InOrder [f] t) → Spec.Icao.AirportText c d s →
      InOrder [d.designator, d.name, d.country] s := by
    rintro c hc ⟨b0, b1, n, k, rfl, _, _, _, hn, hk⟩
    exact (((((InOrder.one _).pad b0).left b1).left _).append (inner hn)).append (hc _ _ hk)
  rcases hl with hl | hl
  · exact key _ (fun _ _ => final) hl
  · exact key _ (fun _ _ => atEnd) hl

/-- **C114, aircraft.** Designator, manufacturer and name stand in the file, in this order. -/
theorem C114_aircraft {content : Str} {m : AircraftMap} (h : parseAircraft content = .ok m) {k : Str} {a : Aircraft}
    (ha : Map.get? m k = some a) : a.designator = k ∧ InOrder [a.designator, a.manufacturer, a.name] content := by
  obtain ⟨ds, hf, hm⟩ := C06_aircraft_every h
  rw [hm] at ha
  obtain ⟨d, hd, rfl⟩ := Option.map_eq_some_iff.1 ha
  obtain ⟨hdm, rfl⟩ := first_mem hd
  refine ⟨rfl, ?_⟩
  obtain ⟨o, ho, hdo⟩ := List.mem_filterMap.1 hdm
  cases hdo
  obtain ⟨s, hs, hl⟩ := on_line hf _ ho
  refine InOrder.of_infix ?_ hs
  have key : ∀ c : Str → Str → Prop, (∀ f t, c f t → InOrder [f] t) → Spec.Icao.AircraftText c d s →
      InOrder [d.designator, d.manufacturer, d.name] s := by
    rintro c hc ⟨b0, b1, b2, b3, b4, b5, b6, x, n, rfl, _, _, _, _, _, _, _, _, _, _, _, _, hx, hn⟩
    exact (((((((((((((((InOrder.one _).pad b0).left b1).left _).left b2).left _).left b3).left _).left b4).left _).left b5).left _).left b6).left
      _).append (inner hx)).append (hc _ _ hn)
  rcases hl with hl | hl
  · exact key _ (fun _ _ => final) hl
  · exact key _ (fun _ _ => atEnd) hl

/-- **C114, airports of the navigation data.** Designator and name stand in the file, in this order. -/
theorem C114_navdata {F : Type} [F64 F] {content : Str} {m : Map Str (NavdataAirport F)} (h : parseNavdataAirports content = .ok m) {k : Str}
    {a : NavdataAirport F} (ha : Map.get? m k = some a) : a.designator = k ∧ InOrder [a.designator, a.name] content := by
  have h0 : (F64.ofText (F := F) c!"0").isSome := F64.ofText_decimal _ ⟨[], c!"0", [], rfl, Or.inl rfl, by decide, Or.inl ⟨rfl, by decide⟩⟩
  obtain ⟨ds, hf, hm⟩ := C06_navdata_every (fun s => (F64.ofText (F := F) s).getD ((F64.ofText c!"0").get h0)) (fun s hs => by
    obtain ⟨x, hx⟩ := Option.isSome_iff_exists.1 (F64.ofText_decimal (F := F) s hs)
    rw [hx]
    rfl) h
  rw [hm] at ha
  obtain ⟨d, hd, rfl⟩ := Option.map_eq_some_iff.1 ha
  obtain ⟨hdm, rfl⟩ := first_mem hd
  refine ⟨rfl, ?_⟩
  obtain ⟨s, hs, hl⟩ := on_line hf d hdm
  refine InOrder.of_infix ?_ hs
  have hl : Spec.Icao.NavdataText d s := hl.elim id id
  obtain ⟨b0, b1, b2, b3, rfl, _⟩ := hl
  exact ((((((((InOrder.one _).pad b0).left b1).left _).left b2).left _).left b3).append (InOrder.one _))

end Verif.Props
