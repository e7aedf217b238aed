import Verif.Proofs.IcaoSound
import Verif.Props.Ese
/-!
# C05, C06: the ICAO and navdata tables
-/

namespace Verif.Props
open Verif.Parse.Icao

/-- **C05.** `parse_aircraft` returns a map or an error for every content. -/
theorem C05_aircraft_no_panic [UnicodeTables] (content : Str) :
    (∃ m, parseAircraft content = .ok m) ∨ parseAircraft content = .error .parseError :=
  aircraft_total content

/-- **C05.** `parse_airlines` returns a map or an error for every content. -/
theorem C05_airlines_no_panic (content : Str) :
    (∃ m, parseAirlines content = .ok m) ∨ parseAirlines content = .error .parseError :=
  airlines_total content

/-- **C05.** `parse_airports` returns a map or an error for every content. -/
theorem C05_airports_no_panic [UnicodeTables] (content : Str) :
    (∃ m, parseAirports content = .ok m) ∨ parseAirports content = .error .parseError :=
  airports_total content

/-- **C05.** `parse_navdata_airports` returns a map or an error for every content. -/
theorem C05_navdata_no_panic [UnicodeTables] {F : Type} [F64 F] (content : Str) :
    (∃ m, parseNavdataAirports (F := F) content = .ok m) ∨
      parseNavdataAirports (F := F) content = .error .parseError :=
  navdata_total content

/-! ## Meaning -/

section Meaning
open Verif.Spec.Icao (IsFile IsRest Final AtEnd first)

/-- **C06.** Every airline of the file is in the map with the data of the first line that defines it, and there are no others. -/
theorem C06_airlines {content : Str} {ds : List Spec.Icao.Airline}
    (hf : IsFile IsRest (Spec.Icao.AirlineText Final) (Spec.Icao.AirlineText AtEnd) content ds) (hne : ds ≠ []) :
    ∃ m, parseAirlines content = .ok m ∧ ∀ k, Map.get? m k =
      (first (·.designator) ds k).map fun a => { designator := a.designator, name := a.name, callsign := a.callsign, country := a.country } := by
  refine ⟨_, Proofs.Icao.Airlines.file hf hne, fun k => ?_⟩
  rw [Map.get?_foldl_insertIfNew]
  rfl

/-- **C06.** Every airport of the file is in the map with the data of the first line that defines it, and there are no others. -/
theorem C06_airports [UnicodeTables] {content : Str} {ds : List Spec.Icao.Airport}
    (hf : IsFile IsRest (Spec.Icao.AirportText Final) (Spec.Icao.AirportText AtEnd) content ds) (hne : ds ≠ []) :
    ∃ m, parseAirports content = .ok m ∧ ∀ k, Map.get? m k =
      (first (·.designator) ds k).map fun a => { designator := a.designator, name := a.name, country := a.country } := by
  refine ⟨_, Proofs.Icao.Airports.file hf hne, fun k => ?_⟩
  rw [Map.get?_foldl_insertIfNew]
  rfl

/-- The wake turbulence categories by their letters. -/
def wtcByLetter (c : Char) : Wtc :=
  if c = 'L' then .light else if c = 'M' then .medium else if c = 'H' then .heavy else if c = 'J' then .super else .unknown

/-- The kinds of aircraft by their letters. -/
def kindByLetter (c : Char) : AircraftType :=
  if c = 'L' then .landplane else if c = 'S' then .seaplane else if c = 'A' then .amphibian else if c = 'G' then .gyrocopter
  else if c = 'H' then .helicopter else if c = 'T' then .tiltrotor else .unknown

/-- The kinds of engines by their letters. -/
def engineByLetter (c : Char) : EngineType :=
  if c = 'J' then .jet else if c = 'T' then .turboprop else if c = 'P' then .piston else if c = 'E' then .electric
  else if c = 'R' then .rocket else .unknown

/-- **C06.** Every aircraft of the file is in the map with the data of the first line that defines it, and there are no others.
Lines that continue a name define nothing. -/
theorem C06_aircraft [UnicodeTables] {content : Str} {ds : List (Option Spec.Icao.Aircraft)}
    (hf : IsFile IsRest (Spec.Icao.AircraftLine Spec.Isec.IsBlank Final) (Spec.Icao.AircraftLine IsRest AtEnd) content ds) (hne : ds ≠ []) :
    ∃ m, parseAircraft content = .ok m ∧ ∀ k, Map.get? m k =
      (first (·.designator) (ds.filterMap id) k).map fun a =>
        { designator := a.designator, wtc := wtcByLetter a.wtc, aircrafttype := kindByLetter a.kind,
          numEngines := if isAsciiDigit a.engines then a.engines.toNat - 48 else 0, enginetype := engineByLetter a.engine,
          manufacturer := a.manufacturer, name := a.name } := by
  refine ⟨_, Proofs.Icao.Aircraft.file hf hne, fun k => ?_⟩
  rw [Proofs.Icao.Aircraft.upd_filter, Map.get?_foldl_insertIfNew]
  rfl

/-- **C06.** Every airport of the navigation data is in the map with the data of the first line that defines it, and there are
no others. -/
theorem C06_navdata [UnicodeTables] {F : Type} [F64 F] (num : Str → F) (hnum : ∀ s, IsDecimal s → F64.ofText s = some (num s))
    {content : Str} {ds : List Spec.Icao.Navdata} (hf : IsFile Spec.Isec.IsBlank Spec.Icao.NavdataText Spec.Icao.NavdataText content ds) :
    ∃ m, parseNavdataAirports content = .ok m ∧ ∀ k, Map.get? m k =
      (first (·.designator) ds k).map fun a =>
        { designator := a.designator, name := a.name, location := { x := num a.lng, y := num a.lat } } := by
  refine ⟨_, Proofs.Icao.Navdata.file num hnum hf, fun k => ?_⟩
  rw [Map.get?_foldl_insertIfNew]
  rfl

/-! ## Which texts are accepted -/

/-- **C05/C06.** A list of airlines is accepted exactly if it has at least one definition and each of its lines is a definition, blank or
a comment. -/
theorem C06_airlines_accepts (content : Str) : (∃ m, parseAirlines content = .ok m) ↔
    ∃ ds, ds ≠ [] ∧ IsFile IsRest (Spec.Icao.AirlineText Final) (Spec.Icao.AirlineText AtEnd) content ds :=
  ⟨fun ⟨_, h⟩ => Proofs.Icao.Airlines.sound h, fun ⟨_, hne, hf⟩ => ⟨_, Proofs.Icao.Airlines.file hf hne⟩⟩

/-- **C05/C06.** A list of airports is accepted exactly if it has at least one definition and each of its lines is a definition, blank or
a comment. -/
theorem C06_airports_accepts [UnicodeTables] (content : Str) : (∃ m, parseAirports content = .ok m) ↔
    ∃ ds, ds ≠ [] ∧ IsFile IsRest (Spec.Icao.AirportText Final) (Spec.Icao.AirportText AtEnd) content ds :=
  ⟨fun ⟨_, h⟩ => Proofs.Icao.Airports.sound h, fun ⟨_, hne, hf⟩ => ⟨_, Proofs.Icao.Airports.file hf hne⟩⟩

/-- **C05/C06.** A list of aircraft is accepted exactly if it has at least one definition or continuation and each of its lines is a
definition, a continuation, blank or a comment. -/
theorem C06_aircraft_accepts [UnicodeTables] (content : Str) : (∃ m, parseAircraft content = .ok m) ↔
    ∃ ds, ds ≠ [] ∧ IsFile IsRest (Spec.Icao.AircraftLine Spec.Isec.IsBlank Final) (Spec.Icao.AircraftLine IsRest AtEnd) content ds :=
  ⟨fun ⟨_, h⟩ => Proofs.Icao.Aircraft.sound h, fun ⟨_, hne, hf⟩ => ⟨_, Proofs.Icao.Aircraft.file hf hne⟩⟩

/-- **C05/C06.** The airports of the navigation data are accepted exactly if each line is a definition, blank or a comment; the file
can be empty. -/
theorem C06_navdata_accepts [UnicodeTables] {F : Type} [F64 F] (content : Str) : (∃ m, parseNavdataAirports (F := F) content = .ok m) ↔
    ∃ ds, IsFile Spec.Isec.IsBlank Spec.Icao.NavdataText Spec.Icao.NavdataText content ds := by
  refine ⟨fun ⟨_, h⟩ => Proofs.Icao.Navdata.sound h, fun ⟨_, hf⟩ => ?_⟩
  have h0 : (F64.ofText (F := F) c!"0").isSome := F64.ofText_decimal _ ⟨[], c!"0", [], rfl, Or.inl rfl, by decide, Or.inl ⟨rfl, by decide⟩⟩
  refine ⟨_, Proofs.Icao.Navdata.file (fun s => (F64.ofText (F := F) s).getD ((F64.ofText c!"0").get h0)) ?_ hf⟩
  intro s hs
  obtain ⟨x, hx⟩ := Option.isSome_iff_exists.1 (F64.ofText_decimal (F := F) s hs)
  rw [hx]
  rfl

/-- **C06.** In every accepted list of airlines there are definitions of which the first of each designator is returned. -/
theorem C06_airlines_every {content : Str} {m : Map Str Airline} (h : parseAirlines content = .ok m) :
    ∃ ds, IsFile IsRest (Spec.Icao.AirlineText Final) (Spec.Icao.AirlineText AtEnd) content ds ∧ ∀ k, Map.get? m k =
      (first (·.designator) ds k).map fun a => { designator := a.designator, name := a.name, callsign := a.callsign, country := a.country } := by
  obtain ⟨ds, hne, hf⟩ := (C06_airlines_accepts content).1 ⟨m, h⟩
  obtain ⟨m', h1, h2⟩ := C06_airlines hf hne
  rw [h] at h1
  cases h1
  exact ⟨ds, hf, h2⟩

/-- **C06.** In every accepted list of airports there are definitions of which the first of each designator is returned. -/
theorem C06_airports_every [UnicodeTables] {content : Str} {m : Map Str IcaoAirport} (h : parseAirports content = .ok m) :
    ∃ ds, IsFile IsRest (Spec.Icao.AirportText Final) (Spec.Icao.AirportText AtEnd) content ds ∧ ∀ k, Map.get? m k =
      (first (·.designator) ds k).map fun a => { designator := a.designator, name := a.name, country := a.country } := by
  obtain ⟨ds, hne, hf⟩ := (C06_airports_accepts content).1 ⟨m, h⟩
  obtain ⟨m', h1, h2⟩ := C06_airports hf hne
  rw [h] at h1
  cases h1
  exact ⟨ds, hf, h2⟩

/-- **C06.** In every accepted list of aircraft there are definitions of which the first of each designator is returned. -/
theorem C06_aircraft_every [UnicodeTables] {content : Str} {m : AircraftMap} (h : parseAircraft content = .ok m) :
    ∃ ds, IsFile IsRest (Spec.Icao.AircraftLine Spec.Isec.IsBlank Final) (Spec.Icao.AircraftLine IsRest AtEnd) content ds ∧ ∀ k, Map.get? m k =
      (first (·.designator) (ds.filterMap id) k).map fun a =>
        { designator := a.designator, wtc := wtcByLetter a.wtc, aircrafttype := kindByLetter a.kind,
          numEngines := if isAsciiDigit a.engines then a.engines.toNat - 48 else 0, enginetype := engineByLetter a.engine,
          manufacturer := a.manufacturer, name := a.name } := by
  obtain ⟨ds, hne, hf⟩ := (C06_aircraft_accepts content).1 ⟨m, h⟩
  obtain ⟨m', h1, h2⟩ := C06_aircraft hf hne
  rw [h] at h1
  cases h1
  exact ⟨ds, hf, h2⟩

/-- **C06.** In all accepted navigation data there are definitions of which the first of each designator is returned. -/
theorem C06_navdata_every [UnicodeTables] {F : Type} [F64 F] (num : Str → F) (hnum : ∀ s, IsDecimal s → F64.ofText s = some (num s))
    {content : Str} {m : Map Str (NavdataAirport F)} (h : parseNavdataAirports content = .ok m) :
    ∃ ds, IsFile Spec.Isec.IsBlank Spec.Icao.NavdataText Spec.Icao.NavdataText content ds ∧ ∀ k, Map.get? m k =
      (first (·.designator) ds k).map fun a =>
        { designator := a.designator, name := a.name, location := { x := num a.lng, y := num a.lat } } := by
  obtain ⟨ds, hf⟩ := (C06_navdata_accepts content).1 ⟨m, h⟩
  obtain ⟨m', h1, h2⟩ := C06_navdata num hnum hf
  rw [h] at h1
  cases h1
  exact ⟨ds, hf, h2⟩

end Meaning

/-! ## Concrete cases -/

section Examples
attribute [local instance] asciiTables

def aircraftExample : Str := c!"; list" ++ ['\n'] ++ c!"A20N" ++ ['\t'] ++ c!"ML2J" ++ ['\t'] ++ c!"AIRBUS" ++ ['\t'] ++
  c!"A-320neo" ++ ['\r', '\n'] ++ c!"and more" ++ ['\n'] ++ c!"A20N" ++ ['\t'] ++ c!"HLCP" ++ ['\t'] ++ c!"X" ++ ['\t'] ++ c!"Y"

/-- A comment, a definition, a continued name and a second definition of the same designator. -/
example : parseAircraft aircraftExample = .ok [(c!"A20N",
    ⟨c!"A20N", .medium, .landplane, 2, .jet, c!"AIRBUS", c!"A-320neo"⟩)] := by decide +kernel

/-- A number of engines that is no digit reads as 0. -/
example : (parseAircraft (c!"A20N" ++ ['\t'] ++ c!"ML-J" ++ ['\t'] ++ c!"AIRBUS" ++ ['\t'] ++ c!"A")).map
    (fun m => m.map fun e => e.2.numEngines) = .ok [0] := by decide +kernel

example : parseAircraft c!"" = .error .parseError := by decide +kernel

example : parseAirlines (c!"DLH" ++ ['\t'] ++ c!"Lufthansa" ++ ['\t'] ++ c!"LUFTHANSA" ++ ['\t'] ++ c!"GERMANY" ++ ['\n']) =
    .ok [(c!"DLH", ⟨c!"DLH", c!"Lufthansa", c!"LUFTHANSA", c!"GERMANY"⟩)] := by decide +kernel

example : parseAirports (c!"EDDM" ++ ['\t'] ++ c!"Munich" ++ ['\t'] ++ c!"GERMANY" ++ ['\n']) =
    .ok [(c!"EDDM", ⟨c!"EDDM", c!"Munich", c!"GERMANY"⟩)] := by decide +kernel

local instance textF64' : F64 Str := ⟨some, fun _ _ => rfl⟩

example : parseNavdataAirports (F := Str) (c!"EDDM 48.353783 11.786086 Munich Intl" ++ ['\n']) =
    .ok [(c!"EDDM", ⟨c!"EDDM", c!"Munich Intl", ⟨c!"11.786086", c!"48.353783"⟩⟩)] := by decide +kernel

/-! A file with a comment, blanks around fields, an empty line, two definitions of one designator and a last line without line end. -/

open Verif.Spec.Icao

def airlinesFile : Str := c!"; list" ++ '\n' :: (c!"DLH \t Lufthansa\tLUFTHANSA\tGERMANY  " ++ '\r' :: ([] ++ '\n' :: c!"DLH\tX\tY\tZ"))

example : IsFile IsRest (AirlineText Final) (AirlineText AtEnd) airlinesFile
    [⟨c!"DLH", c!"Lufthansa", c!"LUFTHANSA", c!"GERMANY"⟩, ⟨c!"DLH", c!"X", c!"Y", c!"Z"⟩] := by
  refine .blank c!"; list" '\n' _ _ ⟨[], c!"; list", rfl, by simp [Spec.Isec.IsSpaces], Or.inr ?_⟩ (Or.inl rfl)
    (.line _ (c!"DLH \t Lufthansa\tLUFTHANSA\tGERMANY  ") '\r' _ _ ?_ (Or.inr rfl)
      (.blank [] '\n' _ _ ⟨[], [], rfl, by simp [Spec.Isec.IsSpaces], Or.inl rfl⟩ (Or.inl rfl) (.last _ _ ?_)))
  · exact ⟨c!" list", Or.inl rfl, by decide⟩
  · refine ⟨[], c!" ", c!" Lufthansa\t", c!"LUFTHANSA\t", c!"GERMANY  ", rfl, by decide, by decide, by decide, ?_, ?_, ?_⟩
    · exact ⟨c!" ", [], rfl, by decide, by decide, by decide, by decide⟩
    · exact ⟨[], [], rfl, by decide, by decide, by decide, by decide⟩
    · exact ⟨[], c!"  ", rfl, by decide, by decide, by decide, Or.inl (by decide)⟩
  · refine ⟨[], [], c!"X\t", c!"Y\t", c!"Z", rfl, by decide, by decide, by decide, ?_, ?_, ?_⟩
    · exact ⟨[], [], rfl, by decide, by decide, by decide, by decide⟩
    · exact ⟨[], [], rfl, by decide, by decide, by decide, by decide⟩
    · exact ⟨[], [], rfl, by decide, by decide, Or.inl rfl⟩

example : parseAirlines airlinesFile = .ok [(c!"DLH", ⟨c!"DLH", c!"Lufthansa", c!"LUFTHANSA", c!"GERMANY"⟩)] := by decide +kernel

example : IsFile IsRest (AirportText Final) (AirportText AtEnd) (c!"EDDM\tMunich\tGERMANY \t// rest" ++ '\n' :: c!"; end")
    [⟨c!"EDDM", c!"Munich", c!"GERMANY"⟩] := by
  refine .line _ _ '\n' _ _ ?_ (Or.inl rfl) (.blanks c!"; end" ⟨[], c!"; end", rfl, by decide, Or.inr ⟨c!" end", Or.inl rfl, by decide⟩⟩)
  refine ⟨[], [], c!"Munich\t", c!"GERMANY \t// rest", rfl, by decide, by decide, ⟨by decide, by decide⟩, ?_, ?_⟩
  · exact ⟨[], [], rfl, by decide, by decide, by decide, by decide⟩
  · refine ⟨[], c!" \t// rest", rfl, by decide, by decide, by decide, Or.inr (Or.inl ⟨c!" ", c!"// rest", rfl, by decide, [], c!"// rest", rfl, by simp [Spec.Isec.IsSpaces], Or.inr ?_⟩)⟩
    exact ⟨c!" rest", Or.inr rfl, by decide⟩

/-- The aircraft list from above: a comment, a definition, a continuation and a second definition. -/
example : IsFile IsRest (AircraftLine Spec.Isec.IsBlank Final) (AircraftLine IsRest AtEnd) aircraftExample
    [some ⟨c!"A20N", 'M', 'L', '2', 'J', c!"AIRBUS", c!"A-320neo"⟩, none, some ⟨c!"A20N", 'H', 'L', 'C', 'P', c!"X", c!"Y"⟩] := by
  refine .blank c!"; list" '\n' _ _ ⟨[], c!"; list", rfl, by simp [Spec.Isec.IsSpaces], Or.inr ?_⟩ (Or.inl rfl)
    (.line _ (c!"A20N\tML2J\tAIRBUS\tA-320neo") '\r' _ _ ?_ (Or.inr rfl)
      (.blank [] '\n' _ _ ⟨[], [], rfl, by simp [Spec.Isec.IsSpaces], Or.inl rfl⟩ (Or.inl rfl)
        (.line _ c!"and more" '\n' _ _ ?_ (Or.inl rfl) (.last _ (c!"A20N\tHLCP\tX\tY") ?_))))
  · exact ⟨c!" list", Or.inl rfl, by decide⟩
  · refine ⟨[], [], [], [], [], [], [], c!"AIRBUS\t", c!"A-320neo", rfl, by decide, by decide, by decide, by decide, by decide, by decide, by decide,
      ⟨⟨by decide, by decide⟩, by decide⟩, by decide, by decide, Or.inl (by decide), by decide, ?_, ?_⟩
    · exact ⟨[], [], rfl, by decide, by decide, by decide, by decide⟩
    · exact ⟨[], [], rfl, by decide, by decide, by decide, Or.inl (by simp [Spec.Isec.IsSpaces])⟩
  · refine ⟨[], c!"and more", [], rfl, by decide, by decide, by decide, by decide, ⟨[], [], rfl, by decide, Or.inl rfl⟩, ?_⟩
    intro p q h _
    have hc : ';' ∉ c!"and more" ∧ '/' ∉ c!"and more" := by decide
    rw [h] at hc
    rintro (⟨t, ht⟩ | ⟨t, ht⟩) <;> rw [List.append_nil] at ht <;> rw [← ht] at hc <;> simp at hc
  · refine ⟨[], [], [], [], [], [], [], c!"X\t", c!"Y", rfl, by decide, by decide, by decide, by decide, by decide, by decide, by decide,
      ⟨⟨by decide, by decide⟩, by decide⟩, by decide, by decide, Or.inr (by decide), by decide, ?_, ?_⟩
    · exact ⟨[], [], rfl, by decide, by decide, by decide, by decide⟩
    · exact ⟨[], [], rfl, by decide, by decide, Or.inl rfl⟩

example : IsFile Spec.Isec.IsBlank NavdataText NavdataText (c!"EDDM 48.353783 11.786086 Munich Intl" ++ '\n' :: [])
    [⟨c!"EDDM", c!"48.353783", c!"11.786086", c!"Munich Intl"⟩] := by
  refine .line _ _ '\n' _ _ ?_ (Or.inl rfl) (.blanks [] ⟨[], [], rfl, by decide, Or.inl rfl⟩)
  exact ⟨[], c!" ", c!" ", c!" ", rfl, by simp [Spec.Isec.IsSpaces], by simp [Spec.Isec.IsSpaces], by simp, by simp [Spec.Isec.IsSpaces], ⟨by decide, by simp⟩,
    by simp [Spec.Isec.IsSpaces], ⟨by decide, by simp⟩, ⟨by decide, by decide⟩, ⟨[], c!"48", c!".353783", rfl, Or.inl rfl, by decide, Or.inr ⟨_, rfl, by decide, by decide⟩⟩,
    ⟨[], c!"11", c!".786086", rfl, Or.inl rfl, by decide, Or.inr ⟨_, rfl, by decide, by decide⟩⟩, by decide, by decide, by decide, by decide⟩

/-- Blanks can be left out. -/
example : IsFile Spec.Isec.IsBlank NavdataText NavdataText c!"EDDM+48.35-11Munich" [⟨c!"EDDM", c!"+48.35", c!"-11", c!"Munich"⟩] := by
  refine .last _ _ ⟨[], [], [], [], rfl, by simp [Spec.Isec.IsSpaces], by simp [Spec.Isec.IsSpaces], fun _ => by decide, by simp [Spec.Isec.IsSpaces],
    ⟨by decide, by simp⟩, by simp [Spec.Isec.IsSpaces], ⟨by decide, by simp⟩, ⟨by decide, by decide⟩,
    ⟨c!"+", c!"48", c!".35", rfl, by simp [IsSign], by decide, Or.inr ⟨_, rfl, by decide, by decide⟩⟩,
    ⟨c!"-", c!"11", [], rfl, by simp [IsSign], by decide, Or.inl ⟨rfl, by decide⟩⟩, by decide, by decide, by decide, by decide⟩

/-- A text that is rejected: two fields. -/
example : parseAirlines (c!"DLH" ++ ['\t'] ++ c!"Lufthansa") = .error .parseError := by decide +kernel

/-- Blank lines and comments alone are rejected, but not in the navigation data. -/
example : parseAirports (c!"; list" ++ ['\n']) = .error .parseError ∧ parseNavdataAirports (F := Str) (c!"; list" ++ ['\n']) = .ok [] := by decide +kernel

end Examples

end Verif.Props
