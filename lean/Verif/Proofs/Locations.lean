import Verif.Proofs.LocationsCoord
/-! # Lookup and construction (helper lemmas) -/

set_option linter.unusedSectionVars false

namespace Verif.Locations
open Spec FloatOps

variable {F : Type}

theorem findSome_runway (airport : Airport F) (rwy : Str) (l : List (Runway F)) :
    l.findSome? (runwayFix airport rwy) =
      (l.find? fun r => decide (r.designators.1 = rwy ∨ r.designators.2 = rwy)).map fun r =>
        ⟨airport.designator ++ rwy,
          if r.designators.1 = rwy then r.location.1 else r.location.2⟩ := by
  induction l with
  | nil => rfl
  | cons r l ih =>
    simp only [List.findSome?_cons, List.find?_cons]
    by_cases h1 : r.designators.1 = rwy
    · simp [runwayFix, h1]
    · by_cases h2 : r.designators.2 = rwy
      · simp [runwayFix, h1, h2]
      · simp only [runwayFix, h1, h2, if_false, or_self, decide_false]
        exact ih

theorem convertRwy_eq (db : Db F) (d : Str) : db.convertRwy d = runwayWaypoint db d := by
  unfold Db.convertRwy runwayWaypoint
  have : (6 ≤ byteLen d ∧ byteLen d ≤ 7) ↔ (byteLen d = 6 ∨ byteLen d = 7) := by omega
  simp only [this]
  split
  · cases splitAtByte 4 d with
    | none => rfl
    | some p =>
      simp only [Option.bind_some]
      cases h : db.airports.get? p.1 with
      | none => simp [h]
      | some a =>
        simp only [Option.bind_some, findSome_runway]
        simp only [bind, Option.bind_some, h]
        cases a.runways.find? _ <;> rfl
  · rfl

theorem convertFix_eq (db : Db F) (d : Str) : db.convertFix d = firstOf (tableEntries db d) := by
  unfold Db.convertFix
  simp only [MultiMap.get, firstOf, tableEntries, convertRwy_eq]
  generalize Option.map _ (MultiMap.getVec db.vors d).head? = a
  generalize Option.map _ (MultiMap.getVec db.ndbs d).head? = b
  generalize (MultiMap.getVec db.fixes d).head? = c
  generalize Option.map _ (Map.get? db.airports d) = e
  generalize runwayWaypoint db d = f
  cases a <;> cases b <;> cases c <;> cases e <;> cases f <;> rfl

section
variable [UnicodeTables] [FloatOps F]

theorem parseF64_only {s : Str} (hd : ∀ c ∈ s, isAsciiDigit c = true) (hl : s.length = 3) :
    (parseF64 s : Run F) = .ok (ofNat (digitsValue s)) :=
  parseF64_ascii hd (by intro h; rw [h] at hl; simp at hl)

end

/-! ### Airports -/

theorem get?_addNavdata (m : Map Str (Airport F)) (e : Str × NavdataAirport F) (d : Str) :
    (addNavdata m e).get? d =
      if e.1 = d then
        some (match m.get? d with
          | some ap => { ap with name := some (ap.name.getD e.2.name) }
          | none => ⟨d, e.2.location, some e.2.name, none, []⟩)
      else m.get? d := by
  unfold addNavdata
  by_cases h : e.1 = d
  · subst h
    cases hg : m.get? e.1 <;> simp
  · cases hg : m.get? e.1 <;> simp [Map.get?_insert, h]

theorem get?_addIcao (m : Map Str (Airport F)) (e : Str × IcaoAirport) (d : Str) :
    (addIcao m e).get? d =
      if e.1 = d then
        (m.get? d).map fun ap =>
          { ap with name := some (ap.name.getD e.2.name), country := some (ap.country.getD e.2.country) }
      else m.get? d := by
  unfold addIcao
  by_cases h : e.1 = d
  · subst h
    cases hg : m.get? e.1 <;> simp [hg]
  · cases hg : m.get? e.1 <;> simp [Map.get?_insert, h]

theorem get?_foldl_navdata (l : List (Str × NavdataAirport F)) (hn : (l.map (·.1)).Nodup)
    (m : Map Str (Airport F)) (d : Str) :
    (l.foldl addNavdata m).get? d =
      match l.find? (fun e => e.1 = d) with
      | some e =>
        some (match m.get? d with
          | some ap => { ap with name := some (ap.name.getD e.2.name) }
          | none => ⟨d, e.2.location, some e.2.name, none, []⟩)
      | none => m.get? d := by
  induction l generalizing m with
  | nil => rfl
  | cons e l ih =>
    simp only [List.map_cons, List.nodup_cons] at hn
    simp only [List.foldl_cons]
    rw [ih hn.2, get?_addNavdata]
    by_cases h : e.1 = d
    · have hnone : l.find? (fun e => decide (e.1 = d)) = none := by
        rw [List.find?_eq_none]
        intro x hx hxd
        simp at hxd
        exact hn.1 (List.mem_map.2 ⟨x, hx, hxd.trans h.symm⟩)
      rw [hnone]
      simp [h]
    · simp [h]

theorem get?_foldl_icao (l : List (Str × IcaoAirport)) (hn : (l.map (·.1)).Nodup)
    (m : Map Str (Airport F)) (d : Str) :
    (l.foldl addIcao m).get? d =
      match l.find? (fun e => e.1 = d) with
      | some e =>
        (m.get? d).map fun ap =>
          { ap with name := some (ap.name.getD e.2.name), country := some (ap.country.getD e.2.country) }
      | none => m.get? d := by
  induction l generalizing m with
  | nil => rfl
  | cons e l ih =>
    simp only [List.map_cons, List.nodup_cons] at hn
    simp only [List.foldl_cons]
    rw [ih hn.2, get?_addIcao]
    by_cases h : e.1 = d
    · have hnone : l.find? (fun e => decide (e.1 = d)) = none := by
        rw [List.find?_eq_none]
        intro x hx hxd
        simp at hxd
        exact hn.1 (List.mem_map.2 ⟨x, hx, hxd.trans h.symm⟩)
      rw [hnone]
      simp [h]
    · simp [h]

theorem get?_sctAirports (aps : List (SctAirport F)) (rs : List (Runway F)) (d : Str) :
    (fromSctAirports aps rs).get? d =
      (aps.reverse.find? fun a => a.designator = d).map fun a =>
        ⟨d, a.coordinate, none, none, rs.filter fun r => r.aerodrome = d⟩ := by
  unfold fromSctAirports Map.ofList
  rw [Map.get?_foldl_insert, ← List.map_reverse, List.find?_map]
  simp only [Function.comp_def]
  cases h : aps.reverse.find? fun a => decide (a.designator = d) with
  | none => simp
  | some a =>
    have := List.find?_some h
    simp at this
    subst this
    simp

/-! ### Procedures -/

theorem stored_addProcedure (m : Map Str (MultiMap Str (Procedure F))) (p : Procedure F)
    (airport name : Str) :
    stored (addProcedure m p) airport name =
      stored m airport name ++ if p.airport = airport ∧ p.name = name then [p] else [] := by
  unfold addProcedure stored
  cases h : m.get? p.airport with
  | some am =>
    simp only [Map.get?_insert]
    by_cases ha : p.airport = airport
    · subst ha
      simp only [h, if_true, true_and, MultiMap.getVec_insert]
      split
      · next hn => subst hn; rfl
      · simp
    · simp [ha]
  | none =>
    simp only [Map.get?_insert]
    by_cases ha : p.airport = airport
    · subst ha
      simp only [h, if_true, true_and, MultiMap.getVec_insert]
      split
      · simp [MultiMap.getVec]
      · simp [MultiMap.getVec]
    · simp [ha]


/-! ### Coordinates -/

section
variable [UnicodeTables] [FloatOps F]

/-- The captures of a coordinate waypoint. -/
theorem captures_of_waypoint {d lat lng : Str} {ns we : Char}
    (h : IsCoordinateWaypoint d lat ns lng we) : coordCaptures d = some (lat, ns, lng, we) :=
  coordCaptures_iff.2 ⟨h.shape, fun c hc => decimal_digit (h.latDigits c hc),
    fun c hc => decimal_digit (h.lngDigits c hc), h.latLength, h.northSouth, h.lngLength, h.westEast⟩

theorem convertCoordinate_waypoint {d lat lng : Str} {ns we : Char}
    (h : IsCoordinateWaypoint d lat ns lng we) :
    (convertCoordinate d : Run (Option (Fix F))) = .ok (some (coordinateFix lat ns lng we)) := by
  rw [convertCoordinate_ascii (captures_of_waypoint h) h.latDigits h.lngDigits, if_neg]
  rintro (⟨a, b⟩ | ⟨a, b⟩ | a)
  · exact h.latLead a b
  · exact h.lngLead a b
  · exact a h.precision

theorem convertCoordinate_some {d : Str} {f : Fix F} (h : convertCoordinate d = .ok (some f)) :
    ∃ lat ns lng we, IsCoordinateWaypoint d lat ns lng we ∧ f = coordinateFix lat ns lng we := by
  cases hc : coordCaptures d with
  | none => unfold convertCoordinate at h; rw [hc] at h; cases h
  | some q =>
    obtain ⟨lat, ns, lng, we⟩ := q
    have hdig : (∀ c ∈ lat, isAsciiDigit c = true) ∧ (∀ c ∈ lng, isAsciiDigit c = true) := by
      unfold convertCoordinate at h
      rw [hc] at h
      simp only at h
      split at h
      · cases h
      · next nlat h1 =>
        split at h
        · cases h
        · next nlng h2 =>
          split at h
          · cases h
          · simp only [run_bind_ok_iff] at h
            obtain ⟨y, hy, x, hx, _⟩ := h
            exact ⟨fun c hc => latValue_ok hy c (normalise_mem h1 c hc),
              fun c hc => lngValue_ok hx c (normalise_mem h2 c hc)⟩
    rw [convertCoordinate_ascii hc hdig.1 hdig.2] at h
    obtain ⟨e1, _, _, e2, e3, e4, e5⟩ := coordCaptures_iff.1 hc
    split at h
    · cases h
    · next hn =>
      simp only [not_or, not_and] at hn
      simp only [Except.ok.injEq, Option.some.injEq] at h
      exact ⟨lat, ns, lng, we, ⟨e1, hdig.1, hdig.2, e2, e4, e3, e5, hn.1, hn.2.1, by
        have := hn.2.2; omega⟩, h.symm⟩

theorem convertCoordinate_ok {d : Str} (hd : OnlyAsciiDigits d) :
    ∃ r, (convertCoordinate d : Run (Option (Fix F))) = .ok r := by
  cases hc : coordCaptures d with
  | none => exact ⟨none, by unfold convertCoordinate; rw [hc]⟩
  | some q =>
    obtain ⟨lat, ns, lng, we⟩ := q
    obtain ⟨e1, e2, e3, _⟩ := coordCaptures_iff.1 hc
    refine ⟨_, convertCoordinate_ascii hc (fun c h => ?_) (fun c h => ?_)⟩
    · exact hd c (by rw [e1]; simp [h]) (e2 c h)
    · exact hd c (by rw [e1]; simp [h]) (e3 c h)

theorem rangeBearing_of_captures {d fix b r : Str} (hd : OnlyAsciiDigits d)
    (h : rangeBearingCaptures d = some (fix, b, r)) : IsRangeBearing d fix b r := by
  obtain ⟨e1, e2, e3, e4, e5, e6, e7⟩ := rangeBearingCaptures_iff.1 h
  exact ⟨e1, e2, e3, e4, e5, fun c hc => hd c (by rw [e1]; simp [hc]) (e6 c hc),
    fun c hc => hd c (by rw [e1]; simp [hc]) (e7 c hc)⟩

theorem captures_of_rangeBearing {d fix b r : Str} (h : IsRangeBearing d fix b r) :
    rangeBearingCaptures d = some (fix, b, r) :=
  rangeBearingCaptures_iff.2 ⟨h.shape, h.fixLength, h.fixChars, h.bearingLength, h.rangeLength,
    fun c hc => decimal_digit (h.bearingDigits c hc), fun c hc => decimal_digit (h.rangeDigits c hc)⟩

theorem convertRangeBearing_of (db : Db F) {d fix b r : Str} (h : IsRangeBearing d fix b r) :
    db.convertRangeBearing d = .ok ((firstOf (tableEntries db fix)).map fun f =>
      ⟨d, dest f.coordinate (ofNat (digitsValue b)) (ofNat (digitsValue r))⟩) := by
  unfold Db.convertRangeBearing
  rw [captures_of_rangeBearing h]
  simp only
  rw [parseF64_only h.bearingDigits h.bearingLength, parseF64_only h.rangeDigits h.rangeLength]
  simp only [run_ok_bind, convertFix_eq]

theorem convertRangeBearing_none (db : Db F) {d : Str} (hd : OnlyAsciiDigits d)
    (h : ¬ ∃ fix b r, IsRangeBearing d fix b r) : db.convertRangeBearing d = .ok none := by
  unfold Db.convertRangeBearing
  cases hc : rangeBearingCaptures d with
  | none => rfl
  | some q => exact absurd ⟨_, _, _, rangeBearing_of_captures hd hc⟩ h

/-! ### Procedures -/

theorem convertDesignator_congr (db db' : Db F) (h1 : db.fixes = db'.fixes) (h2 : db.vors = db'.vors)
    (h3 : db.ndbs = db'.ndbs) (h4 : db.airports = db'.airports) (d : Str) :
    db.convertDesignator d = db'.convertDesignator d := by
  have hf : ∀ x, db.convertFix x = db'.convertFix x := by
    intro x; unfold Db.convertFix Db.convertRwy; rw [h1, h2, h3, h4]
  unfold Db.convertDesignator Db.convertRangeBearing
  simp only [hf]

theorem convertWaypoints_congr (db db' : Db F) (h : ∀ d, db.convertDesignator d = db'.convertDesignator d)
    (l : List Str) : db.convertWaypoints l = db'.convertWaypoints l := by
  induction l with
  | nil => rfl
  | cons w l ih => simp only [Db.convertWaypoints, h, ih]

theorem addSidStar_tables {db db' : Db F} {s : SidStar} (h : db.addSidStar s = .ok db') :
    db'.fixes = db.fixes ∧ db'.vors = db.vors ∧ db'.ndbs = db.ndbs ∧ db'.airports = db.airports := by
  cases s <;>
  · simp only [Db.addSidStar, run_bind_ok_iff] at h
    obtain ⟨ws, _, h⟩ := h
    cases h
    exact ⟨rfl, rfl, rfl, rfl⟩

theorem addSidStars_tables {db db' : Db F} {l : List SidStar} (h : db.addSidStars l = .ok db') :
    db'.fixes = db.fixes ∧ db'.vors = db.vors ∧ db'.ndbs = db.ndbs ∧ db'.airports = db.airports := by
  induction l generalizing db with
  | nil => cases h; exact ⟨rfl, rfl, rfl, rfl⟩
  | cons s l ih =>
    simp only [Db.addSidStars, run_bind_ok_iff] at h
    obtain ⟨db1, h1, h2⟩ := h
    obtain ⟨a1, a2, a3, a4⟩ := ih h2
    obtain ⟨b1, b2, b3, b4⟩ := addSidStar_tables h1
    exact ⟨a1.trans b1, a2.trans b2, a3.trans b3, a4.trans b4⟩

theorem convertWaypoints_ok (db : Db F) {l : List Str} {fs : List (Fix F)}
    (h : db.convertWaypoints l = .ok fs) :
    fs = l.filterMap fun w => match db.convertDesignator w with | .ok r => r | .error _ => none := by
  induction l generalizing fs with
  | nil => cases h; rfl
  | cons w l ih =>
    simp only [Db.convertWaypoints, run_bind_ok_iff] at h
    obtain ⟨r, h1, fs', h2, h3⟩ := h
    have := ih h2
    subst this
    simp only [Except.ok.injEq] at h3
    subst h3
    cases r <;> simp [h1]

end

end Verif.Locations
