import Verif.Proofs.Locations
/-! # C15-C20, C52, C53: the location database -/

set_option linter.unusedSectionVars false

namespace Verif.Locations
open Spec FloatOps

section Props
variable {F : Type} [UnicodeTables] [FloatOps F]

/-! ### C18, C19 -/

/-- C18: a designator is accepted as coordinate waypoint exactly in the specified forms, and the fix
has the zero-padded designator and the specified coordinate. -/
theorem C18_accepted_iff (d : Str) (f : Fix F) :
    convertCoordinate d = .ok (some f) ↔
      ∃ lat ns lng we, IsCoordinateWaypoint d lat ns lng we ∧ f = coordinateFix lat ns lng we := by
  constructor
  · exact convertCoordinate_some
  · rintro ⟨lat, ns, lng, we, h, rfl⟩
    exact convertCoordinate_waypoint h

/-- C18: the reading of a coordinate waypoint is unique. -/
theorem C18_unique {d lat lng lat' lng' : Str} {ns we ns' we' : Char}
    (h : IsCoordinateWaypoint d lat ns lng we) (h' : IsCoordinateWaypoint d lat' ns' lng' we') :
    lat = lat' ∧ ns = ns' ∧ lng = lng' ∧ we = we' := by
  have tb : UnicodeTables := inferInstance
  have := (captures_of_waypoint h).symm.trans (captures_of_waypoint h')
  simpa using this

/-- C19: the normalised designator of an accepted coordinate waypoint is accepted and stands for the
same fix, designator included. -/
theorem C19_normalised (d : Str) (f : Fix F) (h : convertCoordinate d = .ok (some f)) :
    convertCoordinate f.designator = .ok (some f) := by
  obtain ⟨lat, ns, lng, we, hw, rfl⟩ := convertCoordinate_some h
  clear h
  have h := hw
  clear hw
  have e1 := padLat_length h.latLength
  have e2 := padLng_length h.lngLength
  have p1 : padLat (padLat lat) = padLat lat := by
    generalize padLat lat = x at e1
    unfold padLat
    rw [if_neg (by omega)]
  have p2 : padLng (padLng lng) = padLng lng := by
    generalize padLng lng = x at e2
    unfold padLng
    rw [if_neg (by omega)]
  have hw : IsCoordinateWaypoint (coordinateFix (F := F) lat ns lng we).designator
      (padLat lat) ns (padLng lng) we :=
    { shape := rfl
      latDigits := padLat_digits h.latDigits
      lngDigits := padLng_digits h.lngDigits
      latLength := by omega
      lngLength := by omega
      northSouth := h.northSouth
      westEast := h.westEast
      latLead := fun hx => by omega
      lngLead := fun hx => by omega
      precision := by rw [p1, p2]; exact h.precision }
  rw [convertCoordinate_waypoint hw]
  simp only [coordinateFix, p1, p2]

/-! ### C15 -/

/-- C15: a table entry wins over the patterns; VOR, NDB, fix, airport, runway in this order. -/
theorem C15_table (db : Db F) (d : Str) (hd : OnlyAsciiDigits d) (f : Fix F)
    (h : firstOf (tableEntries db d) = some f) : db.convertDesignator d = .ok (some f) := by
  unfold Db.convertDesignator
  obtain ⟨r, hr⟩ := convertCoordinate_ok (F := F) hd
  rw [hr]
  simp only [run_ok_bind]
  by_cases hb : ∃ fix b r, IsRangeBearing d fix b r
  · obtain ⟨_, _, _, hb⟩ := hb
    rw [convertRangeBearing_of db hb]
    simp [convertFix_eq, h]
  · rw [convertRangeBearing_none db hd hb]
    simp [convertFix_eq, h]

/-- C15: a coordinate waypoint that is in no table. -/
theorem C15_coordinate (db : Db F) (d : Str) (lat lng : Str) (ns we : Char)
    (h : firstOf (tableEntries db d) = none) (hc : IsCoordinateWaypoint d lat ns lng we) :
    db.convertDesignator d = .ok (some (coordinateFix lat ns lng we)) := by
  have hd : OnlyAsciiDigits d := by
    intro c hm hdec
    rw [hc.shape] at hm
    simp only [List.append_assoc, List.cons_append, List.nil_append, List.mem_append,
      List.mem_cons, List.not_mem_nil, or_false] at hm
    rcases hm with hm | hm | hm | hm
    · exact hc.latDigits c hm
    · subst hm; rw [decimal_NS hc.northSouth] at hdec; cases hdec
    · exact hc.lngDigits c hm
    · subst hm; rw [decimal_EW hc.westEast] at hdec; cases hdec
  unfold Db.convertDesignator
  rw [convertCoordinate_waypoint hc]
  simp only [run_ok_bind]
  by_cases hb : ∃ fix b r, IsRangeBearing d fix b r
  · obtain ⟨_, _, _, hb⟩ := hb
    rw [convertRangeBearing_of db hb]
    simp [convertFix_eq, h]
  · rw [convertRangeBearing_none db hd hb]
    simp [convertFix_eq, h]

/-- C15: a designator that is neither in a table nor a coordinate waypoint, but a name with bearing
and range, is that far from the table entry of the name; none if the name is in no table. -/
theorem C15_range_bearing (db : Db F) (d fix b r : Str) (hd : OnlyAsciiDigits d)
    (h : firstOf (tableEntries db d) = none)
    (hc : ¬ ∃ lat ns lng we, IsCoordinateWaypoint d lat ns lng we) (hb : IsRangeBearing d fix b r) :
    db.convertDesignator d = .ok ((firstOf (tableEntries db fix)).map fun f =>
      ⟨d, dest f.coordinate (ofNat (digitsValue b)) (ofNat (digitsValue r))⟩) := by
  unfold Db.convertDesignator
  obtain ⟨o, ho⟩ := convertCoordinate_ok (F := F) hd
  have : o = none := by
    cases o with
    | none => rfl
    | some f => exact absurd (by obtain ⟨a, b, c, d, h, _⟩ := convertCoordinate_some ho; exact ⟨a, b, c, d, h⟩) hc
  subst this
  rw [ho, convertRangeBearing_of db hb]
  simp [convertFix_eq, h]

/-- C15: a designator that is in no table and of neither form is unknown. -/
theorem C15_none (db : Db F) (d : Str) (hd : OnlyAsciiDigits d)
    (h : firstOf (tableEntries db d) = none)
    (hc : ¬ ∃ lat ns lng we, IsCoordinateWaypoint d lat ns lng we)
    (hb : ¬ ∃ fix b r, IsRangeBearing d fix b r) : db.convertDesignator d = .ok none := by
  unfold Db.convertDesignator
  obtain ⟨o, ho⟩ := convertCoordinate_ok (F := F) hd
  have : o = none := by
    cases o with
    | none => rfl
    | some f => exact absurd (by obtain ⟨a, b, c, d, h, _⟩ := convertCoordinate_some ho; exact ⟨a, b, c, d, h⟩) hc
  subst this
  rw [ho, convertRangeBearing_none db hd hb]
  simp [convertFix_eq, h]

/-- C15: the tables hold the sector-file entries of a name in file order, so that the first entry is
the first listed one. -/
theorem C15_tables (sct : SctData F) (ss : List SidStar) (icao : List (Str × IcaoAirport))
    (navdata : List (Str × NavdataAirport F)) (db : Db F)
    (h : fromEuroscope sct ss icao navdata = .ok db) (d : Str) :
    db.vors.getVec d = sct.vors.filter (fun v => v.designator = d) ∧
    db.ndbs.getVec d = sct.ndbs.filter (fun v => v.designator = d) ∧
    db.fixes.getVec d = sct.fixes.filter (fun v => v.designator = d) := by
  obtain ⟨h1, h2, h3, _⟩ := addSidStars_tables h
  rw [h1, h2, h3]
  simp only [baseDb, MultiMap.getVec_foldl_insert]
  simp [MultiMap.getVec]

/-- C15: a location that is a point is that point, one that is a name is the position of the fix. -/
theorem C15_location (db : Db F) (p : Point F) (d : Str) :
    db.convertLocation (.coordinate p) = .ok (some p) ∧
    ∀ r, db.convertDesignator d = .ok r →
      db.convertLocation (.fix d) = .ok (r.map (·.coordinate)) := by
  refine ⟨rfl, ?_⟩
  intro r h
  simp [Db.convertLocation, h]

/-! ### C16 -/

theorem get_isSome_of_noEmpty {V : Type} {m : MultiMap Str V} (h : NoEmptyEntries m) (d : Str) :
    Map.contains m d = (MultiMap.getVec m d).head?.isSome := by
  unfold Map.contains MultiMap.getVec
  cases hg : Map.get? m d with
  | none => rfl
  | some l =>
    have := h _ (Map.mem_of_get? hg)
    cases l with
    | nil => exact absurd rfl this
    | cons a l => rfl

/-- C16: for tables without names that have no entry, `contains_designator` holds exactly if some
table has the designator. -/
theorem C16_contains_iff (db : Db F) (h1 : NoEmptyEntries db.vors) (h2 : NoEmptyEntries db.ndbs)
    (h3 : NoEmptyEntries db.fixes) (d : Str) :
    db.containsDesignator d = true ↔ ∃ f, firstOf (tableEntries db d) = some f := by
  unfold Db.containsDesignator
  rw [get_isSome_of_noEmpty h1, get_isSome_of_noEmpty h2, get_isSome_of_noEmpty h3, convertRwy_eq]
  unfold firstOf tableEntries Map.contains
  cases (MultiMap.getVec db.vors d).head? <;> cases (MultiMap.getVec db.ndbs d).head? <;>
    cases (MultiMap.getVec db.fixes d).head? <;> cases Map.get? db.airports d <;>
    cases runwayWaypoint db d <;> simp

theorem noEmpty_insert {V : Type} {m : MultiMap Str V} (h : NoEmptyEntries m) (k : Str) (v : V) :
    NoEmptyEntries (m.insert k v) := by
  intro e he hnil
  have hk : (e.1, e.2) ∈ (MultiMap.insert m k v) := he
  unfold MultiMap.insert at hk
  have key : ∀ (m : Map Str (List V)) (k : Str) (x : List V) e, e ∈ Map.insert m k x → e ∈ m ∨ e = (k, x) := by
    intro m k x
    induction m with
    | nil => intro e he; simp only [Map.insert, List.mem_cons, List.not_mem_nil, or_false] at he; exact .inr he
    | cons a m ih =>
      intro e he
      simp only [Map.insert] at he
      split at he
      · rcases List.mem_cons.1 he with h | h
        · exact .inr (by rw [h])
        · exact .inl (List.mem_cons_of_mem _ h)
      · rcases List.mem_cons.1 he with h | h
        · exact .inl (by rw [h]; exact List.mem_cons_self)
        · rcases ih e h with h | h
          · exact .inl (List.mem_cons_of_mem _ h)
          · exact .inr h
  rcases key _ _ _ _ hk with h' | h'
  · exact h _ h' hnil
  · have := congrArg Prod.snd h'
    simp only at this
    rw [hnil] at this
    simp at this

theorem noEmpty_foldl {V : Type} (key : V → Str) (l : List V) (m : MultiMap Str V)
    (h : NoEmptyEntries m) :
    NoEmptyEntries (l.foldl (fun (m : MultiMap Str V) v => m.insert (key v) v) m) := by
  induction l generalizing m with
  | nil => exact h
  | cons a l ih => exact ih _ (noEmpty_insert h _ _)

/-- C16: in a database built from files this is always so. -/
theorem C16_contains_iff_built (sct : SctData F) (ss : List SidStar)
    (icao : List (Str × IcaoAirport)) (navdata : List (Str × NavdataAirport F)) (db : Db F)
    (h : fromEuroscope sct ss icao navdata = .ok db) (d : Str) :
    db.containsDesignator d = true ↔ ∃ f, firstOf (tableEntries db d) = some f := by
  obtain ⟨h1, h2, h3, _⟩ := addSidStars_tables h
  apply C16_contains_iff
  · rw [h2]; exact noEmpty_foldl _ _ _ (by intro e he; cases he)
  · rw [h3]; exact noEmpty_foldl _ _ _ (by intro e he; cases he)
  · rw [h1]; exact noEmpty_foldl _ _ _ (by intro e he; cases he)

/-! ### C17 -/

/-- What `contains_nav_element` should say. -/
def Spec.HasNavElement [AirwayGraph.Quantize (Point F)] (db : Db F) (d : Str) (p : Point F) : Prop :=
  (∃ v ∈ db.vors.getVec d, AirwayGraph.quantize v.coordinate = AirwayGraph.quantize p) ∨
  (∃ v ∈ db.ndbs.getVec d, AirwayGraph.quantize v.coordinate = AirwayGraph.quantize p) ∨
  (∃ v ∈ db.fixes.getVec d, AirwayGraph.quantize v.coordinate = AirwayGraph.quantize p)

/-- C17, in part: right if no table has two entries of the name; and a positive answer is always
right.  Missing: names with several entries, where it is false, see `C17_not_every_entry`. -/
theorem C17_contains_nav_element_partial [AirwayGraph.Quantize (Point F)] (db : Db F) (d : Str)
    (p : Point F) :
    (db.containsNavElement d p = true → HasNavElement db d p) ∧
    ((db.vors.getVec d).length ≤ 1 → (db.ndbs.getVec d).length ≤ 1 →
      (db.fixes.getVec d).length ≤ 1 → HasNavElement db d p → db.containsNavElement d p = true) := by
  have key : ∀ {V : Type} (l : List V) (c : V → Point F),
      (l.head?.any (fun v => AirwayGraph.quantize (c v) == AirwayGraph.quantize p) = true →
        ∃ v ∈ l, AirwayGraph.quantize (c v) = AirwayGraph.quantize p) ∧
      (l.length ≤ 1 → (∃ v ∈ l, AirwayGraph.quantize (c v) = AirwayGraph.quantize p) →
        l.head?.any (fun v => AirwayGraph.quantize (c v) == AirwayGraph.quantize p) = true) := by
    intro V l c
    cases l with
    | nil => simp
    | cons a l =>
      constructor
      · intro h; simp at h; exact ⟨a, List.mem_cons_self, h⟩
      · intro hl
        have : l = [] := by
          cases l with
          | nil => rfl
          | cons b l => simp at hl
        subst this
        simp
  have k1 := key (db.vors.getVec d) (·.coordinate)
  have k2 := key (db.ndbs.getVec d) (·.coordinate)
  have k3 := key (db.fixes.getVec d) (·.coordinate)
  unfold Db.containsNavElement HasNavElement MultiMap.get
  simp only [Bool.or_eq_true]
  constructor
  · rintro ((h | h) | h)
    · exact .inl (k1.1 h)
    · exact .inr (.inl (k2.1 h))
    · exact .inr (.inr (k3.1 h))
  · rintro h1 h2 h3 (h | h | h)
    · exact .inl (.inl (k1.2 h1 h))
    · exact .inl (.inr (k2.2 h2 h))
    · exact .inr (k3.2 h3 h)

/-- C17 fails: whenever two fixes of one name are at different quantised positions, the second one is
not found (if nothing else of that name is at its position). -/
theorem C17_not_every_entry [AirwayGraph.Quantize (Point F)] (d : Str) (p q : Point F)
    (hq : AirwayGraph.quantize p ≠ AirwayGraph.quantize q) :
    ∃ (sct : SctData F) (db : Db F), fromEuroscope sct [] [] [] = .ok db ∧
      HasNavElement db d q ∧ db.containsNavElement d q = false := by
  refine ⟨⟨[], [⟨d, p⟩, ⟨d, q⟩], [], [], []⟩, _, rfl, ?_, ?_⟩
  · right; right
    refine ⟨⟨d, q⟩, ?_, rfl⟩
    simp [baseDb, MultiMap.insert, MultiMap.getVec, Map.insert, Map.get?]
  · simp [baseDb, MultiMap.insert, MultiMap.get, MultiMap.getVec, Map.insert, Map.get?,
      Db.containsNavElement, hq]

/-! ### C20 -/

/-- C20: the airport table is the specified merge. -/
theorem C20_airport (sct : SctData F) (ss : List SidStar) (icao : List (Str × IcaoAirport))
    (navdata : List (Str × NavdataAirport F)) (hi : (icao.map (·.1)).Nodup)
    (hn : (navdata.map (·.1)).Nodup) (db : Db F)
    (h : fromEuroscope sct ss icao navdata = .ok db) (d : Str) :
    db.airports.get? d = airportOf sct navdata icao d := by
  obtain ⟨_, _, _, h4⟩ := addSidStars_tables h
  rw [h4]
  simp only [baseDb]
  rw [get?_foldl_icao _ hi, get?_foldl_navdata _ hn, get?_sctAirports]
  unfold airportOf
  cases navdata.find? (fun e => decide (e.1 = d)) <;> cases icao.find? (fun e => decide (e.1 = d)) <;>
    cases sct.airports.reverse.find? (fun a => decide (a.designator = d)) <;> rfl

theorem find?_perm {V : Type} {l l' : List (Str × V)} (hn : (l.map (·.1)).Nodup) (hp : l.Perm l')
    (d : Str) : l.find? (fun e => decide (e.1 = d)) = l'.find? (fun e => decide (e.1 = d)) := by
  induction hp with
  | nil => rfl
  | cons a _ ih =>
    simp only [List.map_cons, List.nodup_cons] at hn
    simp only [List.find?_cons]
    split
    · rfl
    · exact ih hn.2
  | swap a b l =>
    simp only [List.map_cons, List.nodup_cons, List.mem_cons, not_or] at hn
    simp only [List.find?_cons]
    by_cases ha : a.1 = d
    · by_cases hb : b.1 = d
      · exact absurd (hb.trans ha.symm) hn.1.1
      · simp [ha, hb]
    · by_cases hb : b.1 = d <;> simp [ha, hb]
  | trans h1 _ ih1 ih2 =>
    rw [ih1 hn, ih2 ((h1.map _).nodup_iff.1 hn)]

/-- C20: the order in which the hash maps of ICAO and navdata airports are walked does not matter. -/
theorem C20_order_independent (sct : SctData F) (ss : List SidStar)
    (icao icao' : List (Str × IcaoAirport)) (navdata navdata' : List (Str × NavdataAirport F))
    (hi : (icao.map (·.1)).Nodup) (hn : (navdata.map (·.1)).Nodup) (pi : icao.Perm icao')
    (pn : navdata.Perm navdata') (db db' : Db F) (h : fromEuroscope sct ss icao navdata = .ok db)
    (h' : fromEuroscope sct ss icao' navdata' = .ok db') (d : Str) :
    db.airports.get? d = db'.airports.get? d := by
  rw [C20_airport sct ss icao navdata hi hn db h,
    C20_airport sct ss icao' navdata' ((pi.map _).nodup_iff.1 hi) ((pn.map _).nodup_iff.1 hn) db' h']
  unfold airportOf
  rw [find?_perm hi pi, find?_perm hn pn]

/-! ### C52 -/

/-- The fix a waypoint of a procedure resolves to. -/
def Spec.resolved (db : Db F) (w : Str) : Option (Fix F) :=
  match db.convertDesignator w with
  | .ok r => r
  | .error _ => none

/-- A procedure with its resolvable waypoints, in order. -/
def Spec.resolvedProcedure (db : Db F) (s : EseProcedure) : Procedure F :=
  ⟨s.name, s.airport, s.runway, s.waypoints.filterMap (resolved db)⟩

theorem stored_addSidStars (db0 db db' : Db F) (l : List SidStar) (h : db.addSidStars l = .ok db')
    (hc : ∀ d, db.convertDesignator d = db0.convertDesignator d) (airport name : Str) :
    stored db'.sids airport name = stored db.sids airport name ++
      ((sidsOf l).filter fun s => s.airport = airport ∧ s.name = name).map (resolvedProcedure db0) ∧
    stored db'.stars airport name = stored db.stars airport name ++
      ((starsOf l).filter fun s => s.airport = airport ∧ s.name = name).map (resolvedProcedure db0) := by
  induction l generalizing db with
  | nil => cases h; simp [sidsOf, starsOf]
  | cons s l ih =>
    simp only [Db.addSidStars, run_bind_ok_iff] at h
    obtain ⟨db1, h1, h2⟩ := h
    obtain ⟨b1, b2, b3, b4⟩ := addSidStar_tables h1
    have ih := ih db1 h2 (fun d => (convertDesignator_congr _ _ b1 b2 b3 b4 d).trans (hc d))
    rw [ih.1, ih.2]
    have hcw : ∀ ws fs, db.convertWaypoints ws = .ok fs → fs = ws.filterMap (resolved db0) := by
      intro ws fs hw
      rw [convertWaypoints_congr db db0 hc] at hw
      exact convertWaypoints_ok db0 hw
    cases s with
    | sid s =>
      simp only [Db.addSidStar, run_bind_ok_iff] at h1
      obtain ⟨ws, hw, h1⟩ := h1
      cases h1
      have := hcw _ _ hw
      subst this
      simp only [stored_addProcedure, sidsOf, starsOf, List.filterMap_cons, List.filter_cons,
        List.append_assoc]
      by_cases e : s.airport = airport ∧ s.name = name
      · simp [e, resolvedProcedure]
      · simp [e]
    | star s =>
      simp only [Db.addSidStar, run_bind_ok_iff] at h1
      obtain ⟨ws, hw, h1⟩ := h1
      cases h1
      have := hcw _ _ hw
      subst this
      simp only [stored_addProcedure, sidsOf, starsOf, List.filterMap_cons, List.filter_cons,
        List.append_assoc]
      by_cases e : s.airport = airport ∧ s.name = name
      · simp [e, resolvedProcedure]
      · simp [e]

/-- C52: the SIDs and STARs of an airport and name are those of the ESE file, in file order, with
their resolvable waypoints in order. -/
theorem C52_procedures (sct : SctData F) (ss : List SidStar) (icao : List (Str × IcaoAirport))
    (navdata : List (Str × NavdataAirport F)) (db : Db F)
    (h : fromEuroscope sct ss icao navdata = .ok db) (airport name : Str) :
    stored db.sids airport name =
      ((sidsOf ss).filter fun s => s.airport = airport ∧ s.name = name).map (resolvedProcedure db) ∧
    stored db.stars airport name =
      ((starsOf ss).filter fun s => s.airport = airport ∧ s.name = name).map (resolvedProcedure db) := by
  obtain ⟨h1, h2, h3, h4⟩ := addSidStars_tables h
  have := stored_addSidStars db _ db ss h
    (fun d => convertDesignator_congr _ _ h1.symm h2.symm h3.symm h4.symm d) airport name
  simpa [baseDb, stored] using this

/-! ### C53 -/

/-- C53, in part: looking up a designator does not panic if its decimal digits are ASCII digits.
Missing: other digits, where it is false, see `C53_panics`. -/
theorem C53_lookup_no_panic_partial (db : Db F) (d : Str) (hd : OnlyAsciiDigits d) :
    ∃ r, db.convertDesignator d = .ok r := by
  unfold Db.convertDesignator
  obtain ⟨o, ho⟩ := convertCoordinate_ok (F := F) hd
  rw [ho]
  simp only [run_ok_bind]
  by_cases hb : ∃ fix b r, IsRangeBearing d fix b r
  · obtain ⟨_, _, _, hb⟩ := hb
    rw [convertRangeBearing_of db hb]
    exact ⟨_, rfl⟩
  · rw [convertRangeBearing_none db hd hb]
    exact ⟨_, rfl⟩

/-- C53, in part: a database can be built if all waypoints of the procedures are such. -/
theorem C53_build_no_panic_partial (sct : SctData F) (ss : List SidStar)
    (icao : List (Str × IcaoAirport)) (navdata : List (Str × NavdataAirport F))
    (hs : ∀ s ∈ sidsOf ss ++ starsOf ss, ∀ w ∈ s.waypoints, OnlyAsciiDigits w) :
    ∃ db, fromEuroscope sct ss icao navdata = .ok db := by
  have hw : ∀ (db : Db F) (ws : List Str), (∀ w ∈ ws, OnlyAsciiDigits w) →
      ∃ fs, db.convertWaypoints ws = .ok fs := by
    intro db ws
    induction ws with
    | nil => intro _; exact ⟨[], rfl⟩
    | cons w ws ih =>
      intro h
      obtain ⟨r, hr⟩ := C53_lookup_no_panic_partial db w (h w List.mem_cons_self)
      obtain ⟨fs, hf⟩ := ih (fun x hx => h x (List.mem_cons_of_mem _ hx))
      simp only [Db.convertWaypoints, hr, hf, run_ok_bind]
      exact ⟨_, rfl⟩
  unfold fromEuroscope
  generalize baseDb sct navdata icao = db
  induction ss generalizing db with
  | nil => exact ⟨db, rfl⟩
  | cons s l ih =>
    have hl : ∀ s ∈ sidsOf l ++ starsOf l, ∀ w ∈ s.waypoints, OnlyAsciiDigits w := by
      intro x hx
      apply hs
      simp only [sidsOf, starsOf, List.mem_append, List.mem_filterMap, List.mem_cons] at hx ⊢
      rcases hx with ⟨a, h1, h2⟩ | ⟨a, h1, h2⟩
      · exact .inl ⟨a, .inr h1, h2⟩
      · exact .inr ⟨a, .inr h1, h2⟩
    cases s with
    | sid s =>
      obtain ⟨fs, hf⟩ := hw db s.waypoints (hs s (by simp [sidsOf]))
      simp only [Db.addSidStars, Db.addSidStar, hf, run_ok_bind]
      exact ih hl _
    | star s =>
      obtain ⟨fs, hf⟩ := hw db s.waypoints (hs s (by simp [starsOf]))
      simp only [Db.addSidStars, Db.addSidStar, hf, run_ok_bind]
      exact ih hl _

/-- C53 fails: a bearing or range written in digits of another script panics. -/
theorem C53_panics (db : Db F) (x : Char) (hx : UnicodeTables.decimal x = true)
    (ha : isAsciiDigit x = false) :
    db.convertDesignator (c!"OTT" ++ [x, x, x, x, x, x]) = .error .panic := by
  have hr : rangeBearingCaptures (c!"OTT" ++ [x, x, x, x, x, x]) =
      some (c!"OTT", [x, x, x], [x, x, x]) := by
    rw [rangeBearingCaptures_iff]
    refine ⟨rfl, by decide, by decide, rfl, rfl, ?_, ?_⟩ <;> simp [hx]
  have hO : UnicodeTables.decimal 'O' = false := by
    rw [UnicodeTables.decimal_ascii _ (by decide)]; decide
  have hc : coordCaptures (c!"OTT" ++ [x, x, x, x, x, x]) = none := by
    unfold coordCaptures
    simp [hO]
    split <;> rfl
  unfold Db.convertDesignator convertCoordinate Db.convertRangeBearing
  rw [hc, hr]
  simp [parseF64, isNumeral, ha]

end Props

/-! ### Examples -/

section Examples

/-- Floats replaced by integers scaled by 3600 (and products thereof). -/
local instance : FloatOps Int where
  ofNat n := n
  add a b := a + b
  div a b := a / b
  mul a b := a * b
  negOne := -1
  dest p b r := (p.1 + b, p.2 + r)

/-- The ASCII part of the tables and the Arabic-Indic digit four. -/
local instance : UnicodeTables where
  letter c := isAsciiUpper c || isAsciiLower c
  number := isAsciiDigit
  decimal c := isAsciiDigit c || c.toNat == 0x664
  letter_ascii _ _ := rfl
  number_ascii _ _ := rfl
  decimal_ascii c h := by
    have : (c.toNat == 0x664) = false := by
      rw [beq_eq_false_iff_ne]; omega
    simp [this]

private def exSct : SctData Int where
  airports := [⟨c!"EDDM", (11, 48), c!"D"⟩]
  fixes := [⟨c!"OTT", (3, 3)⟩, ⟨c!"ERDIN", (4, 4)⟩, ⟨c!"ERDIN", (5, 5)⟩]
  ndbs := [⟨c!"OTT", c!"300.0", (2, 2)⟩]
  vors := [⟨c!"OTT", c!"112.3", (1, 1)⟩]
  runways := [⟨(c!"08L", c!"26R"), (83, 263), ((6, 6), (7, 7)), c!"EDDM"⟩]

private def exSs : List SidStar :=
  [.sid ⟨c!"ERD1A", c!"EDDM", some c!"08L", [c!"EDDM08L", c!"NOPE", c!"ERDIN", c!"OTT090010"]⟩,
   .star ⟨c!"ERD2B", c!"EDDM", none, [c!"4830N01145E"]⟩]

private def look (d : Str) : Run (Option (Str × Int × Int)) := do
  let db ← fromEuroscope exSct exSs [(c!"EDDM", ⟨c!"Munich", c!"Germany"⟩)] [(c!"EDDM", ⟨c!"EDDM", c!"Muenchen", (0, 0)⟩)]
  let r ← db.convertDesignator d
  .ok (r.map fun f => (f.designator, f.coordinate))

example : look c!"OTT" = .ok (some (c!"OTT", 1, 1)) := by rfl
example : look c!"ERDIN" = .ok (some (c!"ERDIN", 4, 4)) := by rfl
example : look c!"EDDM26R" = .ok (some (c!"EDDM26R", 7, 7)) := by rfl
example : look c!"OTT090010" = .ok (some (c!"OTT090010", 91, 11)) := by rfl
example : look c!"48N12W" = .ok (some (c!"48N012W", -12, 48)) := by rfl
example : look c!"OTT٤٤٤٤٤٤" = .error .panic := by rfl

/-- the hypotheses of C18/C15_coordinate, C15_range_bearing, C53 -/
example : IsCoordinateWaypoint c!"4830N1145E" c!"4830" 'N' c!"1145" 'E' :=
  ⟨rfl, by decide, by decide, by decide, by decide, by decide, by decide, by decide, by decide, by decide⟩
example : IsRangeBearing c!"OTT090010" c!"OTT" c!"090" c!"010" :=
  ⟨rfl, by decide, by decide, by decide, by decide, by decide, by decide⟩
example : OnlyAsciiDigits c!"OTT090010" := by
  unfold OnlyAsciiDigits; decide
example : UnicodeTables.decimal '٤' = true ∧ isAsciiDigit '٤' = false := by decide

/-- the procedures of the example -/
example : (do
    let db ← fromEuroscope exSct exSs [] []
    Except.ok ((stored db.sids c!"EDDM" c!"ERD1A").map fun p => p.waypoints.map (·.designator))
      : Run (List (List Str))) = .ok [[c!"EDDM08L", c!"ERDIN", c!"OTT090010"]] := by rfl

example : ((exSs.map fun _ => ()).length = 2) ∧
    (∀ s ∈ sidsOf exSs ++ starsOf exSs, ∀ w ∈ s.waypoints, ∀ c ∈ w,
      UnicodeTables.decimal c = true → isAsciiDigit c = true) := by decide

/-- the merged airport -/
example : airportOf exSct [(c!"EDDM", ⟨c!"EDDM", c!"Muenchen", (0, 0)⟩)]
    [(c!"EDDM", ⟨c!"Munich", c!"Germany"⟩)] c!"EDDM" =
    some ⟨c!"EDDM", (11, 48), some c!"Muenchen", some c!"Germany", exSct.runways⟩ := by rfl

end Examples

end Verif.Locations
