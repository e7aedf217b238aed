import Verif.Spec.Adaptation
/-!
# Loading an adaptation: lemmas
-/

namespace Verif.Proofs.Adaptation
open Verif.Adaptation Verif.Spec.Adaptation
open Verif.PrfPaths (Prf Path)
open Verif.Display (F32Ops)
open Verif.Dms (DmsArith)
open Verif.Parse.SymbolRule (Close)
open Verif.Locations (FloatOps)

theorem bind_ok {A B : Type} {x : Except Failure A} {f : A → Except Failure B} {b : B} :
    (x >>= f) = .ok b ↔ ∃ a, x = .ok a ∧ f a = .ok b := by
  cases x with
  | error e => simp [bind, Except.bind]
  | ok a => simp [bind, Except.bind]

theorem bind_error {A B : Type} {x : Except Failure A} {f : A → Except Failure B} {e : Failure} :
    (x >>= f) = .error e ↔ x = .error e ∨ ∃ a, x = .ok a ∧ f a = .error e := by
  cases x with
  | error e => simp [bind, Except.bind]
  | ok a => simp [bind, Except.bind]

theorem lift_ok {A : Type} {x : Run A} {a : A} : lift x = .ok a ↔ x = .ok a := by
  cases x <;> simp [lift]

theorem lift_error {A : Type} {x : Run A} {e : Failure} : lift x = .error e ↔ ∃ f, e = .fault f ∧ x = .error f := by
  cases x <;> simp [lift, eq_comm]

section
variable {F G : Type} [F64 F] [DmsArith F] [DecidableEq F] [FloatOps F] [Close F] [F64 G] [F32Ops G] [UnicodeTables]

theorem required_ok {A : Type} {env : Env F G} {f : File} {path : Run Path} {parse : Str → Run A} {a : A} :
    required env f path parse = .ok a ↔ ∃ p s, path = .ok p ∧ TextAt env p s ∧ parse s = .ok a := by
  unfold required
  rw [bind_ok]
  constructor
  · rintro ⟨p, hp, h⟩
    rw [lift_ok] at hp
    cases hr : env.read p with
    | none => rw [hr] at h; cases h
    | some b =>
      rw [hr] at h
      refine ⟨p, _, hp, ⟨b, hr, rfl⟩, ?_⟩
      simp only at h
      split at h <;> first | cases h; assumption | cases h
  · rintro ⟨p, s, hp, ⟨b, hr, rfl⟩, h⟩
    refine ⟨p, lift_ok.2 hp, ?_⟩
    rw [hr]
    simp only [h]

theorem required_error {A : Type} {env : Env F G} {f : File} {path : Run Path} {parse : Str → Run A} {e : Failure}
    (h : required env f path parse = .error e) :
    (∃ x, e = .fault x) ∨ (∃ p, path = .ok p ∧ env.read p = none ∧ e = .unreadable p) ∨
      (∃ p s, path = .ok p ∧ TextAt env p s ∧ parse s = .error .parseError ∧ e = .invalid f) := by
  unfold required at h
  rw [bind_error] at h
  rcases h with h | ⟨p, hp, h⟩
  · obtain ⟨x, h, _⟩ := lift_error.1 h
    exact Or.inl ⟨x, h⟩
  · rw [lift_ok] at hp
    cases hr : env.read p with
    | none => rw [hr] at h; cases h; exact Or.inr (Or.inl ⟨p, hp, hr, rfl⟩)
    | some b =>
      rw [hr] at h
      simp only at h
      split at h
      · cases h
      · next hp' => cases h; exact Or.inr (Or.inr ⟨p, _, hp, ⟨b, hr, rfl⟩, hp', rfl⟩)
      · cases h; exact Or.inl ⟨_, rfl⟩

theorem required_congr {A : Type} {env : Env F G} {r : Path → Option (List Spec.Decode.Byte)} {f : File} {path : Run Path}
    {parse : Str → Run A} (h : ∀ p, path = .ok p → r p = env.read p) :
    required { env with read := r } f path parse = required env f path parse := by
  unfold required
  cases path with
  | error e => rfl
  | ok p =>
    show (match r p with | none => _ | some b => _) = (match env.read p with | none => _ | some b => _)
    rw [h p rfl]

theorem topsky_error {env : Env F G} {prf : Prf} {e : Failure} (h : topsky env prf = .error e) : ∃ f, e = .fault f := by
  unfold topsky at h
  rw [bind_error] at h
  rcases h with h | ⟨p, hp, h⟩
  · obtain ⟨x, h, _⟩ := lift_error.1 h
    exact ⟨x, h⟩
  · cases p with
    | none => cases h
    | some d =>
      simp only at h
      split at h <;> cases h
      exact ⟨_, rfl⟩

theorem squawks_error {env : Env F G} {prf : Prf} {e : Failure} (h : squawks env prf = .error e) : ∃ f, e = .fault f := by
  unfold squawks at h
  rw [bind_error] at h
  rcases h with h | ⟨p, hp, h⟩
  · obtain ⟨x, h, _⟩ := lift_error.1 h
    exact ⟨x, h⟩
  · cases h

theorem good {A : Type} {env : Env F G} {prf : Prf} {f : File} {parse : Str → Run A} {a : A}
    (ho : ∀ s, outcome env s f = (parse s).map fun _ => ()) (h : required env f (path prf f) parse = .ok a) : Good env prf f := by
  obtain ⟨p, s, h1, h2, h3⟩ := required_ok.1 h
  exact ⟨p, s, h1, h2, by rw [ho, h3]; rfl⟩

/-- How a file is bad, and the error for it. -/
def Bad (env : Env F G) (prf : Prf) (f : File) (e : Failure) : Prop :=
  (∃ p, Unreadable env prf f p ∧ e = .unreadable p) ∨ (Invalid env prf f ∧ e = .invalid f)

theorem bad {A : Type} {env : Env F G} {prf : Prf} {f : File} {parse : Str → Run A} {e : Failure}
    (ho : ∀ s, outcome env s f = (parse s).map fun _ => ()) (h : required env f (path prf f) parse = .error e) :
    (∃ x, e = .fault x) ∨ Bad env prf f e := by
  rcases required_error h with h | ⟨p, h1, h2, rfl⟩ | ⟨p, s, h1, h2, h3, rfl⟩
  · exact Or.inl h
  · exact Or.inr (Or.inl ⟨p, ⟨h1, h2⟩, rfl⟩)
  · exact Or.inr (Or.inr ⟨⟨p, s, h1, h2, by rw [ho, h3]; rfl⟩, rfl⟩)

theorem textAt_unique {env : Env F G} {p : Path} {s t : Str} (h : TextAt env p s) (h' : TextAt env p t) : s = t := by
  obtain ⟨b, h1, rfl⟩ := h
  obtain ⟨c, h2, rfl⟩ := h'
  rw [h1] at h2
  cases h2; rfl

theorem unreadable_not_good {env : Env F G} {prf : Prf} {f : File} {p : Path} (h : Unreadable env prf f p) : ¬ Good env prf f := by
  rintro ⟨q, s, h1, ⟨b, h2, _⟩, _⟩
  rw [h.1] at h1
  cases h1
  rw [h.2] at h2
  cases h2

theorem invalid_not_good {env : Env F G} {prf : Prf} {f : File} (h : Invalid env prf f) : ¬ Good env prf f := by
  rintro ⟨q, s, h1, h2, h3⟩
  obtain ⟨p, t, h4, h5, h6⟩ := h
  rw [h1] at h4
  cases h4
  rw [textAt_unique h2 h5, h6] at h3
  cases h3

theorem invalid_not_unreadable {env : Env F G} {prf : Prf} {f : File} {p : Path} (h : Invalid env prf f) : ¬ Unreadable env prf f p := by
  rintro ⟨h1, h2⟩
  obtain ⟨p, t, h4, ⟨b, h5, _⟩, h6⟩ := h
  rw [h1] at h4
  cases h4
  rw [h2] at h5
  cases h5

theorem Bad.not_good {env : Env F G} {prf : Prf} {f : File} {e : Failure} (h : Bad env prf f e) : ¬ Good env prf f := by
  rcases h with ⟨p, h, _⟩ | ⟨h, _⟩
  · exact unreadable_not_good h
  · exact invalid_not_good h

theorem Bad.unique {env : Env F G} {prf : Prf} {f : File} {e e' : Failure} (h : Bad env prf f e) (h' : Bad env prf f e') : e = e' := by
  rcases h with ⟨p, h, rfl⟩ | ⟨h, rfl⟩ <;> rcases h' with ⟨q, h', rfl⟩ | ⟨h', rfl⟩
  · have := h.1.symm.trans h'.1
    cases this; rfl
  · exact absurd h (invalid_not_unreadable h')
  · exact absurd h' (invalid_not_unreadable h)
  · rfl

theorem firstBad_unique {env : Env F G} {prf : Prf} {f g : File} (hf : FirstBad env prf f) (hg : FirstBad env prf g) : f = g := by
  obtain ⟨p1, q1, h1, h2, h3⟩ := hf
  obtain ⟨p2, q2, h4, h5, h6⟩ := hg
  rw [h1] at h4
  rcases List.append_eq_append_iff.1 h4 with ⟨c, h7, h8⟩ | ⟨c, h7, h8⟩
  · cases c with
    | nil => cases h8; rfl
    | cons x c =>
      cases h8
      exact absurd (h5 f (by rw [h7]; simp)) h3
  · cases c with
    | nil => cases h8; rfl
    | cons x c =>
      cases h8
      exact absurd (h2 g (by rw [h7]; simp)) h6

variable [LE F] [DecidableLE F]

/-- The steps of `fromPrf`. -/
structure Steps (env : Env F G) (prf : Prf) (a : Adaptation F G) where
  sct : Parse.Sct.Sct F
  ese : Parse.Ese.Ese F
  symbology : Parse.Symbology.Symbology F G
  squawks : Option (List Settings.SquawkDef)
  topsky : Option (Parse.Topsky.Topsky F G)
  airports : Map Str Parse.Icao.IcaoAirport
  navdata : Map Str (Parse.Icao.NavdataAirport F)
  hsct : required env .sct (PrfPaths.sctPath prf) (Parse.Sct.parse (F := F)) = .ok sct
  hese : required env .ese (PrfPaths.esePath prf) (Parse.Ese.parse (F := F) G) = .ok ese
  hairways : required env .airways (PrfPaths.airwaysPath prf) (parseAirways env) = .ok a.airways
  hsectors : sectors env ese = .ok (a.volumes, a.sectors)
  hconstraints : (a.departureConstraints, a.destinationConstraints) =
    (untimed (Constraints.extract ese.constraints).1, untimed (Constraints.extract ese.constraints).2)
  hsymbology : required env .symbology (PrfPaths.symbologyPath prf) (Parse.Symbology.parse (F := F) (G := G)) = .ok symbology
  hsquawks : Verif.Adaptation.squawks env prf = .ok squawks
  htopsky : Verif.Adaptation.topsky env prf = .ok topsky
  hsettings : Display.Settings.fromEuroscope (F := F) symbology.items (topsky.map Parse.Topsky.Topsky.settings) squawks prf =
    .ok a.settings
  hairports : required env .airports (PrfPaths.airportsPath prf) Parse.Icao.parseAirports = .ok airports
  hnavdata : required env .navdata (PrfPaths.navdataAirportsPath prf) (Parse.Icao.parseNavdataAirports (F := F)) = .ok navdata
  hlocations : Locations.fromEuroscope (sctData sct) ese.sidsStars
    ((env.order .airports airports).map fun e => (e.1, ⟨e.2.name, e.2.country⟩))
    ((env.order .navdata navdata).map fun e => (e.1, ⟨e.2.designator, e.2.name, (e.2.location.x, e.2.location.y)⟩)) =
    .ok a.locations
  hother : a.otherColours = Colours.otherColours (env.order .sctColours sct.colours)
    ((topskyColours topsky).map fun m => env.order .topskyColours m)
  hmapColours : a.mapColours = Colours.mapColour (symbology.items.map fun e => (e.1, e.2.colour))
  hroleColours : a.roleColours = Colours.roleColour ((topskyColours topsky).getD []) a.settings.coopans
  hitems : Model.SctItems.fromSct env.fmt (env.order .airways) sct a.locations (Colours.get a.otherColours a.settings.coopans)
    (a.mapColours .sid) = .ok a.sctItems
  haircraft : required env .aircraft (PrfPaths.aircraftPath prf) Parse.Icao.parseAircraft = .ok a.aircraft
  hairlines : required env .airlines (PrfPaths.airlinesPath prf) Parse.Icao.parseAirlines = .ok a.airlines
  hmaps : mapsOf a.settings.maps (Colours.get a.otherColours a.settings.coopans) a.locations topsky = .ok a.maps
  hname : a.name = sct.info.name
  hpositions : a.positions = positions ese.positions
  hsymbols : a.symbols = Settings.symbolOf env.int symbology.symbols (topsky.map fun t => t.symbols.map fun e => (e.1, e.2.rules))
  hotherSymbols : a.otherSymbols = ((topsky.map fun t => t.symbols.map fun e => (e.1, e.2.rules))).getD []
  hlineStyles : a.lineStyles = Settings.lineStyles env.nat env.upper
    (topsky.map fun t => (env.order .lineStyles t.lineStyles).map fun e => (e.1, e.2.dashLengths))
  hindex : a.index = some (SectorIndex.buildTree ⟨env.order .index a.sectors, a.volumes⟩)

theorem steps {env : Env F G} {prf : Prf} {a : Adaptation F G} (h : fromPrf env prf = .ok a) : Nonempty (Steps env prf a) := by
  unfold fromPrf at h
  simp only [bind_ok] at h
  obtain ⟨sct, hsct, ese, hese, airways, hairways, ⟨volumes, sectors⟩, hsectors, symbology, hsymbology, squawks, hsquawks,
    topsky, htopsky, settings, hsettings, airports, hairports, navdata, hnavdata, locations, hlocations, items, hitems,
    aircraft, haircraft, airlines, hairlines, maps, hmaps, h⟩ := h
  cases h
  refine ⟨⟨sct, ese, symbology, squawks, topsky, airports, navdata, hsct, hese, hairways, lift_ok.1 hsectors, rfl, hsymbology,
    hsquawks, htopsky, lift_ok.1 hsettings, hairports, hnavdata, lift_ok.1 hlocations, rfl, rfl, rfl, lift_ok.1 hitems,
    haircraft, hairlines, lift_ok.1 hmaps, rfl, rfl, rfl, ?_, rfl, rfl⟩⟩
  cases topsky <;> rfl

theorem all_good {env : Env F G} {prf : Prf} {a : Adaptation F G} (h : fromPrf env prf = .ok a) (f : File) : Good env prf f := by
  obtain ⟨s⟩ := steps h
  cases f
  · exact good (fun _ => rfl) s.hsct
  · exact good (fun _ => rfl) s.hese
  · exact good (fun _ => rfl) s.hairways
  · exact good (fun _ => rfl) s.hsymbology
  · exact good (fun _ => rfl) s.hairports
  · exact good (fun _ => rfl) s.hnavdata
  · exact good (fun _ => rfl) s.haircraft
  · exact good (fun _ => rfl) s.hairlines

theorem error_cases {env : Env F G} {prf : Prf} {e : Failure} (h : fromPrf env prf = .error e) :
    (∃ f, e = .fault f) ∨ ∃ f, FirstBad env prf f ∧ Bad env prf f e := by
  have first : ∀ {A : Type} {f : File} {parse : Str → Run A} (pre post : List File), files = pre ++ f :: post →
      (∀ g ∈ pre, Good env prf g) → (∀ s, outcome env s f = (parse s).map fun _ => ()) →
      required env f (path prf f) parse = .error e → (∃ f, e = .fault f) ∨ ∃ f, FirstBad env prf f ∧ Bad env prf f e := by
    intro A f parse pre post h1 h2 h3 h4
    rcases bad h3 h4 with h | h
    · exact Or.inl h
    · exact Or.inr ⟨f, ⟨pre, post, h1, h2, h.not_good⟩, h⟩
  have fault : ∀ {A : Type} {x : Run A}, lift x = .error e → (∃ f, e = .fault f) ∨ ∃ f, FirstBad env prf f ∧ Bad env prf f e := by
    intro A x hx
    obtain ⟨f, h, _⟩ := lift_error.1 hx
    exact Or.inl ⟨f, h⟩
  unfold fromPrf at h
  simp only [bind_error] at h
  rcases h with h | ⟨sct, h1, h⟩
  · exact first [] _ rfl (by simp) (fun _ => rfl) h
  have g1 : Good env prf .sct := good (fun _ => rfl) h1
  rcases h with h | ⟨ese, h2, h⟩
  · exact first [.sct] _ rfl (by simpa using g1) (fun _ => rfl) h
  have g2 : Good env prf .ese := good (fun _ => rfl) h2
  rcases h with h | ⟨airways, h3, h⟩
  · exact first [.sct, .ese] _ rfl (by simpa using ⟨g1, g2⟩) (fun _ => rfl) h
  have g3 : Good env prf .airways := good (fun _ => rfl) h3
  rcases h with h | ⟨_, _, h⟩
  · exact fault h
  rcases h with h | ⟨_, h4, h⟩
  · exact first [.sct, .ese, .airways] _ rfl (by simpa using ⟨g1, g2, g3⟩) (fun _ => rfl) h
  have g4 : Good env prf .symbology := good (fun _ => rfl) h4
  rcases h with h | ⟨_, _, h⟩
  · exact Or.inl (squawks_error h)
  rcases h with h | ⟨_, _, h⟩
  · exact Or.inl (topsky_error h)
  rcases h with h | ⟨_, _, h⟩
  · exact fault h
  rcases h with h | ⟨_, h5, h⟩
  · exact first [.sct, .ese, .airways, .symbology] _ rfl (by simpa using ⟨g1, g2, g3, g4⟩) (fun _ => rfl) h
  have g5 : Good env prf .airports := good (fun _ => rfl) h5
  rcases h with h | ⟨_, h6, h⟩
  · exact first [.sct, .ese, .airways, .symbology, .airports] _ rfl (by simpa using ⟨g1, g2, g3, g4, g5⟩) (fun _ => rfl) h
  have g6 : Good env prf .navdata := good (fun _ => rfl) h6
  rcases h with h | ⟨_, _, h⟩
  · exact fault h
  rcases h with h | ⟨_, _, h⟩
  · exact fault h
  rcases h with h | ⟨_, h7, h⟩
  · exact first [.sct, .ese, .airways, .symbology, .airports, .navdata] _ rfl (by simpa using ⟨g1, g2, g3, g4, g5, g6⟩)
      (fun _ => rfl) h
  have g7 : Good env prf .aircraft := good (fun _ => rfl) h7
  rcases h with h | ⟨_, h8, h⟩
  · exact first [.sct, .ese, .airways, .symbology, .airports, .navdata, .aircraft] _ rfl
      (by simpa using ⟨g1, g2, g3, g4, g5, g6, g7⟩) (fun _ => rfl) h
  rcases h with h | ⟨_, _, h⟩
  · exact fault h
  · cases h

/-- `fromPrf` reads a file only through these steps. -/
theorem fromPrf_congr {env : Env F G} {prf : Prf} {r : Path → Option (List Spec.Decode.Byte)}
    (hf : ∀ f p, path prf f = .ok p → r p = env.read p)
    (hs : squawks { env with read := r } prf = squawks env prf) (ht : topsky { env with read := r } prf = topsky env prf) :
    fromPrf { env with read := r } prf = fromPrf env prf := by
  unfold fromPrf
  rw [required_congr (path := PrfPaths.sctPath prf) (hf .sct),
    required_congr (path := PrfPaths.esePath prf) (hf .ese),
    required_congr (path := PrfPaths.airwaysPath prf) (hf .airways),
    required_congr (path := PrfPaths.symbologyPath prf) (hf .symbology),
    required_congr (path := PrfPaths.airportsPath prf) (hf .airports),
    required_congr (path := PrfPaths.navdataAirportsPath prf) (hf .navdata),
    required_congr (path := PrfPaths.aircraftPath prf) (hf .aircraft),
    required_congr (path := PrfPaths.airlinesPath prf) (hf .airlines),
    hs, ht]
  rfl

end
end Verif.Proofs.Adaptation
