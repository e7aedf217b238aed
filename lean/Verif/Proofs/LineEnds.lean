import Verif.Peg.LineEnds
import Verif.Parse.Icao
import Verif.Parse.Airway
import Verif.Parse.TopskySettings
import Verif.Parse.Symbology
/-!
# Parsers that do not depend on the line ends

Each grammar passes the check of `Verif/Peg/LineEnds.lean`, and the parser never looks at the text of a
token that may contain line ends.
-/

namespace Verif.Peg
variable {R : Type} {b : Big R}

theorem Alike.rule {t t' : Tree R} (h : Alike b t t') : t.asRule = t'.asRule := by
  cases h <;> rfl

theorem Alike.kids {t t' : Tree R} (h : Alike b t t') : Alikes b t.inner t'.inner := by
  cases h with
  | same => exact .refl _ _
  | line => exact .refl _ _
  | box _ _ _ hk => exact hk

/-- The parts of the first token. -/
theorem Alikes.first {A : Type} {f : List (Tree R) → Run A} (hf : ∀ k k', Alikes b k k' → f k = f k')
    {ts ts' : List (Tree R)} (h : Alikes b ts ts') :
    (do let (p, _) ← next ts; f p.inner) = (do let (p, _) ← next ts'; f p.inner) := by
  cases h with
  | nil => rfl
  | cons h _ => exact hf _ _ h.kids

theorem Alikes.foldlM {A : Type} {f : A → Tree R → Run A} (hf : ∀ a t t', Alike b t t' → f a t = f a t')
    {ts ts' : List (Tree R)} (h : Alikes b ts ts') : ∀ a, ts.foldlM f a = ts'.foldlM f a := by
  induction ts generalizing ts' with
  | nil => cases h; intro a; rfl
  | cons t ts ih =>
    cases h with
    | cons h hk =>
      intro a
      simp only [List.foldlM_cons, hf a _ _ h]
      congr
      funext a'
      exact ih hk a'

theorem Alikes.mapM {A : Type} {f : Tree R → Run A} (hf : ∀ t t', Alike b t t' → f t = f t')
    {ts ts' : List (Tree R)} (h : Alikes b ts ts') : ts.mapM f = ts'.mapM f := by
  induction ts generalizing ts' with
  | nil => cases h; rfl
  | cons t ts ih =>
    cases h with
    | cons h hk => simp only [List.mapM_cons, hf _ _ h, ih hk]

/-- The texts of the tokens differ only by carriage returns. -/
theorem Alike.text {t t' : Tree R} (h : Alike b t t') : unix t.asStr = unix t'.asStr := by
  cases h with
  | same => rfl
  | line _ _ _ _ hs => simp only [Tree.asStr_node, hs, unix_unix]
  | box _ _ _ _ _ _ hs => simp only [Tree.asStr_node, hs, unix_unix]

end Verif.Peg

namespace Verif.Proofs.LineEnds
open Verif.Peg Verif.Parse
open Verif.Spec (SameLines)

/-! ## isec.txt -/
section
open Verif.Peg.Isec

def isecBig : Big Isec.Rule := ⟨(· == .wpt), (· == .wpts), fun _ => false, fun _ => false, fun _ _ => true⟩

theorem isec_skip : EvenSkip isecBig true Isec.skip :=
  evenSkip_both (by decide) (by decide) (by decide) (by decide) (by decide) (by decide) (by decide) (by decide)

theorem isec_even : even isecBig true Isec.wpts .nonAtomic false = true := by decide

theorem isec_step {F : Type} [F64 F] (acc : Isec.IsecMap F) (t t' : Tree Isec.Rule) (h : Alike isecBig t t') :
    Isec.step acc t = Isec.step acc t' := by
  cases h with
  | same => rfl
  | line => rfl
  | @box r _ _ _ _ h => cases r <;> first | rfl | cases h

theorem isec_same {F : Type} [F64 F] {s t : Str} (h : SameLines s t) :
    Isec.parseIsecTxt (F := F) s = Isec.parseIsecTxt t :=
  run_sameLines isec_skip isec_even
    (fun _ _ h => h.first (f := fun k => k.foldlM Isec.step []) fun _ _ h => h.foldlM isec_step _) h
end

/-! ## airway.txt -/
section

def airwayBig : Big Airway.Rule := ⟨(· == .airway), (· == .airways), fun _ => false, fun _ => false, fun _ _ => true⟩

theorem airway_skip : EvenSkip airwayBig true Airway.skip :=
  evenSkip_one (by decide) (by decide) (by decide) (by decide)

theorem airway_even : even airwayBig true Airway.airways .nonAtomic false = true := by decide

theorem airway_step {F : Type} [F64 F] [AirwayGraph.Quantize (Point F)] (acc : AirwayGraph.Graph (Point F))
    (t t' : Tree Airway.Rule) (h : Alike airwayBig t t') : Airway.step acc t = Airway.step acc t' := by
  cases h with
  | same => rfl
  | line => rfl
  | @box r _ _ _ _ h => cases r <;> first | rfl | cases h

theorem airway_same {F : Type} [F64 F] [AirwayGraph.Quantize (Point F)] {s t : Str} (h : SameLines s t) :
    Airway.parseAirwayTxt (F := F) s = Airway.parseAirwayTxt t :=
  run_sameLines airway_skip airway_even
    (fun _ _ h => h.first (f := fun k => k.foldlM Airway.step AirwayGraph.Graph.empty) fun _ _ h => h.foldlM airway_step _) h
end

/-! ## The Unicode classes -/

/-- The same tables; it is computable that line ends are neither letters nor numbers. -/
@[reducible] def clear (T : UnicodeTables) : UnicodeTables where
  letter c := c != '\r' && (c != '\n' && T.letter c)
  number c := c != '\r' && (c != '\n' && T.number c)
  decimal := T.decimal
  letter_ascii c h := by
    rw [T.letter_ascii c h]
    by_cases h1 : c = '\r'
    · subst h1; rfl
    · by_cases h2 : c = '\n'
      · subst h2; rfl
      · rw [bne_iff_ne.2 h1, bne_iff_ne.2 h2]; rfl
  number_ascii c h := by
    rw [T.number_ascii c h]
    by_cases h1 : c = '\r'
    · subst h1; rfl
    · by_cases h2 : c = '\n'
      · subst h2; rfl
      · rw [bne_iff_ne.2 h1, bne_iff_ne.2 h2]; rfl
  decimal_ascii := T.decimal_ascii

theorem tables_ext {T T' : UnicodeTables} (h1 : T.letter = T'.letter) (h2 : T.number = T'.number)
    (h3 : T.decimal = T'.decimal) : T = T' := by
  obtain ⟨l, n, d, _, _, _⟩ := T
  obtain ⟨l', n', d', _, _, _⟩ := T'
  cases h1
  cases h2
  cases h3
  rfl

theorem clear_eq (T : UnicodeTables) : clear T = T := by
  have h1 : (clear T).letter = T.letter := by
    funext c
    by_cases hc : c.toNat < 128
    · rw [(clear T).letter_ascii c hc, T.letter_ascii c hc]
    · have e1 : c ≠ '\r' := by rintro rfl; exact hc (by decide)
      have e2 : c ≠ '\n' := by rintro rfl; exact hc (by decide)
      show (c != '\r' && (c != '\n' && _)) = _
      rw [bne_iff_ne.2 e1, bne_iff_ne.2 e2]; rfl
  have h2 : (clear T).number = T.number := by
    funext c
    by_cases hc : c.toNat < 128
    · rw [(clear T).number_ascii c hc, T.number_ascii c hc]
    · have e1 : c ≠ '\r' := by rintro rfl; exact hc (by decide)
      have e2 : c ≠ '\n' := by rintro rfl; exact hc (by decide)
      show (c != '\r' && (c != '\n' && _)) = _
      rw [bne_iff_ne.2 e1, bne_iff_ne.2 e2]; rfl
  exact tables_ext h1 h2 rfl

/-! ## icao_aircraft.txt -/
section

def aircraftBig : Big IcaoAircraft.Rule := ⟨fun r => r == .definition || r == .continued_name, (· == .aircraft), fun _ => false, fun _ => false, fun _ _ => true⟩

theorem aircraft_skip : EvenSkip aircraftBig true IcaoAircraft.skip :=
  evenSkip_both (by decide) (by decide) (by decide) (by decide) (by decide) (by decide) (by decide) (by decide)

theorem aircraft_even [T : UnicodeTables] : even aircraftBig true IcaoAircraft.aircraft .nonAtomic false = true := by
  rw [← clear_eq T]
  rfl

theorem aircraft_step (acc : Icao.AircraftMap) (t t' : Tree IcaoAircraft.Rule) (h : Alike aircraftBig t t') :
    Icao.stepAircraft acc t = Icao.stepAircraft acc t' := by
  cases h with
  | same => rfl
  | line => rfl
  | @box r _ _ _ _ h => cases r <;> first | rfl | cases h

theorem aircraft_same [UnicodeTables] {s t : Str} (h : SameLines s t) : Icao.parseAircraft s = Icao.parseAircraft t :=
  run_sameLines aircraft_skip aircraft_even
    (fun _ _ h => h.first (f := fun k => k.foldlM Icao.stepAircraft []) fun _ _ h => h.foldlM aircraft_step _) h
end

/-! ## icao_airports.txt -/
section

def airportsBig : Big IcaoAirports.Rule := ⟨(· == .definition), (· == .aircraft), fun _ => false, fun _ => false, fun _ _ => true⟩

theorem airports_skip : EvenSkip airportsBig true IcaoAirports.skip :=
  evenSkip_both (by decide) (by decide) (by decide) (by decide) (by decide) (by decide) (by decide) (by decide)

theorem airports_even [T : UnicodeTables] : even airportsBig true IcaoAirports.aircraft .nonAtomic false = true := by
  rw [← clear_eq T]
  rfl

theorem airports_step (acc : Map Str Icao.IcaoAirport) (t t' : Tree IcaoAirports.Rule) (h : Alike airportsBig t t') :
    Icao.stepAirport acc t = Icao.stepAirport acc t' := by
  cases h with
  | same => rfl
  | line => rfl
  | @box r _ _ _ _ h => cases r <;> first | rfl | cases h

theorem airports_same [UnicodeTables] {s t : Str} (h : SameLines s t) : Icao.parseAirports s = Icao.parseAirports t :=
  run_sameLines airports_skip airports_even
    (fun _ _ h => h.first (f := fun k => k.foldlM Icao.stepAirport []) fun _ _ h => h.foldlM airports_step _) h
end

/-! ## The airports of the navigation data -/
section

def navdataBig : Big NavdataAirports.Rule := ⟨(· == .definition), (· == .airports), fun _ => false, fun _ => false, fun _ _ => true⟩

theorem navdata_skip : EvenSkip navdataBig true NavdataAirports.skip :=
  evenSkip_both (by decide) (by decide) (by decide) (by decide) (by decide) (by decide) (by decide) (by decide)

theorem navdata_even [T : UnicodeTables] : even navdataBig true NavdataAirports.airports .nonAtomic false = true := by
  rw [← clear_eq T]
  rfl

theorem navdata_step {F : Type} [F64 F] (acc : Map Str (Icao.NavdataAirport F)) (t t' : Tree NavdataAirports.Rule)
    (h : Alike navdataBig t t') : Icao.stepNavdata acc t = Icao.stepNavdata acc t' := by
  cases h with
  | same => rfl
  | line => rfl
  | @box r _ _ _ _ h => cases r <;> first | rfl | cases h

theorem navdata_same [UnicodeTables] {F : Type} [F64 F] {s t : Str} (h : SameLines s t) :
    Icao.parseNavdataAirports (F := F) s = Icao.parseNavdataAirports t :=
  run_sameLines navdata_skip navdata_even
    (fun _ _ h => h.first (f := fun k => k.foldlM Icao.stepNavdata []) fun _ _ h => h.foldlM navdata_step _) h
end

/-! ## icao_airlines.txt -/
section

def airlinesBig : Big IcaoAirlines.Rule := ⟨(· == .definition), (· == .airlines), fun _ => false, fun _ => false, fun _ _ => true⟩

theorem airlines_skip : EvenSkip airlinesBig true IcaoAirlines.skip :=
  evenSkip_both (by decide) (by decide) (by decide) (by decide) (by decide) (by decide) (by decide) (by decide)

theorem airlines_even : even airlinesBig true IcaoAirlines.airlines .nonAtomic false = true := by decide

theorem airlines_one (t t' : Tree IcaoAirlines.Rule) (h : Alike airlinesBig t t') :
    Icao.airlineFromPest t = Icao.airlineFromPest t' := by
  cases h with
  | same => rfl
  | line => rfl
  | @box r _ _ _ _ h => cases r <;> first | rfl | cases h

/-- The rest is used only to see whether it is a single `EOI`. -/
theorem airlines_many {k k' : List (Tree IcaoAirlines.Rule)} (h : Alikes airlinesBig k k') :
    (∃ e, Icao.airlinesFromPest k = .error e ∧ Icao.airlinesFromPest k' = .error e) ∨
      ∃ as r r', Icao.airlinesFromPest k = .ok (as, r) ∧ Icao.airlinesFromPest k' = .ok (as, r') ∧ Alikes airlinesBig r r' := by
  induction k generalizing k' with
  | nil => cases h; exact Or.inr ⟨[], [], [], rfl, rfl, .nil⟩
  | cons t k ih =>
    cases h with
    | @cons _ t' _ k' h hk =>
      have ha := airlines_one _ _ h
      simp only [Icao.airlinesFromPest, ← ha]
      cases Icao.airlineFromPest t with
      | none => exact Or.inr ⟨[], _, _, rfl, rfl, .cons h hk⟩
      | some a =>
        cases a with
        | error e => exact Or.inl ⟨e, rfl, rfl⟩
        | ok a =>
          rcases ih hk with ⟨e, h1, h2⟩ | ⟨as, r, r', h1, h2, h3⟩
          · exact Or.inl ⟨e, by rw [h1]; rfl, by rw [h2]; rfl⟩
          · exact Or.inr ⟨a :: as, r, r', by rw [h1]; rfl, by rw [h2]; rfl, h3⟩

theorem airlines_from (ts ts' : List (Tree IcaoAirlines.Rule)) (h : Alikes airlinesBig ts ts') :
    Icao.fromPest ts = Icao.fromPest ts' := by
  cases h with
  | nil => rfl
  | cons h _ =>
    rename_i t t' _ _ _
    have hr := h.rule
    show (if t.asRule = .airlines then _ else _) = (if t'.asRule = .airlines then _ else _)
    rw [hr]
    split
    · rcases airlines_many h.kids with ⟨e, h1, h2⟩ | ⟨as, r, r', h1, h2, h3⟩
      · simp only [h1, h2]
      · simp only [h1, h2]
        cases h3 with
        | nil => rfl
        | @cons t t' l l' h4 h5 =>
          cases h5 with
          | nil =>
            obtain ⟨r1, s1, k1⟩ := t
            obtain ⟨r2, s2, k2⟩ := t'
            have : r1 = r2 := h4.rule
            subst this
            cases r1 <;> rfl
          | cons => 
            obtain ⟨r1, s1, k1⟩ := t
            obtain ⟨r2, s2, k2⟩ := t'
            cases r1 <;> cases r2 <;> rfl
    · rfl

theorem airlines_same {s t : Str} (h : SameLines s t) : Icao.parseAirlines s = Icao.parseAirlines t :=
  run_sameLines airlines_skip airlines_even (f := fun pairs => do
    let definitions ← Icao.fromPest pairs
    return definitions.foldl (fun acc (airline : Icao.Airline) => Map.insertIfNew acc airline.designator airline) [])
    (fun _ _ h => by simp only [airlines_from _ _ h]) h
end

/-! ## TopSkySettings.txt -/
section
open TopskySettings (parseSetting)

def settingsBig : Big TopskySettings.Rule := ⟨(· == .section_), (· == .settings), fun _ => false, fun _ => false, fun _ _ => true⟩

theorem settings_skip : EvenSkip settingsBig true TopskySettings.skip :=
  evenSkip_both (by decide) (by decide) (by decide) (by decide) (by decide) (by decide) (by decide) (by decide)

theorem settings_even : even settingsBig true TopskySettings.settings .nonAtomic false = true := by decide

theorem settings_one (t t' : Tree TopskySettings.Rule) (h : Alike settingsBig t t') :
    parseSetting t = parseSetting t' := by
  cases h with
  | same => rfl
  | @line r _ _ _ h => cases r <;> first | rfl | cases h
  | @box r _ _ _ _ h => cases r <;> first | rfl | cases h

theorem settings_same {s t : Str} (h : SameLines s t) : TopskySettings.parse s = TopskySettings.parse t :=
  run_sameLines settings_skip settings_even
    (fun _ _ h => h.first (f := fun k => do
      let found ← k.mapM parseSetting
      return (found.filterMap id).foldl TopskySettings.step ([], [])) fun _ _ h => by
        simp only [h.mapM settings_one]) h
end

/-! ## Symbology files -/
section

def symbologyBig : Big Symbology.Rule :=
  ⟨fun r => match r with
    | .header | .item | .footer | .moveto | .line | .fillarc | .fillarc_ellipse | .arc | .arc_ellipse | .ellipse
    | .ellipse_circle | .polygon | .pixel | .fillrect => true
    | _ => false, fun r => r == .symbology || r == .symbol, (· == .symbol), fun _ => false, fun _ _ => true⟩

theorem symbology_skip : EvenSkip symbologyBig true Symbology.skip :=
  evenSkip_one (by decide) (by decide) (by decide) (by decide)

theorem symbology_even : even symbologyBig true Symbology.symbology .nonAtomic false = true := by decide

theorem symbology_rule {F : Type} [F64 F] [SymbolRule.Close F] (t t' : Tree Symbology.Rule)
    (h : Alike symbologyBig t t') :
    SymbolRule.parseRule (F := F) Symbology.kindOf t = SymbolRule.parseRule Symbology.kindOf t' := by
  cases h with
  | same => rfl
  | line => rfl
  | @box r _ _ _ _ h => cases r <;> first | rfl | cases h

theorem symbology_step {F G : Type} [F64 F] [F64 G] [SymbolRule.Close F] (acc : Symbology.Symbology F G)
    (t t' : Tree Symbology.Rule) (h : Alike symbologyBig t t') : Symbology.step acc t = Symbology.step acc t' := by
  cases h with
  | same => rfl
  | line => rfl
  | @box r s s' k k' h hk hh hl =>
    cases r
    case symbol =>
      have h1 := hh rfl
      have : Symbology.parseSymbolRules (F := F) (.node .symbol s k) = Symbology.parseSymbolRules (.node .symbol s' k') := by
        cases hk with
        | nil => rfl
        | cons ht hk =>
          simp only [List.head?_cons, Option.some.injEq] at h1
          subst h1
          show (unwrap _ >>= _) = (unwrap _ >>= _)
          rw [hk.mapM symbology_rule]
      simp only [Symbology.step, Tree.asRule_node, this]
    all_goals first | rfl | cases h

theorem symbology_same {F G : Type} [F64 F] [F64 G] [SymbolRule.Close F] {s t : Str} (h : SameLines s t) :
    Symbology.parse (F := F) (G := G) s = Symbology.parse t :=
  run_sameLines symbology_skip symbology_even
    (fun _ _ h => h.first (f := fun k => k.foldlM Symbology.step ⟨[], []⟩) fun _ _ h => h.foldlM symbology_step _) h
end

end Verif.Proofs.LineEnds
