import Verif.Spec.Sources
import Verif.Props.TwoRuns
/-!
# Which file decides what: lemmas
-/

namespace Verif.Proofs.Sources
open Verif.Adaptation Verif.Spec.Adaptation Verif.Proofs.Adaptation Verif.Spec.Sources Verif.Props
open Verif.PrfPaths (Prf Path)
open Verif.Display (F32Ops)
open Verif.Dms (DmsArith)
open Verif.Parse.SymbolRule (Close)
open Verif.Locations (FloatOps Db SidStar Airport)

theorem bind_ok {E A B : Type} {x : Except E A} {f : A → Except E B} {b : B} : (x >>= f) = .ok b ↔ ∃ a, x = .ok a ∧ f a = .ok b := by
  cases x with
  | error e => exact ⟨fun h => (by cases h), fun ⟨_, h, _⟩ => (by cases h)⟩
  | ok a => exact ⟨fun h => ⟨a, rfl, h⟩, fun ⟨_, h, h'⟩ => (by cases h; exact h')⟩

/-! ### Locations -/

section
variable {F : Type}

/-- The maps have the same airports as far as `core` goes. -/
def Alike {B : Type} (core : Airport F → B) (m m' : Map Str (Airport F)) : Prop := ∀ d, (m.get? d).map core = (m'.get? d).map core

theorem alike_addIcao (m : Map Str (Airport F)) (e : Str × Locations.IcaoAirport) : Alike whereabouts (Locations.addIcao m e) m := by
  intro d
  unfold Locations.addIcao
  cases h : m.get? e.1 with
  | none => rfl
  | some ap =>
    simp only
    rw [Map.get?_insert]
    split
    · next hd =>
      subst hd
      rw [h]
      rfl
    · rfl

theorem alike_foldl {m : Map Str (Airport F)} (l : List (Str × Locations.IcaoAirport)) : Alike whereabouts (l.foldl Locations.addIcao m) m := by
  induction l generalizing m with
  | nil => exact fun _ => rfl
  | cons e l ih => exact fun d => (ih d).trans (alike_addIcao m e d)

variable [UnicodeTables] [FloatOps F]

/-- A database that finds the same things -/
structure Finds (db db' : Db F) : Prop where
  fixes : db'.fixes = db.fixes
  vors : db'.vors = db.vors
  ndbs : db'.ndbs = db.ndbs
  airports : Alike whereabouts db'.airports db.airports

theorem finds_convert {db db' : Db F} (h : Finds db db') (d : Str) : db'.convertDesignator d = db.convertDesignator d := by
  have ha : ∀ x, (db'.airports.get? x).map (fun ap => (⟨ap.designator, ap.coordinate⟩ : Locations.Fix F)) =
      (db.airports.get? x).map fun ap => (⟨ap.designator, ap.coordinate⟩ : Locations.Fix F) := by
    intro x
    have := h.airports x
    cases h1 : db'.airports.get? x <;> cases h2 : db.airports.get? x <;> simp_all [whereabouts]
  have hr : ∀ x, db'.convertRwy x = db.convertRwy x := by
    intro x
    unfold Db.convertRwy
    split
    · refine congrArg _ (funext fun p => ?_)
      have := h.airports p.1
      cases h1 : db'.airports.get? p.1 with
      | none => cases h2 : db.airports.get? p.1 <;> simp_all [whereabouts]
      | some a =>
        cases h2 : db.airports.get? p.1 with
        | none => simp_all [whereabouts]
        | some b =>
          simp only [h1, h2, Option.map_some, Option.some.injEq, whereabouts, Prod.mk.injEq] at this
          simp only [Option.bind_some, this.2.2]
          refine congrArg (fun f => List.findSome? f b.runways) (funext fun r => ?_)
          unfold Locations.runwayFix
          rw [this.1]
    · rfl
  have hf : ∀ x, db'.convertFix x = db.convertFix x := by
    intro x
    unfold Db.convertFix
    rw [h.fixes, h.vors, h.ndbs, ha, hr]
  unfold Db.convertDesignator Db.convertRangeBearing
  simp only [hf]

theorem finds_location {db db' : Db F} (h : Finds db db') (l : Locations.Location F) : db'.convertLocation l = db.convertLocation l := by
  cases l with
  | coordinate p => rfl
  | fix d => simp only [Db.convertLocation, finds_convert h]

/-- What is found does not depend on SIDs and STARs, and adding them changes nothing else. -/
theorem addSidStars_rest {db db' : Db F} {l : List SidStar} (h : db.addSidStars l = .ok db') :
    db' = { db with sids := db'.sids, stars := db'.stars } := by
  induction l generalizing db with
  | nil =>
    cases h
    rfl
  | cons s l ih =>
    unfold Db.addSidStars at h
    rw [Sources.bind_ok] at h
    obtain ⟨db1, h1, h2⟩ := h
    have e := ih h2
    cases s with
    | sid s =>
      unfold Db.addSidStar at h1
      rw [Sources.bind_ok] at h1
      obtain ⟨_, _, h1⟩ := h1
      cases h1
      exact e
    | star s =>
      unfold Db.addSidStar at h1
      rw [Sources.bind_ok] at h1
      obtain ⟨_, _, h1⟩ := h1
      cases h1
      exact e

theorem addSidStars_finds {db db' r r' : Db F} {l : List SidStar} (h : Finds db db') (hs : db'.sids = db.sids) (ht : db'.stars = db.stars)
    (hr : db.addSidStars l = .ok r) (hr' : db'.addSidStars l = .ok r') : r'.sids = r.sids ∧ r'.stars = r.stars := by
  induction l generalizing db db' with
  | nil =>
    cases hr
    cases hr'
    exact ⟨hs, ht⟩
  | cons s l ih =>
    unfold Db.addSidStars at hr hr'
    rw [Sources.bind_ok] at hr hr'
    obtain ⟨d, h1, h2⟩ := hr
    obtain ⟨d', h1', h2'⟩ := hr'
    cases s with
    | sid s =>
      unfold Db.addSidStar at h1 h1'
      simp only at h1 h1'
      rw [Locations.convertWaypoints_congr db' db (finds_convert h), Sources.bind_ok] at h1'
      rw [Sources.bind_ok] at h1
      obtain ⟨w, e, h1⟩ := h1
      obtain ⟨w', e', h1'⟩ := h1'
      cases Except.ok.inj (e.symm.trans e')
      cases h1
      cases h1'
      refine ih ?_ ?_ ?_ h2 h2'
      · exact ⟨h.fixes, h.vors, h.ndbs, h.airports⟩
      · simp only [hs]
      · exact ht
    | star s =>
      unfold Db.addSidStar at h1 h1'
      simp only at h1 h1'
      rw [Locations.convertWaypoints_congr db' db (finds_convert h), Sources.bind_ok] at h1'
      rw [Sources.bind_ok] at h1
      obtain ⟨w, e, h1⟩ := h1
      obtain ⟨w', e', h1'⟩ := h1'
      cases Except.ok.inj (e.symm.trans e')
      cases h1
      cases h1'
      refine ih ?_ ?_ ?_ h2 h2'
      · exact ⟨h.fixes, h.vors, h.ndbs, h.airports⟩
      · exact hs
      · simp only [ht]

theorem points_finds {db db' : Db F} (h : Finds db db') (l : List (Parse.Sct.Loc F)) :
    Model.SctItems.points db' l = Model.SctItems.points db l := by
  induction l with
  | nil => rfl
  | cons x l ih => simp only [Model.SctItems.points, finds_location h, ih]

theorem airwayLines_finds {db db' : Db F} (h : Finds db db') (l : List (Parse.Sct.Airway F)) :
    Model.SctItems.airwayLines db' l = Model.SctItems.airwayLines db l := by
  induction l with
  | nil => rfl
  | cons x l ih => simp only [Model.SctItems.airwayLines, finds_location h, ih]

variable [DecidableEq F]

theorem lines_finds {db db' : Db F} (h : Finds db db') (l : List (List (Parse.Sct.Loc F))) :
    Model.SctItems.lines db' l = Model.SctItems.lines db l := by
  induction l with
  | nil => rfl
  | cons x l ih => simp only [Model.SctItems.lines, points_finds h, ih]

theorem groups_finds {db db' : Db F} (h : Finds db db') (get : Str → Option Colours.Colour) (sid : Colours.Colour) (name : Str)
    (l : List (Lines.Group (Parse.Sct.Loc F))) : Model.SctItems.groups db' get sid name l = Model.SctItems.groups db get sid name l := by
  induction l with
  | nil => rfl
  | cons x l ih => simp only [Model.SctItems.groups, Model.SctItems.coloured, lines_finds h, ih]

theorem allGroups_finds {db db' : Db F} (h : Finds db db') (get : Str → Option Colours.Colour) (sid : Colours.Colour)
    (l : List (Parse.Sct.Drawing F)) : Model.SctItems.allGroups db' get sid l = Model.SctItems.allGroups db get sid l := by
  induction l with
  | nil => rfl
  | cons x l ih => simp only [Model.SctItems.allGroups, groups_finds h, ih]

theorem namedAirways_finds (fmt : F → Str) {db db' : Db F} (h : Finds db db') (l : List (Str × List (Parse.Sct.Airway F))) :
    Model.SctItems.namedAirways fmt db' l = Model.SctItems.namedAirways fmt db l := by
  induction l with
  | nil => rfl
  | cons x l ih => simp only [Model.SctItems.namedAirways, Model.SctItems.airwayToLines, airwayLines_finds h, ih]

theorem items_finds (fmt : F → Str) (o : List (Str × List (Parse.Sct.Airway F)) → List (Str × List (Parse.Sct.Airway F)))
    (sct : Parse.Sct.Sct F) {db db' : Db F} (h : Finds db db') (get : Str → Option Colours.Colour) (sid : Colours.Colour) :
    Model.SctItems.fromSct fmt o sct db' get sid = Model.SctItems.fromSct fmt o sct db get sid := by
  simp only [Model.SctItems.fromSct, Model.SctItems.drawings, Model.SctItems.airways, allGroups_finds h, namedAirways_finds fmt h]

/-- Regions and labels come from the sector file alone. -/
theorem items_rest {fmt : F → Str} {o : List (Str × List (Parse.Sct.Airway F)) → List (Str × List (Parse.Sct.Airway F))}
    {sct : Parse.Sct.Sct F} {db : Db F} {get : Str → Option Colours.Colour} {sid : Colours.Colour} {i : Model.SctItems.SctItems F}
    (h : Model.SctItems.fromSct fmt o sct db get sid = .ok i) :
    Model.SctItems.airways fmt db o sct.highAirways = .ok i.highAirways ∧ Model.SctItems.airways fmt db o sct.lowAirways = .ok i.lowAirways ∧
    i.regions = Model.SctItems.collect (sct.regions.map fun r => (r.name, r)) ∧
    i.labels = Model.SctItems.collect (sct.labels.map fun l => (l.name, l)) := by
  unfold Model.SctItems.fromSct at h
  simp only [Sources.bind_ok] at h
  obtain ⟨_, _, _, _, _, h1, _, h2, _, _, _, _, _, _, _, _, h⟩ := h
  cases h
  exact ⟨h1, h2, rfl, rfl⟩

theorem maps_finds {G : Type} [F32Ops G] (s : Display.MapsSettings F G) (get : Str → Option Colours.Colour) {db db' : Db F}
    (h : Finds db db') (t : Option (Parse.Topsky.Topsky F G)) : mapsOf s get db' t = mapsOf s get db t := by
  cases t with
  | none => rfl
  | some t =>
    show maps s get db' t = maps s get db t
    unfold maps
    simp only [finds_location h]

theorem maps_settings {G : Type} [F32Ops G] {s s' : Display.MapsSettings F G} (h1 : s'.fontSize = s.fontSize) (h2 : s'.layer = s.layer)
    (h3 : s'.autoFolder = s.autoFolder) (h4 : s'.labelOffset = s.labelOffset) (get : Str → Option Colours.Colour) (db : Db F)
    (t : Option (Parse.Topsky.Topsky F G)) : mapsOf s' get db t = mapsOf s get db t := by
  cases t with
  | none => rfl
  | some t =>
    show maps s' get db t = maps s get db t
    unfold maps
    simp only [h1, h2, h3, h4]

theorem airways_finds (fmt : F → Str) (o : List (Str × List (Parse.Sct.Airway F)) → List (Str × List (Parse.Sct.Airway F)))
    {db db' : Db F} (h : Finds db db') (l : List (Parse.Sct.Airway F)) :
    Model.SctItems.airways fmt db' o l = Model.SctItems.airways fmt db o l := by
  simp only [Model.SctItems.airways, namedAirways_finds fmt h]

theorem items_ext {i i' : Model.SctItems.SctItems F} (h1 : i'.sids = i.sids) (h2 : i'.stars = i.stars)
    (h3 : i'.highAirways = i.highAirways) (h4 : i'.lowAirways = i.lowAirways) (h5 : i'.artccsHigh = i.artccsHigh)
    (h6 : i'.artccs = i.artccs) (h7 : i'.artccsLow = i.artccsLow) (h8 : i'.geo = i.geo) (h9 : i'.regions = i.regions)
    (h10 : i'.labels = i.labels) : i' = i := by
  cases i
  cases i'
  simp only at *
  simp only [Model.SctItems.SctItems.mk.injEq, *, and_self]

end

section
variable {F G : Type} [F64 F] [F64 G] [F32Ops G]

/-- The settings, with the ASR files given -/
def settingsOf (items : Map (Str × Str) (Parse.Symbology.Item G)) (t : Option (Map Str Str)) (q : Option (List Settings.SquawkDef))
    (l : List Path) : Display.Settings F G where
  maps := Display.MapsSettings.fromEuroscope items t
  vector := match t with | some t => Display.Vector.fromTopsky t | none => Display.Vector.default G
  historyDots := match t with | some t => Display.HistoryDots.fromTopsky t | none => Display.HistoryDots.default
  coopans := Display.coopans t
  specialUseCodes := match q with | some s => Verif.Settings.specialUseCodes s | none => []
  asrFiles := l
  coordination := Display.defaultCoordination

theorem settings_eq {items : Map (Str × Str) (Parse.Symbology.Item G)} {t : Option (Map Str Str)} {q : Option (List Settings.SquawkDef)}
    {prf : Prf} {s : Display.Settings F G} (h : Display.Settings.fromEuroscope items t q prf = .ok s) :
    Display.recentPaths prf [1, 2, 3, 4, 5, 6, 7, 8, 9] = .ok s.asrFiles ∧ s = settingsOf items t q s.asrFiles := by
  unfold Display.Settings.fromEuroscope at h
  rw [Sources.bind_ok] at h
  obtain ⟨l, h1, h⟩ := h
  cases h
  exact ⟨h1, rfl⟩

end

section
variable {F G : Type} [F64 F] [DmsArith F] [DecidableEq F] [FloatOps F] [Close F] [F64 G] [F32Ops G] [UnicodeTables]

theorem ext {a a' : Adaptation F G} (h1 : a'.name = a.name) (h2 : a'.locations = a.locations) (h3 : a'.airways = a.airways)
    (h4 : a'.positions = a.positions) (h5 : a'.volumes = a.volumes) (h6 : a'.sectors = a.sectors)
    (h7 : a'.departureConstraints = a.departureConstraints) (h8 : a'.destinationConstraints = a.destinationConstraints)
    (h9 : a'.maps = a.maps) (h10 : a'.symbols = a.symbols) (h11 : a'.otherSymbols = a.otherSymbols)
    (h12 : a'.mapColours = a.mapColours) (h13 : a'.roleColours = a.roleColours) (h14 : a'.otherColours = a.otherColours)
    (h15 : a'.lineStyles = a.lineStyles) (h16 : a'.settings = a.settings) (h17 : a'.aircraft = a.aircraft)
    (h18 : a'.airlines = a.airlines) (h19 : a'.sctItems = a.sctItems) (h20 : a'.index = a.index) : a' = a := by
  cases a
  cases a'
  simp only at *
  simp only [Adaptation.mk.injEq, *, and_self]

variable [LE F] [DecidableLE F]

section
variable {env : Env F G} {r : Path → Option (List Spec.Decode.Byte)} {prf : Prf} {a a' : Adaptation F G}

theorem same_required {A : Type} {f : File} {parse : Str → Run A} {x x' : A} (h : Agree env r prf (.file f))
    (hx : required env f (path prf f) parse = .ok x) (hx' : required { env with read := r } f (path prf f) parse = .ok x') : x' = x := by
  rw [required_congr h, hx] at hx'
  exact (Except.ok.inj hx').symm

end
end
end Verif.Proofs.Sources
