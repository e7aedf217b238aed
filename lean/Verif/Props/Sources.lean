import Verif.Proofs.Sources
/-!
# C111: which file decides what in an adaptation

What must stay the same when a file is changed is said in `Verif.Spec.Sources`.
-/

namespace Verif.Props
open Verif.Adaptation Verif.Spec.Adaptation Verif.Proofs.Adaptation Verif.Spec.Sources Verif.Proofs.Sources
open Verif.PrfPaths (Prf Path)
open Verif.Display (F32Ops)
open Verif.Dms (DmsArith)
open Verif.Parse.SymbolRule (Close)
open Verif.Locations (FloatOps)

section
variable {F G : Type} [F64 F] [DmsArith F] [DecidableEq F] [FloatOps F] [Close F] [F64 G] [F32Ops G] [UnicodeTables]
variable {env : Env F G} {r : Path → Option (List Spec.Decode.Byte)} {prf : Prf}

theorem squawks_agree (h : Agree env r prf .squawks) : squawks { env with read := r } prf = squawks env prf := by
  unfold squawks
  show (lift (PrfPaths.squawksPath prf (env.order .settings prf.settings)) >>= _) = _
  cases hs : PrfPaths.squawksPath prf (env.order .settings prf.settings) with
  | error e => rfl
  | ok path =>
    cases path with
    | none => rfl
    | some p =>
      show Except.ok ((r p).bind env.squawks) = Except.ok ((env.read p).bind env.squawks)
      rw [h p hs]

theorem topsky_agree (h : Agree env r prf .topsky) : topsky { env with read := r } prf = topsky env prf := by
  unfold topsky
  show (lift (PrfPaths.topskyPath prf (env.order .settings prf.settings)) >>= _) = _
  cases hs : PrfPaths.topskyPath prf (env.order .settings prf.settings) with
  | error e => rfl
  | ok path =>
    cases path with
    | none => rfl
    | some d =>
      have h3 : ∀ n ∈ [c!"TopSkySettings.txt", c!"TopSkySymbols.txt", c!"TopSkyMaps.txt"],
          text { env with read := r } (PrfPaths.join d n) = text env (PrfPaths.join d n) := by
        intro n hn
        unfold text
        show (r _).map _ = _
        rw [h d hs n hn]
      simp only [lift, bind, Except.bind, h3 c!"TopSkySettings.txt" (by simp), h3 c!"TopSkySymbols.txt" (by simp), h3 c!"TopSkyMaps.txt" (by simp)]

variable [LE F] [DecidableLE F]
variable {a a' : Adaptation F G}

/-- **C111.** When only one file is changed, or only the squawks or TopSky, and both before and after an adaptation is loaded, it
is the same but for the parts that come from there. -/
theorem C111_keeps {s : Source} (h : OnlyChanged env r prf s) (ha : fromPrf env prf = .ok a)
    (ha' : fromPrf { env with read := r } prf = .ok a') : Keeps s a a' := by
  obtain ⟨x⟩ := steps ha
  obtain ⟨y⟩ := steps ha'
  -- what comes from a file
  have esct : s ≠ .file .sct → y.sct = x.sct := fun hs => same_required (h _ hs.symm) x.hsct y.hsct
  have eese : s ≠ .file .ese → y.ese = x.ese := fun hs => same_required (h _ hs.symm) x.hese y.hese
  have eairways : s ≠ .file .airways → a'.airways = a.airways := fun hs => same_required (h _ hs.symm) x.hairways y.hairways
  have esymb : s ≠ .file .symbology → y.symbology = x.symbology := fun hs => same_required (h _ hs.symm) x.hsymbology y.hsymbology
  have eicao : s ≠ .file .airports → y.airports = x.airports := fun hs => same_required (h _ hs.symm) x.hairports y.hairports
  have enav : s ≠ .file .navdata → y.navdata = x.navdata := fun hs => same_required (h _ hs.symm) x.hnavdata y.hnavdata
  have eaircraft : s ≠ .file .aircraft → a'.aircraft = a.aircraft := fun hs => same_required (h _ hs.symm) x.haircraft y.haircraft
  have eairlines : s ≠ .file .airlines → a'.airlines = a.airlines := fun hs => same_required (h _ hs.symm) x.hairlines y.hairlines
  have esq : s ≠ .squawks → y.squawks = x.squawks := fun hs => by
    have := y.hsquawks
    rw [squawks_agree (h _ hs.symm), x.hsquawks] at this
    exact (Except.ok.inj this).symm
  have etop : s ≠ .topsky → y.topsky = x.topsky := fun hs => by
    have := y.htopsky
    rw [topsky_agree (h _ hs.symm), x.htopsky] at this
    exact (Except.ok.inj this).symm
  -- what comes from several
  have ename : y.sct = x.sct → a'.name = a.name := fun e => by rw [x.hname, y.hname, e]
  have epos : y.ese = x.ese → a'.positions = a.positions := fun e => by rw [x.hpositions, y.hpositions, e]
  have esec : y.ese = x.ese → a'.volumes = a.volumes ∧ a'.sectors = a.sectors := fun e => by
    have := y.hsectors
    rw [e] at this
    have := Except.ok.inj (x.hsectors.symm.trans this)
    exact ⟨(congrArg Prod.fst this).symm, (congrArg Prod.snd this).symm⟩
  have econ : y.ese = x.ese →
      a'.departureConstraints = a.departureConstraints ∧ a'.destinationConstraints = a.destinationConstraints := fun e => by
    have h1 := x.hconstraints
    have h2 := y.hconstraints
    rw [e, ← h1] at h2
    exact ⟨congrArg Prod.fst h2, congrArg Prod.snd h2⟩
  have eindex : y.ese = x.ese → a'.index = a.index := fun e => by
    rw [x.hindex, y.hindex, (esec e).1, (esec e).2]
  obtain ⟨asr, eset⟩ := settings_eq x.hsettings
  obtain ⟨asr', eset'⟩ := settings_eq y.hsettings
  have easr : a'.settings.asrFiles = a.settings.asrFiles := (Except.ok.inj (asr.symm.trans asr')).symm
  rw [easr] at eset'
  have ecoop : y.topsky = x.topsky → a'.settings.coopans = a.settings.coopans := fun e => by
    rw [eset, eset', e]
    rfl
  have eother : y.sct = x.sct → y.topsky = x.topsky → a'.otherColours = a.otherColours := fun e f => by
    rw [x.hother, y.hother, e, f]
  have erole : y.topsky = x.topsky → a'.roleColours = a.roleColours := fun e => by
    rw [x.hroleColours, y.hroleColours, e, ecoop e]
  have emapc : y.symbology = x.symbology → a'.mapColours = a.mapColours := fun e => by rw [x.hmapColours, y.hmapColours, e]
  have esym : y.symbology = x.symbology → y.topsky = x.topsky → a'.symbols = a.symbols := fun e f => by
    rw [x.hsymbols, y.hsymbols, e, f]
  have eosym : y.topsky = x.topsky → a'.otherSymbols = a.otherSymbols := fun f => by rw [x.hotherSymbols, y.hotherSymbols, f]
  have estyles : y.topsky = x.topsky → a'.lineStyles = a.lineStyles := fun f => by rw [x.hlineStyles, y.hlineStyles, f]
  have eset0 : y.symbology = x.symbology → y.topsky = x.topsky → y.squawks = x.squawks → a'.settings = a.settings := fun e f g => by
    rw [eset, eset', e, f, g]
  have ebase := addSidStars_rest x.hlocations
  have ebase' := addSidStars_rest y.hlocations
  have eloc : y.sct = x.sct → y.ese = x.ese → y.airports = x.airports → y.navdata = x.navdata → a'.locations = a.locations :=
    fun e f g i => by
      have := y.hlocations
      rw [e, f, g, i] at this
      exact (Except.ok.inj (x.hlocations.symm.trans this)).symm
  have emaps : Finds a.locations a'.locations → y.topsky = x.topsky → y.sct = x.sct → a'.maps = a.maps := fun e f g => by
    have hm := y.hmaps
    have hs := maps_settings (F := F) (G := G) (s := a.settings.maps) (s' := a'.settings.maps)
      (by rw [eset, eset', f]; rfl) (by rw [eset, eset']; rfl) (by rw [eset, eset']; rfl) (by rw [eset, eset']; rfl)
    rw [hs, maps_finds _ _ e, f, eother g f, ecoop f] at hm
    exact (Except.ok.inj (x.hmaps.symm.trans hm)).symm
  have eitems : Finds a.locations a'.locations → y.sct = x.sct → y.topsky = x.topsky → y.symbology = x.symbology →
      a'.sctItems = a.sctItems := fun e f g i => by
    have := y.hitems
    rw [f, eother f g, ecoop g, emapc i] at this
    have := (items_finds _ _ _ e _ _).symm.trans this
    exact (Except.ok.inj (x.hitems.symm.trans this)).symm
  have erest : y.sct = x.sct → a'.sctItems.regions = a.sctItems.regions ∧ a'.sctItems.labels = a.sctItems.labels := fun e => by
    obtain ⟨_, _, h1, h2⟩ := items_rest x.hitems
    obtain ⟨_, _, h1', h2'⟩ := items_rest y.hitems
    exact ⟨by rw [h1, h1', e], by rw [h2, h2', e]⟩
  have eitemsAirways : Finds a.locations a'.locations → y.sct = x.sct →
      a'.sctItems.highAirways = a.sctItems.highAirways ∧ a'.sctItems.lowAirways = a.sctItems.lowAirways := fun e f => by
    obtain ⟨h1, h2, _, _⟩ := items_rest x.hitems
    obtain ⟨h1', h2', _, _⟩ := items_rest y.hitems
    rw [f] at h1' h2'
    exact ⟨(Except.ok.inj (h1.symm.trans ((airways_finds _ _ e _).symm.trans h1'))).symm,
      (Except.ok.inj (h2.symm.trans ((airways_finds _ _ e _).symm.trans h2'))).symm⟩
  have fsame : a'.locations = a.locations → Finds a.locations a'.locations := fun e => by
    rw [e]
    exact ⟨rfl, rfl, rfl, fun _ => rfl⟩
  cases s with
  | squawks =>
    have e1 := esct (by decide)
    have e2 := eese (by decide)
    have e3 := etop (by decide)
    have e4 := esymb (by decide)
    have e6 := eicao (by decide)
    have e6n := enav (by decide)
    have e7 := eairways (by decide)
    have e8 := eaircraft (by decide)
    have e9 := eairlines (by decide)
    have el := eloc e1 e2 e6 e6n
    have ef := fsame el
    exact ext (ename e1) (el) (e7) (epos e2) ((esec e2).1) ((esec e2).2) ((econ e2).1) ((econ e2).2) (emaps ef e3 e1) (esym e4 e3) (eosym e3) (emapc e4) (erole e3) (eother e1 e3) (estyles e3) (by rw [eset, eset', e4, e3]; rfl) (e8) (e9) (eitems ef e1 e3 e4) (eindex e2)
  | topsky =>
    have e1 := esct (by decide)
    have e2 := eese (by decide)
    have e4 := esymb (by decide)
    have e5 := esq (by decide)
    have e6 := eicao (by decide)
    have e6n := enav (by decide)
    have e7 := eairways (by decide)
    have e8 := eaircraft (by decide)
    have e9 := eairlines (by decide)
    have el := eloc e1 e2 e6 e6n
    have ef := fsame el
    exact ext (ename e1) (el) (e7) (epos e2) ((esec e2).1) ((esec e2).2) ((econ e2).1) ((econ e2).2) rfl rfl rfl (emapc e4) rfl rfl rfl (by rw [eset, eset', e4, e5]; rfl) (e8) (e9) ((by obtain ⟨q1, q2⟩ := eitemsAirways ef e1; obtain ⟨q3, q4⟩ := erest e1; exact items_ext rfl rfl q1 q2 rfl rfl rfl rfl q3 q4)) (eindex e2)
  | file f =>
    cases f with
    | sct =>
      have e2 := eese (by decide)
      have e3 := etop (by decide)
      have e4 := esymb (by decide)
      have e5 := esq (by decide)
      have e6 := eicao (by decide)
      have e6n := enav (by decide)
      have e7 := eairways (by decide)
      have e8 := eaircraft (by decide)
      have e9 := eairlines (by decide)
      exact ext rfl rfl (e7) (epos e2) ((esec e2).1) ((esec e2).2) ((econ e2).1) ((econ e2).2) rfl (esym e4 e3) (eosym e3) (emapc e4) (erole e3) rfl (estyles e3) (eset0 e4 e3 e5) (e8) (e9) rfl (eindex e2)
    | ese =>
      have e1 := esct (by decide)
      have e3 := etop (by decide)
      have e4 := esymb (by decide)
      have e5 := esq (by decide)
      have e6 := eicao (by decide)
      have e6n := enav (by decide)
      have e7 := eairways (by decide)
      have e8 := eaircraft (by decide)
      have e9 := eairlines (by decide)
      rw [e1, e6, e6n] at ebase'
      have el : a'.locations = { a.locations with sids := a'.locations.sids, stars := a'.locations.stars } := by
        rw [ebase', ebase]
      have ef : Finds a.locations a'.locations := by
        rw [el]
        exact ⟨rfl, rfl, rfl, fun _ => rfl⟩
      exact ext (ename e1) (el) (e7) rfl rfl rfl rfl rfl (emaps ef e3 e1) (esym e4 e3) (eosym e3) (emapc e4) (erole e3) (eother e1 e3) (estyles e3) (eset0 e4 e3 e5) (e8) (e9) (eitems ef e1 e3 e4) rfl
    | airways =>
      have e1 := esct (by decide)
      have e2 := eese (by decide)
      have e3 := etop (by decide)
      have e4 := esymb (by decide)
      have e5 := esq (by decide)
      have e6 := eicao (by decide)
      have e6n := enav (by decide)
      have e8 := eaircraft (by decide)
      have e9 := eairlines (by decide)
      have el := eloc e1 e2 e6 e6n
      have ef := fsame el
      exact ext (ename e1) (el) rfl (epos e2) ((esec e2).1) ((esec e2).2) ((econ e2).1) ((econ e2).2) (emaps ef e3 e1) (esym e4 e3) (eosym e3) (emapc e4) (erole e3) (eother e1 e3) (estyles e3) (eset0 e4 e3 e5) (e8) (e9) (eitems ef e1 e3 e4) (eindex e2)
    | symbology =>
      have e1 := esct (by decide)
      have e2 := eese (by decide)
      have e3 := etop (by decide)
      have e5 := esq (by decide)
      have e6 := eicao (by decide)
      have e6n := enav (by decide)
      have e7 := eairways (by decide)
      have e8 := eaircraft (by decide)
      have e9 := eairlines (by decide)
      have el := eloc e1 e2 e6 e6n
      have ef := fsame el
      exact ext (ename e1) (el) (e7) (epos e2) ((esec e2).1) ((esec e2).2) ((econ e2).1) ((econ e2).2) (emaps ef e3 e1) rfl (eosym e3) rfl (erole e3) (eother e1 e3) (estyles e3) (by rw [eset, eset', e3, e5]; rfl) (e8) (e9) ((by obtain ⟨q1, q2⟩ := eitemsAirways ef e1; obtain ⟨q3, q4⟩ := erest e1; exact items_ext rfl rfl q1 q2 rfl rfl rfl rfl q3 q4)) (eindex e2)
    | airports =>
      have e1 := esct (by decide)
      have e2 := eese (by decide)
      have e3 := etop (by decide)
      have e4 := esymb (by decide)
      have e5 := esq (by decide)
      have e6n := enav (by decide)
      have e7 := eairways (by decide)
      have e8 := eaircraft (by decide)
      have e9 := eairlines (by decide)
      have hy := y.hlocations
      rw [e1, e6n] at ebase'
      rw [e1, e2, e6n] at hy
      have hb : Finds (Locations.baseDb (sctData x.sct)
          ((env.order .navdata x.navdata).map fun e => (e.1, ⟨e.2.designator, e.2.name, (e.2.location.x, e.2.location.y)⟩))
          ((env.order .airports x.airports).map fun e => (e.1, ⟨e.2.name, e.2.country⟩)))
        (Locations.baseDb (sctData x.sct)
          ((env.order .navdata x.navdata).map fun e => (e.1, ⟨e.2.designator, e.2.name, (e.2.location.x, e.2.location.y)⟩))
          ((env.order .airports y.airports).map fun e => (e.1, ⟨e.2.name, e.2.country⟩))) :=
        ⟨rfl, rfl, rfl, fun d => (alike_foldl _ d).trans (alike_foldl _ d).symm⟩
      obtain ⟨hs, ht⟩ := addSidStars_finds hb rfl rfl x.hlocations hy
      have hair : ∀ d, (a'.locations.airports.get? d).map whereabouts = (a.locations.airports.get? d).map whereabouts := by
        rw [ebase', ebase]
        exact hb.airports
      have el : a'.locations = { a.locations with airports := a'.locations.airports } := by
        rw [← hs, ← ht] at ebase
        rw [ebase', ebase]
        rfl
      have ef : Finds a.locations a'.locations := by
        refine ⟨?_, ?_, ?_, hair⟩ <;> rw [el]
      refine ⟨?_, hair⟩
      exact ext (ename e1) (el) (e7) (epos e2) ((esec e2).1) ((esec e2).2) ((econ e2).1) ((econ e2).2) (emaps ef e3 e1) (esym e4 e3) (eosym e3) (emapc e4) (erole e3) (eother e1 e3) (estyles e3) (eset0 e4 e3 e5) (e8) (e9) (eitems ef e1 e3 e4) (eindex e2)
    | navdata =>
      have e1 := esct (by decide)
      have e2 := eese (by decide)
      have e3 := etop (by decide)
      have e4 := esymb (by decide)
      have e5 := esq (by decide)
      have e6 := eicao (by decide)
      have e7 := eairways (by decide)
      have e8 := eaircraft (by decide)
      have e9 := eairlines (by decide)
      rw [e1, e6] at ebase'
      have el : a'.locations = { a.locations with
          airports := a'.locations.airports, sids := a'.locations.sids, stars := a'.locations.stars } := by
        rw [ebase', ebase]
        rfl
      exact ext (ename e1) (el) (e7) (epos e2) ((esec e2).1) ((esec e2).2) ((econ e2).1) ((econ e2).2) rfl (esym e4 e3) (eosym e3) (emapc e4) (erole e3) (eother e1 e3) (estyles e3) (eset0 e4 e3 e5) (e8) (e9) ((by obtain ⟨q3, q4⟩ := erest e1; exact items_ext rfl rfl rfl rfl rfl rfl rfl rfl q3 q4)) (eindex e2)
    | aircraft =>
      have e1 := esct (by decide)
      have e2 := eese (by decide)
      have e3 := etop (by decide)
      have e4 := esymb (by decide)
      have e5 := esq (by decide)
      have e6 := eicao (by decide)
      have e6n := enav (by decide)
      have e7 := eairways (by decide)
      have e9 := eairlines (by decide)
      have el := eloc e1 e2 e6 e6n
      have ef := fsame el
      exact ext (ename e1) (el) (e7) (epos e2) ((esec e2).1) ((esec e2).2) ((econ e2).1) ((econ e2).2) (emaps ef e3 e1) (esym e4 e3) (eosym e3) (emapc e4) (erole e3) (eother e1 e3) (estyles e3) (eset0 e4 e3 e5) rfl (e9) (eitems ef e1 e3 e4) (eindex e2)
    | airlines =>
      have e1 := esct (by decide)
      have e2 := eese (by decide)
      have e3 := etop (by decide)
      have e4 := esymb (by decide)
      have e5 := esq (by decide)
      have e6 := eicao (by decide)
      have e6n := enav (by decide)
      have e7 := eairways (by decide)
      have e8 := eaircraft (by decide)
      have el := eloc e1 e2 e6 e6n
      have ef := fsame el
      exact ext (ename e1) (el) (e7) (epos e2) ((esec e2).1) ((esec e2).2) ((econ e2).1) ((econ e2).2) (emaps ef e3 e1) (esym e4 e3) (eosym e3) (emapc e4) (erole e3) (eother e1 e3) (estyles e3) (eset0 e4 e3 e5) (e8) rfl (eitems ef e1 e3 e4) (eindex e2)

/-- **C111, airports of the sector file.** When only the navdata is changed, the airports of the sector file keep all but their names. -/
theorem C111_navdata_airports (h : OnlyChanged env r prf (.file .navdata)) (ho : AnyOrder env) (ha : fromPrf env prf = .ok a)
    (ha' : fromPrf { env with read := r } prf = .ok a') {sct : Parse.Sct.Sct F} (hs : Parsed env prf .sct Parse.Sct.parse sct)
    {x : Parse.Sct.Airport F} (hx : x ∈ sct.airports) :
    (a'.locations.airports.get? x.designator).map unnamed = (a.locations.airports.get? x.designator).map unnamed := by
  obtain ⟨s⟩ := steps ha
  obtain ⟨t⟩ := steps ha'
  have e1 : t.sct = s.sct := same_required (h (.file .sct) (by decide)) s.hsct t.hsct
  have e2 : t.airports = s.airports := same_required (h (.file .airports) (by decide)) s.hairports t.hairports
  have e3 : s.sct = sct := parsed_unique (required_ok.1 s.hsct) hs
  have p1 := C84_airports ha ho (required_ok.1 s.hsct) (required_ok.1 s.hairports) (required_ok.1 s.hnavdata) x.designator
  have p2 := C84_airports ha' ho (required_ok.1 t.hsct) (required_ok.1 t.hairports) (required_ok.1 t.hnavdata) x.designator
  simp only at p1 p2
  rw [p1, p2, e1, e2, e3]
  cases hl : (sct.airports.filter (·.designator = x.designator)).getLast? with
  | none =>
    rw [List.getLast?_eq_none_iff, List.filter_eq_nil_iff] at hl
    exact absurd (decide_eq_true rfl) (hl x hx)
  | some y => rfl

end
end Verif.Props
