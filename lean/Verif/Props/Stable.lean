import Verif.Props.Contains
import Verif.Props.AdaptationVolumes
/-!
# C107: the order of hash maps and hash sets does not decide which sector is found

`polygon_from_ese` begins with an arbitrary point of a hash set, and sectors are read from a hash map in an arbitrary order; both
orders differ from one run of the program to the next.  The words of the statements are in `Verif.Spec.Contains`,
`Verif.Spec.Polygon` and `Verif.Spec.Adaptation`.
-/

namespace Verif.Props
open Verif.Contains Verif.Contains.Spec
open Verif.Polygon (pairs polygonFromEse borderLines)
open Verif.Polygon.Spec (Chooses IsCircuit lineCount)
open Verif.Adaptation Verif.Spec.Adaptation Verif.Proofs.Adaptation
open Verif.PrfPaths (Prf Path)
open Verif.Display (F32Ops)
open Verif.Dms (DmsArith)
open Verif.Parse.SymbolRule (Close)
open Verif.Locations (FloatOps)
open Verif.SectorIndex.Spec

/-- What `make_ccw_winding` may do to a border: leave it, or turn it round. -/
def TurnsRound {P : Type} (wind : List P → List P) : Prop := ∀ l, wind l = l ∨ wind l = l.reverse

section
variable {V P : Type} [DecidableEq V]

omit [DecidableEq V] in
theorem closed_map {Q : Type} {ring : List V} (f : V → Q) (h : ring.head? = ring.getLast?) : (ring.map f).head? = (ring.map f).getLast? := by
  rw [List.head?_map, List.getLast?_map, h]

/-- Closed walks along the lines of a simple loop contain the same points. -/
theorem circuits_contain {lines lines' : List (V × V)} {ring ring' : List V} (hr : IsCircuit lines ring) (hr' : IsCircuit lines' ring')
    (h : ∀ a b, lineCount lines a b = lineCount lines' a b) (hs : SimpleLoop lines) (f : V → Coord) (p : Coord) :
    contains (ring'.map f) p = contains (ring.map f) p := by
  have hl : ∀ a b, lineCount (pairs ring') a b = lineCount (pairs ring) a b := fun a b => by rw [hr.covers, hr'.covers, h]
  have hd : ∀ v, Polygon.Spec.degree (pairs ring) v ≤ 2 := fun v => by
    rw [Polygon.degree_eq_of_lineCount hr.covers]; exact hs v
  refine contains_congr (closed_map f hr.closed) (closed_map f hr'.closed) ?_ p
  rw [pairs_map, pairs_map]
  rcases Polygon.loop_unique hr'.closed hl hd with h1 | h1
  · exact .inl (h1.map _)
  · right
    have := h1.map fun e : V × V => (f e.1, f e.2)
    rw [List.map_map] at this ⊢
    exact this

theorem wind_contains {wind : List P → List P} (hw : TurnsRound wind) (val : P → Coord) {l : List P} (hc : l.head? = l.getLast?) (p : Coord) :
    contains ((wind l).map val) p = contains (l.map val) p := by
  rcases hw l with h | h
  · rw [h]
  · rw [h, List.map_reverse, contains_reverse (closed_map val hc)]

/-- **C107.** The same points are in the polygon of a border whichever point of it the polygon begins with, however it is turned,
and in whatever order and direction the lines of the border are given: as long as no more than two lines meet in any point of it.
What is missing is that of other borders, for which it is not true. -/
theorem C107_loop_partial (quantize : P → V) (dequantize : V → P) (val : P → Coord) (choose choose' : List V → Option V)
    (hch : Chooses choose) (hch' : Chooses choose') (wind wind' : List P → List P) (hw : TurnsRound wind) (hw' : TurnsRound wind')
    (border border' : List (List P))
    (h : ∀ a b, lineCount (borderLines quantize border) a b = lineCount (borderLines quantize border') a b)
    (hs : SimpleLoop (borderLines quantize border)) (poly poly' : List P)
    (hp : polygonFromEse quantize dequantize choose border = .ok (some poly))
    (hp' : polygonFromEse quantize dequantize choose' border' = .ok (some poly')) (p : Coord) :
    contains ((wind poly).map val) p = contains ((wind' poly').map val) p := by
  obtain ⟨ring, hr, rfl⟩ := Polygon.C21_polygon_sound quantize dequantize choose hch border poly hp
  obtain ⟨ring', hr', rfl⟩ := Polygon.C21_polygon_sound quantize dequantize choose' hch' border' poly' hp'
  rw [wind_contains hw val (closed_map _ hr.closed), wind_contains hw' val (closed_map _ hr'.closed), List.map_map, List.map_map]
  exact (circuits_contain hr hr' h hs _ p).symm

end

/-! ### Loading and finding -/

section
variable {F G L : Type} [F64 F] [DmsArith F] [DecidableEq F] [FloatOps F] [Close F] [F64 G] [F32Ops G] [UnicodeTables]
  [LE F] [DecidableLE F]

/-- Two runs of the program: they may differ in the order of hash maps and hash sets, and in nothing that matters to sectors. -/
structure SameButOrder (env env' : Env F G) : Prop where
  quantize : env'.quantize = env.quantize
  dequantize : env'.dequantize = env.dequantize
  choose : Chooses env.choose
  choose' : Chooses env'.choose
  turns : TurnsRound env.ccw
  turns' : TurnsRound env'.ccw
  order : AnyOrder env
  order' : AnyOrder env'

/-- No more than two lines meet in any point of a border of the ESE file. -/
def SimpleBorders (env : Env F G) (ese : Parse.Ese.Ese F) : Prop :=
  ∀ id e, ese.sectors.get? id = some e → SimpleLoop (borderLines env.quantize (e.border.map fun l => l.map fun p => (p.x, p.y)))

omit [F64 F] [DmsArith F] [FloatOps F] [Close F] [F64 G] [UnicodeTables] [LE F] [DecidableLE F] in
/-- **C107.** The sectors of the ESE file that are around a position are the same in each run. -/
theorem C107_around_partial {env env' : Env F G} (hs : SameButOrder env env') {ese : Parse.Ese.Ese F} (hb : SimpleBorders env ese)
    (val : F → Rat) (q : SectorIndex.Env F L) (p : F × F) (level : L) (id : Str) (e : EseAirspace.Sector (List (Parse.Point F))) :
    Around env (withGeo val q) ese p level id e ↔ Around env' (withGeo val q) ese p level id e := by
  have key : ∀ {env env' : Env F G}, SameButOrder env env' → SimpleBorders env ese →
      Around env (withGeo val q) ese p level id e → Around env' (withGeo val q) ese p level id e := by
    rintro env env' hs hb ⟨h1, h2, ⟨border, h3, h4⟩, h5⟩
    refine ⟨h1, h2, ?_, h5⟩
    obtain ⟨border', h6⟩ := (Polygon.C22_choice_independent env.quantize env.dequantize env.choose env'.choose hs.choose hs.choose'
      (e.border.map fun l => l.map fun p => (p.x, p.y))).1 ⟨border, h3⟩
    refine ⟨border', by rw [hs.quantize, hs.dequantize]; exact h6, ?_⟩
    have := C107_loop_partial env.quantize env.dequantize (fun q : F × F => (val q.1, val q.2)) env.choose env'.choose hs.choose
      hs.choose' env.ccw env'.ccw hs.turns hs.turns' _ _ (fun _ _ => rfl) (hb id e h1) border border' h3 h6 (val p.1, val p.2)
    exact this.symm.trans h4
  refine ⟨key hs hb, key ⟨hs.quantize.symm, hs.dequantize.symm, hs.choose', hs.choose, hs.turns', hs.turns, hs.order', hs.order⟩ ?_⟩
  intro i d hd
  rw [hs.quantize]
  exact hb i d hd

/-- **C107.** Two runs of the program that load the same files find a sector at the same positions and levels. -/
theorem C107_find_none_partial [Std.IsLinearPreorder F] {env env' : Env F G} (hs : SameButOrder env env') {prf : Prf}
    {a a' : Adaptation F G} (h : fromPrf env prf = .ok a) (h' : fromPrf env' prf = .ok a') {ese : Parse.Ese.Ese F}
    (he : Parsed env prf .ese (Parse.Ese.parse (F := F) G) ese) (he' : Parsed env' prf .ese (Parse.Ese.parse (F := F) G) ese)
    (hb : SimpleBorders env ese) (val : F → Rat) (hv : ∀ a b, val a ≤ val b → a ≤ b) (q : SectorIndex.Env F L)
    (hq : ShufflePerm q) (p : F × F) (level : L) :
    findSector env (withGeo val q) a p level = none ↔ findSector env' (withGeo val q) a' p level = none := by
  have hc := C106_within_extent val hv q
  rw [C78_find_none hs.order h he _ hc hq, C78_find_none hs.order' h' he' _ hc hq]
  simp only [C107_around_partial hs hb]

/-- **C107.** If all sectors of the ESE file around a position and level have the same owners, two runs of the program find sectors
of those owners there. -/
theorem C107_owners_partial [Std.IsLinearPreorder F] {env env' : Env F G} (hs : SameButOrder env env') {prf : Prf}
    {a a' : Adaptation F G} (h : fromPrf env prf = .ok a) (h' : fromPrf env' prf = .ok a') {ese : Parse.Ese.Ese F}
    (he : Parsed env prf .ese (Parse.Ese.parse (F := F) G) ese) (he' : Parsed env' prf .ese (Parse.Ese.parse (F := F) G) ese)
    (hb : SimpleBorders env ese) (val : F → Rat) (hv : ∀ a b, val a ≤ val b → a ≤ b) (q : SectorIndex.Env F L)
    (hq : ShufflePerm q) (p : F × F) (level : L)
    (ho : ∀ id e id' e', Around env (withGeo val q) ese p level id e → Around env (withGeo val q) ese p level id' e' →
      e.ownerPriority = e'.ownerPriority) {sid sid' : Str}
    (hf : findSector env (withGeo val q) a p level = some sid) (hf' : findSector env' (withGeo val q) a' p level = some sid') :
    ∃ s s', a.sectors.get? sid = some s ∧ a'.sectors.get? sid' = some s' ∧ s.positionPriority = s'.positionPriority := by
  have hc := C106_within_extent val hv q
  obtain ⟨s, id, e, _, h1, _, h3, h4, _⟩ := C78_find_some hs.order h he _ hc hq hf
  obtain ⟨s', id', e', _, h1', _, h3', h4', _⟩ := C78_find_some hs.order' h' he' _ hc hq hf'
  refine ⟨s, s', h1, h1', ?_⟩
  rw [h4, h4']
  exact ho id e id' e' h3 ((C107_around_partial hs hb val q p level id' e').2 h3')

end

/-! ### Where it is not so -/

/-- A square with a corner of which a triangle inside of it has in common: four lines meet there. -/
def enclave : List (List (Int × Int)) := [[(0, 0), (10, 0), (10, 10), (0, 10), (0, 0)], [(0, 0), (5, 1), (1, 5), (0, 0)]]

/-- A hash set that begins with `v` whenever it has that. -/
def preferring (v : Int × Int) (l : List (Int × Int)) : Option (Int × Int) := if v ∈ l then some v else l.head?

theorem preferring_chooses (v : Int × Int) : Chooses (preferring v) := by
  intro l
  unfold preferring
  constructor
  · rintro rfl; simp
  · intro h
    by_cases hv : v ∈ l
    · rw [if_pos hv]; exact ⟨v, hv, rfl⟩
    · rw [if_neg hv]
      cases l with
      | nil => exact absurd rfl h
      | cons a l => exact ⟨a, by simp, rfl⟩

/-- The value of an integer point. -/
def valInt (p : Int × Int) : Coord := (p.1, p.2)

/-- **C107 is not true of all borders.** Where four lines meet it depends on the point that the hash set yields first whether the
triangle is in the polygon or is left out of it: the two parts are passed in the same direction or in opposite directions. -/
theorem C107_depends : ∃ choose choose' poly poly', Chooses choose ∧ Chooses choose' ∧
    polygonFromEse id id choose enclave = .ok (some poly) ∧ polygonFromEse id id choose' enclave = .ok (some poly') ∧
    contains (poly.map valInt) (2, 2) = true ∧ contains (poly'.map valInt) (2, 2) = false :=
  ⟨preferring (0, 0), preferring (5, 1), _, _, preferring_chooses _, preferring_chooses _,
    (by decide +kernel : polygonFromEse id id (preferring (0, 0)) enclave = .ok (some [(0, 0), (10, 0), (10, 10), (0, 10), (0, 0), (5, 1), (1, 5), (0, 0)])),
    (by decide +kernel : polygonFromEse id id (preferring (5, 1)) enclave = .ok (some [(5, 1), (0, 0), (10, 0), (10, 10), (0, 10), (0, 0), (1, 5), (5, 1)])),
    by decide +kernel, by decide +kernel⟩

end Verif.Props
