import Verif.Proofs.SctItems
import Verif.Props.Locations
import Verif.Base.ShowNat
/-!
# The drawn items of a sector file: theorems

C70 and C71.  The specification is in `Verif/Spec/SctItems.lean`.
-/

namespace Verif.Props
open Verif.Model.SctItems Verif.Spec.SctItems Verif.Proofs.SctItems
open Verif.Locations.Spec (OnlyAsciiDigits)
open Verif.Locations (Db FloatOps Point)
open Verif.Colours (Colour)

section
variable {F : Type} [FloatOps F] [UnicodeTables] [DecidableEq F]
  (fmt : F → Str) (order : List (Str × List (Parse.Sct.Airway F)) → List (Str × List (Parse.Sct.Airway F)))
  (sct : Parse.Sct.Sct F) (db : Db F) (get : Str → Option Colour) (sid : Colour)

/-- Everything that is drawn. -/
theorem sct_items (ho : ∀ l, (order l).Perm l) (place : Parse.Sct.Loc F → Option (Point F))
    (hp : ∀ l ∈ locations sct, db.convertLocation (location l) = .ok (place l)) :
    ∃ i, fromSct fmt order sct db get sid = .ok i ∧
      Holds i.sids (drawn place get sid sct.sids) ∧ Holds i.stars (drawn place get sid sct.stars) ∧
      Holds i.artccsHigh (drawn place get sid sct.artccsHigh) ∧ Holds i.artccs (drawn place get sid sct.artccs) ∧
      Holds i.artccsLow (drawn place get sid sct.artccsLow) ∧ Holds i.geo (drawn place get sid sct.geo) ∧
      Holds i.regions (fun n => sct.regions.filter (·.name = n)) ∧ Holds i.labels (fun n => sct.labels.filter (·.name = n)) ∧
      Holds i.highAirways (fun n => if (sct.highAirways.filter (·.designator = n)).isEmpty then [] else [dots fmt place (sct.highAirways.filter (·.designator = n))]) ∧
      Holds i.lowAirways (fun n => if (sct.lowAirways.filter (·.designator = n)).isEmpty then [] else [dots fmt place (sct.lowAirways.filter (·.designator = n))]) := by
  have hd : ∀ ds : List (Parse.Sct.Drawing F), (∀ d ∈ ds, d ∈ sct.sids ++ sct.stars ++ sct.artccsHigh ++ sct.artccs ++ sct.artccsLow ++ sct.geo) →
      ∃ m, drawings db get sid ds = .ok m ∧ Holds m (drawn place get sid ds) := by
    intro ds h
    refine drawings_eq fun d hd g hg l hl p hm => hp p ?_
    unfold locations
    exact List.mem_append_left _ (List.mem_flatMap.2 ⟨d, h d hd, List.mem_flatMap.2 ⟨g, hg, List.mem_flatten.2 ⟨l, hl, hm⟩⟩⟩)
  have ha : ∀ l : List (Parse.Sct.Airway F), (∀ a ∈ l, a ∈ sct.highAirways ++ sct.lowAirways) → _ :=
    fun l h => airways_eq (fmt := fmt) (db := db) ho (l := l) (place := place)
      fun a hm => hp a.start (List.mem_append_right _ (List.mem_map_of_mem (h a hm)))
  obtain ⟨sids, e1, h1⟩ := hd sct.sids (by simp +contextual)
  obtain ⟨stars, e2, h2⟩ := hd sct.stars (by simp +contextual)
  obtain ⟨high, e3, h3⟩ := ha sct.highAirways (by simp +contextual)
  obtain ⟨low, e4, h4⟩ := ha sct.lowAirways (by simp +contextual)
  obtain ⟨ah, e5, h5⟩ := hd sct.artccsHigh (by simp +contextual)
  obtain ⟨am, e6, h6⟩ := hd sct.artccs (by simp +contextual)
  obtain ⟨al, e7, h7⟩ := hd sct.artccsLow (by simp +contextual)
  obtain ⟨geo, e8, h8⟩ := hd sct.geo (by simp +contextual)
  refine ⟨⟨sids, stars, high, low, ah, am, al, geo, collect (sct.regions.map fun r => (r.name, r)), collect (sct.labels.map fun l => (l.name, l))⟩, ?_, h1, h2, h5, h6, h7, h8, ?_, ?_, h3, h4⟩
  rotate_left 1
  · refine holds_congr (collect_holds _) fun n => ?_
    rw [List.filter_map, List.map_map]
    simp [Function.comp_def]
  · refine holds_congr (collect_holds _) fun n => ?_
    rw [List.filter_map, List.map_map]
    simp [Function.comp_def]
  · unfold fromSct
    rw [e1, e2, e3, e4, e5, e6, e7, e8]
    rfl

/-- C70: the drawings, regions and texts of a sector file are found under their names in the order of the file, with all points that are known. -/
theorem C70_sct_drawings (ho : ∀ l, (order l).Perm l) (place : Parse.Sct.Loc F → Option (Point F))
    (hp : ∀ l ∈ locations sct, db.convertLocation (location l) = .ok (place l)) :
    ∃ i, fromSct fmt order sct db get sid = .ok i ∧
      Holds i.sids (drawn place get sid sct.sids) ∧ Holds i.stars (drawn place get sid sct.stars) ∧
      Holds i.artccsHigh (drawn place get sid sct.artccsHigh) ∧ Holds i.artccs (drawn place get sid sct.artccs) ∧
      Holds i.artccsLow (drawn place get sid sct.artccsLow) ∧ Holds i.geo (drawn place get sid sct.geo) ∧
      Holds i.regions (fun n => sct.regions.filter (·.name = n)) ∧ Holds i.labels (fun n => sct.labels.filter (·.name = n)) := by
  obtain ⟨i, h, h1, h2, h3, h4, h5, h6, h7, h8, _⟩ := sct_items fmt order sct db get sid ho place hp
  exact ⟨i, h, h1, h2, h3, h4, h5, h6, h7, h8⟩

/-- C70: nothing panics if the decimal digits of all fixes are ASCII digits. -/
theorem C70_sct_items_no_panic (ho : ∀ l, (order l).Perm l) (hd : ∀ d, Parse.Sct.Loc.fix d ∈ locations sct → OnlyAsciiDigits d) :
    ∃ i, fromSct fmt order sct db get sid = .ok i := by
  have : ∀ l ∈ locations sct, db.convertLocation (location l) = .ok (match db.convertLocation (location l) with | .ok p => p | .error _ => none) := by
    intro l hl
    cases l with
    | coordinate p => rfl
    | fix d =>
      obtain ⟨r, hr⟩ := Locations.C53_lookup_no_panic_partial db d (hd d hl)
      have : db.convertLocation (location (.fix d)) = .ok (r.map (·.coordinate)) := by
        show (db.convertDesignator d >>= fun f => _) = _
        rw [hr]
        rfl
      rw [this]
  obtain ⟨i, h, _⟩ := C70_sct_drawings fmt order sct db get sid ho (fun l => match db.convertLocation (location l) with | .ok p => p | .error _ => none) this
  exact ⟨i, h⟩

/-- What is drawn for the airways. -/
theorem airway_dots (ho : ∀ l, (order l).Perm l) (place : Parse.Sct.Loc F → Option (Point F))
    (hp : ∀ l ∈ locations sct, db.convertLocation (location l) = .ok (place l)) :
    ∃ i, fromSct fmt order sct db get sid = .ok i ∧
      ∀ m l, (m, l) ∈ [(i.highAirways, sct.highAirways), (i.lowAirways, sct.lowAirways)] → ∀ n,
        m.get? n = if (l.filter (·.designator = n)).isEmpty then none else
          some [(firsts (coordHash fmt) ((l.filter (·.designator = n)).filterMap fun a => place a.start)).map ([·])] := by
  obtain ⟨i, h, _, _, _, _, _, _, _, _, h9, h10⟩ := sct_items fmt order sct db get sid ho place hp
  have key : ∀ (m : MultiMap Str (List (List (Point F)))) (l : List (Parse.Sct.Airway F)),
      Holds m (fun n => if (l.filter (·.designator = n)).isEmpty then [] else [dots fmt place (l.filter (·.designator = n))]) → ∀ n,
        m.get? n = if (l.filter (·.designator = n)).isEmpty then none else
          some [(firsts (coordHash fmt) ((l.filter (·.designator = n)).filterMap fun a => place a.start)).map ([·])] := by
    intro m l hm n
    rw [hm n]
    beta_reduce
    generalize l.filter (·.designator = n) = x
    cases x <;> rfl
  refine ⟨i, h, fun m l hm n => ?_⟩
  simp only [List.mem_cons, List.not_mem_nil, or_false] at hm
  rcases hm with hm | hm
  · cases hm
    exact key _ _ h9 n
  · cases hm
    exact key _ _ h10 n

/-- C71, in part: the airways are found under their names, and what is drawn for one are the known starts of its parts, those whose latitudes and
longitudes are both printed alike only once.  `hf`: numbers are printed without the letter `y`.
Missing: the lines themselves, see `C71_airway_lines_lost`. -/
theorem C71_airways_partial (hf : ∀ x, 'y' ∉ fmt x) (ho : ∀ l, (order l).Perm l) (place : Parse.Sct.Loc F → Option (Point F))
    (hp : ∀ l ∈ locations sct, db.convertLocation (location l) = .ok (place l)) :
    ∃ i, fromSct fmt order sct db get sid = .ok i ∧
      ∀ m l, (m, l) ∈ [(i.highAirways, sct.highAirways), (i.lowAirways, sct.lowAirways)] → ∀ n,
        m.get? n = if (l.filter (·.designator = n)).isEmpty then none else
          some [(firsts (fun p => (fmt p.1, fmt p.2)) ((l.filter (·.designator = n)).filterMap fun a => place a.start)).map ([·])] := by
  obtain ⟨i, h, hi⟩ := airway_dots fmt order sct db get sid ho place hp
  refine ⟨i, h, fun m l hm n => ?_⟩
  rw [hi m l hm n, firsts_congr fun p q => coordHash_iff hf]

/-- C71 is false: whatever the airways are, no line is drawn for any of them. -/
theorem C71_airway_lines_lost (ho : ∀ l, (order l).Perm l) (place : Parse.Sct.Loc F → Option (Point F))
    (hp : ∀ l ∈ locations sct, db.convertLocation (location l) = .ok (place l)) :
    ∃ i, fromSct fmt order sct db get sid = .ok i ∧ ∀ m ∈ [i.highAirways, i.lowAirways], ∀ n v, m.get? n = some v → ∀ lines ∈ v, segments lines = [] := by
  obtain ⟨i, h, hi⟩ := airway_dots fmt order sct db get sid ho place hp
  refine ⟨i, h, fun m hm n v hv lines hl => ?_⟩
  have key : ∀ l, (m, l) ∈ [(i.highAirways, sct.highAirways), (i.lowAirways, sct.lowAirways)] → segments lines = [] := by
    intro l hml
    have := hi m l hml n
    rw [hv] at this
    split at this
    · cases this
    · injection this with this
      rw [this, List.mem_singleton] at hl
      rw [hl]
      unfold segments
      rw [List.flatMap_map]
      simp
  simp only [List.mem_cons, List.not_mem_nil, or_false] at hm
  rcases hm with rfl | rfl
  · exact key sct.highAirways (by simp)
  · exact key sct.lowAirways (by simp)

end

/-- Even if the ends of the parts were used, the first part of each line would not be drawn: of a single part only its start remains. -/
theorem C71_first_part_lost {F : Type} [DecidableEq F] (fmt : F → Str) (l : Line F) : joined fmt [l] = .ok [[l.start]] := by
  have : (MultiMap.getVec (adjacency fmt [l]) (coordHash fmt l.start)).find? (fun line => decide (lineHash fmt line ∉ [lineHash fmt l])) = none := by
    rw [List.find?_eq_none]
    intro x hx
    obtain ⟨h, _⟩ := mem_adjacency hx
    rw [List.mem_singleton.1 h]
    simp
  show chain fmt (adjacency fmt [l]) 2 [l] [] [] = _
  unfold chain
  rw [if_neg (by simp)]
  unfold build
  rw [this]
  rfl

/-! ## Examples -/

section Examples
local instance : FloatOps Int where
  ofNat n := n
  add a b := a + b
  div a b := a / b
  mul a b := a * b
  negOne := -1
  dest p b r := (p.1 + b, p.2 + r)
attribute [local instance] asciiTables

def iDb : Db Int := ⟨[], [(c!"MUN", [⟨c!"MUN", c!"112.300", (11, 48)⟩])], [], [], [], []⟩
def iPoint : Parse.Point Int := ⟨12, 47⟩

def iSct : Parse.Sct.Sct Int where
  info := ⟨c!"X", c!"Y", c!"Z", iPoint, 1, 1, 1, 1⟩
  colours := []
  airports := []
  fixes := []
  ndbs := []
  vors := []
  runways := []
  sids := [⟨c!"A", [⟨some c!"red", [[.fix c!"MUN", .coordinate ⟨11, 48⟩, .fix c!"NOWHERE", .coordinate iPoint], [.fix c!"NOWHERE"]]⟩]⟩, ⟨c!"B", [⟨none, [[.fix c!"MUN"]]⟩]⟩,
    ⟨c!"A", [⟨none, [[.coordinate iPoint]]⟩, ⟨some c!"red", [[.fix c!"NOWHERE"]]⟩]⟩]
  stars := []
  artccsHigh := []
  artccs := []
  artccsLow := []
  highAirways := [⟨c!"L1", .fix c!"MUN", .coordinate iPoint⟩, ⟨c!"L2", .fix c!"MUN", .fix c!"MUN"⟩, ⟨c!"L1", .coordinate iPoint, .fix c!"MUN"⟩]
  lowAirways := []
  regions := []
  labels := []
  geo := []

def iGet (n : Str) : Option Colour := if n = c!"red" then some ⟨255, 0, 0, 255⟩ else none
def iFmt (n : Int) : Str := showNat n.toNat
def iPlace : Parse.Sct.Loc Int → Option (Point Int)
  | .fix n => if n = c!"MUN" then some (11, 48) else none
  | .coordinate p => some (pair p)

/-- The hypotheses are met; the first part is what `C70_sct_drawings` says, the second one what `C71_airways_partial` says. -/
theorem i_place : ∀ l ∈ locations iSct, iDb.convertLocation (location l) = .ok (iPlace l) := by decide +kernel

/-- Numbers are printed with digits. -/
theorem i_fmt (x : Int) : 'y' ∉ iFmt x := by
  intro h
  have := showNat_digits _ _ h
  revert this
  decide

example : drawn iPlace iGet ⟨0, 0, 0, 255⟩ iSct.sids c!"A" = [⟨⟨255, 0, 0, 255⟩, [[(11, 48), (12, 47)]]⟩, ⟨⟨0, 0, 0, 255⟩, [[(12, 47)]]⟩] := by decide +kernel

example : ∃ i, fromSct iFmt id iSct iDb iGet ⟨0, 0, 0, 255⟩ = .ok i ∧ i.highAirways.get? c!"L1" = some [[[(11, 48)], [(12, 47)]]] ∧
    airwaySegments iPlace (iSct.highAirways.filter (·.designator = c!"L1")) = [((11, 48), (12, 47)), ((12, 47), (11, 48))] := by
  obtain ⟨i, h1, h2⟩ := C71_airways_partial iFmt id iSct iDb iGet ⟨0, 0, 0, 255⟩ i_fmt (fun l => List.Perm.refl l) iPlace i_place
  refine ⟨i, h1, ?_, by decide +kernel⟩
  rw [h2 i.highAirways iSct.highAirways (by simp)]
  decide +kernel

example : ∀ d, Parse.Sct.Loc.fix d ∈ locations iSct → OnlyAsciiDigits d := by
  intro d h
  have : ∀ l ∈ locations iSct, ∀ d, l = .fix d → ∀ c ∈ d, UnicodeTables.decimal c = true → isAsciiDigit c = true := by
    intro l hl
    cases l with
    | coordinate p => intro d h; cases h
    | fix n =>
      rintro _ ⟨⟩
      have : ∀ l ∈ locations iSct, l ∈ [.fix c!"MUN", .fix c!"NOWHERE", .coordinate iPoint, .coordinate ⟨11, 48⟩] := by decide +kernel
      have := this _ hl
      simp only [List.mem_cons, Parse.Sct.Loc.fix.injEq, List.not_mem_nil, or_false, reduceCtorEq] at this
      rcases this with rfl | rfl <;> decide
  exact this _ h d rfl

end Examples

end Verif.Props
