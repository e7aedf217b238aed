import Verif.Proofs.Reordered
import Verif.Props.Joined
import Verif.Props.Sct
/-!
# C115: lines and sections in another order

Two neighbouring blocks of lines of a file change places, or the sections of an .ese or .sct file are put in another order.  The
theorems say that the new text is accepted, and what is read from it.
-/

namespace Verif.Props
open Verif.Spec (WholeLines SameOrder)
open Verif.Proofs.Joined Verif.Proofs.Reordered
open Verif.Parse (Point)

/-- The text, read alone, defines the key. -/
def Defines {K V : Type} [DecidableEq K] (parse : Str → Run (Map K V)) (t : Str) (k : K) : Prop :=
  ∃ m, parse t = .ok m ∧ (Map.get? m k).isSome = true

section Icao
open Verif.Parse.Icao

/-- **C115.** Two blocks of lines of a list of airlines change places: the new text is accepted too, and of each designator the same
airline is returned, unless both blocks define it. -/
theorem C115_airlines {u a b v : Str} {m : Map Str Airline} (hu : WholeLines u) (ha : WholeLines a) (hb : WholeLines b)
    (h : parseAirlines (u ++ a ++ b ++ v) = .ok m) :
    ∃ m', parseAirlines (u ++ b ++ a ++ v) = .ok m' ∧ ∀ k, Map.get? m' k = Map.get? m k ∨ (Defines parseAirlines a k ∧ Defines parseAirlines b k) := by
  obtain ⟨ds, hne, hf⟩ := (C06_airlines_accepts _).1 ⟨_, h⟩
  obtain ⟨_, e, k⟩ := C06_airlines hf hne
  cases h.symm.trans e
  obtain ⟨d1, d2, d3, d4, rfl, fa, fb, fs⟩ := (icao_cuts airlines_lines).swap hu ha hb hf
  obtain ⟨m', e', k'⟩ := C06_airlines fs (by simp at hne ⊢; grind)
  refine ⟨m', e', fun x => ?_⟩
  rw [k, k']
  rcases first_swap with h | ⟨h1, h2⟩
  · exact Or.inl (congrArg _ h)
  · refine Or.inr ⟨?_, ?_⟩
    · obtain ⟨n, en, kn⟩ := C06_airlines fa (by rintro rfl; cases h1)
      exact ⟨n, en, by rw [kn, Option.isSome_map]; exact h1⟩
    · obtain ⟨n, en, kn⟩ := C06_airlines fb (by rintro rfl; cases h2)
      exact ⟨n, en, by rw [kn, Option.isSome_map]; exact h2⟩

/-- **C115.** Two blocks of lines of a list of airports change places: the new text is accepted too, and of each designator the same
airport is returned, unless both blocks define it. -/
theorem C115_airports [UnicodeTables] {u a b v : Str} {m : Map Str IcaoAirport} (hu : WholeLines u) (ha : WholeLines a) (hb : WholeLines b)
    (h : parseAirports (u ++ a ++ b ++ v) = .ok m) :
    ∃ m', parseAirports (u ++ b ++ a ++ v) = .ok m' ∧ ∀ k, Map.get? m' k = Map.get? m k ∨ (Defines parseAirports a k ∧ Defines parseAirports b k) := by
  obtain ⟨ds, hne, hf⟩ := (C06_airports_accepts _).1 ⟨_, h⟩
  obtain ⟨_, e, k⟩ := C06_airports hf hne
  cases h.symm.trans e
  obtain ⟨d1, d2, d3, d4, rfl, fa, fb, fs⟩ := (icao_cuts airports_lines).swap hu ha hb hf
  obtain ⟨m', e', k'⟩ := C06_airports fs (by simp at hne ⊢; grind)
  refine ⟨m', e', fun x => ?_⟩
  rw [k, k']
  rcases first_swap with h | ⟨h1, h2⟩
  · exact Or.inl (congrArg _ h)
  · refine Or.inr ⟨?_, ?_⟩
    · obtain ⟨n, en, kn⟩ := C06_airports fa (by rintro rfl; cases h1)
      exact ⟨n, en, by rw [kn, Option.isSome_map]; exact h1⟩
    · obtain ⟨n, en, kn⟩ := C06_airports fb (by rintro rfl; cases h2)
      exact ⟨n, en, by rw [kn, Option.isSome_map]; exact h2⟩

/-- **C115.** Two blocks of lines of a list of aircraft change places: the new text is accepted too, and of each designator the same
aircraft is returned, unless both blocks define it. -/
theorem C115_aircraft [UnicodeTables] {u a b v : Str} {m : AircraftMap} (hu : WholeLines u) (ha : WholeLines a) (hb : WholeLines b)
    (h : parseAircraft (u ++ a ++ b ++ v) = .ok m) :
    ∃ m', parseAircraft (u ++ b ++ a ++ v) = .ok m' ∧ ∀ k, Map.get? m' k = Map.get? m k ∨ (Defines parseAircraft a k ∧ Defines parseAircraft b k) := by
  obtain ⟨ds, hne, hf⟩ := (C06_aircraft_accepts _).1 ⟨_, h⟩
  obtain ⟨_, e, k⟩ := C06_aircraft hf hne
  cases h.symm.trans e
  obtain ⟨d1, d2, d3, d4, rfl, fa, fb, fs⟩ := (icao_cuts aircraft_lines).swap hu ha hb hf
  obtain ⟨m', e', k'⟩ := C06_aircraft fs (by simp at hne ⊢; grind)
  refine ⟨m', e', fun x => ?_⟩
  rw [k, k']
  simp only [List.filterMap_append]
  rcases first_swap with h | ⟨h1, h2⟩
  · exact Or.inl (congrArg _ h)
  · refine Or.inr ⟨?_, ?_⟩
    · obtain ⟨n, en, kn⟩ := C06_aircraft fa (by rintro rfl; cases h1)
      exact ⟨n, en, by rw [kn, Option.isSome_map]; exact h1⟩
    · obtain ⟨n, en, kn⟩ := C06_aircraft fb (by rintro rfl; cases h2)
      exact ⟨n, en, by rw [kn, Option.isSome_map]; exact h2⟩

/-- **C115.** The same of a file of navigation data. -/
theorem C115_navdata [UnicodeTables] {F : Type} [F64 F] (num : Str → F) (hnum : ∀ s, IsDecimal s → F64.ofText s = some (num s))
    {u a b v : Str} {m : Map Str (NavdataAirport F)} (hu : WholeLines u) (ha : WholeLines a) (hb : WholeLines b)
    (h : parseNavdataAirports (u ++ a ++ b ++ v) = .ok m) :
    ∃ m' : Map Str (NavdataAirport F), parseNavdataAirports (u ++ b ++ a ++ v) = .ok m' ∧ ∀ k, Map.get? m' k = Map.get? m k ∨
      (Defines (parseNavdataAirports (F := F)) a k ∧ Defines (parseNavdataAirports (F := F)) b k) := by
  obtain ⟨ds, hf⟩ := (C06_navdata_accepts (F := F) _).1 ⟨_, h⟩
  obtain ⟨_, e, k⟩ := C06_navdata num hnum hf
  cases h.symm.trans e
  obtain ⟨d1, d2, d3, d4, rfl, fa, fb, fs⟩ := (icao_cuts navdata_lines).swap hu ha hb hf
  obtain ⟨m', e', k'⟩ := C06_navdata num hnum fs
  refine ⟨m', e', fun x => ?_⟩
  rw [k, k']
  rcases first_swap with h | ⟨h1, h2⟩
  · exact Or.inl (congrArg _ h)
  · refine Or.inr ⟨?_, ?_⟩
    · obtain ⟨n, en, kn⟩ := C06_navdata num hnum fa
      exact ⟨n, en, by rw [kn, Option.isSome_map]; exact h1⟩
    · obtain ⟨n, en, kn⟩ := C06_navdata num hnum fb
      exact ⟨n, en, by rw [kn, Option.isSome_map]; exact h2⟩

end Icao

section Isec
open Verif.Parse.Isec
variable {F : Type} [F64 F]

/-- **C115.** Two blocks of lines of a waypoint file change places: looking a designator up returns the same fixes, in the same order
unless both blocks define it. -/
theorem C115_isec {u a b v : Str} {m : IsecMap F} (hu : WholeLines u) (ha : WholeLines a) (hb : WholeLines b)
    (h : parseIsecTxt (u ++ a ++ b ++ v) = .ok m) :
    ∃ m' : IsecMap F, parseIsecTxt (u ++ b ++ a ++ v) = .ok m' ∧ ∀ d, (MultiMap.getVec m' d).Perm (MultiMap.getVec m d) ∧
      (MultiMap.getVec m' d = MultiMap.getVec m d ∨ ∃ ma mb : IsecMap F, parseIsecTxt a = .ok ma ∧ parseIsecTxt b = .ok mb ∧
        MultiMap.getVec ma d ≠ [] ∧ MultiMap.getVec mb d ≠ []) := by
  obtain ⟨ws, hne, hf⟩ := (C02_isec_no_panic (F := F) _).2.1 ⟨_, h⟩
  obtain ⟨f, k, e⟩ := parse_complete (F := F) hf hne
  cases h.symm.trans e
  obtain ⟨d1, d2, d3, d4, rfl, fa, fb, fs⟩ := isec_cuts.swap hu ha hb hf
  obtain ⟨f', k', e'⟩ := parse_complete (F := F) fs (by simp at hne ⊢; grind)
  refine ⟨_, e', fun d => ?_⟩
  simp only [List.map_append] at k k'
  obtain ⟨f1, r1, rfl, q1, k⟩ := List.append_eq_map_iff.1 k
  obtain ⟨f2, r2, rfl, q2, k⟩ := List.append_eq_map_iff.1 k.symm
  obtain ⟨f3, f4, rfl, q3, q4⟩ := List.append_eq_map_iff.1 k.symm
  have inj : ∀ {x y : List (AirwayGraph.Fix (Point F))}, x.map some = y.map some → x = y := fun h =>
    (List.map_inj_right fun _ _ h => Option.some.inj h).1 h
  have hf' : f' = f1 ++ (f3 ++ (f2 ++ f4)) := inj (by simp only [List.map_append, q1, q2, q3, q4, k'])
  subst hf'
  have alone : ∀ {t : Str} {ds : List Spec.Isec.Wpt} {fx : List (AirwayGraph.Fix (Point F))}, Spec.Isec.IsFile t ds →
      ds.map (fixOf (F := F)) = fx.map some → (fx.filter fun f => f.designator = d) ≠ [] →
      ∃ mt : IsecMap F, parseIsecTxt t = .ok mt ∧ MultiMap.getVec mt d ≠ [] := by
    intro t ds fx ht hx hn
    obtain ⟨fy, ky, ey⟩ := parse_complete (F := F) ht (by rintro rfl; cases fx <;> simp at hx hn)
    refine ⟨_, ey, ?_⟩
    rw [lookup_collect, inj (ky.symm.trans hx)]
    exact hn
  simp only [lookup_collect, List.filter_append]
  refine ⟨?_, ?_⟩
  · exact (List.Perm.refl _).append (by
      rw [← List.append_assoc, ← List.append_assoc]
      exact List.perm_append_comm.append_right _)
  · by_cases h2 : (f2.filter fun f => f.designator = d) = []
    · rw [h2]; exact Or.inl (by simp)
    · by_cases h3 : (f3.filter fun f => f.designator = d) = []
      · rw [h3]; exact Or.inl (by simp)
      · obtain ⟨ma, ea, ka⟩ := alone fa q2.symm h2
        obtain ⟨mb, eb, kb⟩ := alone fb q3.symm h3
        exact Or.inr ⟨ma, mb, ea, eb, ka, kb⟩

end Isec

section Prf
open Verif.Parse.Prf
variable [UnicodeTables]

/-- **C115.** Two blocks of lines of a profile change places: each setting keeps its value, unless both blocks give one. -/
theorem C115_prf {u a b v : Str} {m : Settings} (hu : WholeLines u) (ha : WholeLines a) (hb : WholeLines b)
    (h : parsePrf (u ++ a ++ b ++ v) = .ok m) :
    ∃ m', parsePrf (u ++ b ++ a ++ v) = .ok m' ∧ ∀ k, Map.get? m' k = Map.get? m k ∨ (Defines parsePrf a k ∧ Defines parsePrf b k) := by
  obtain ⟨ws, hne, hf⟩ := (C07_prf_no_panic _).2.1 ⟨_, h⟩
  obtain ⟨_, e, k⟩ := C07_prf_last_wins _ _ hf hne
  cases h.symm.trans e
  obtain ⟨d1, d2, d3, d4, rfl, fa, fb, fs⟩ := prf_cuts.swap hu ha hb hf
  obtain ⟨m', e', k'⟩ := C07_prf_last_wins _ _ fs (by simp at hne ⊢; grind)
  refine ⟨m', e', fun (x, y) => ?_⟩
  rw [k, k']
  rcases last_swap with h | ⟨h1, h2⟩
  · exact Or.inl (congrArg _ h)
  · refine Or.inr ⟨?_, ?_⟩
    · obtain ⟨n, en, kn⟩ := C07_prf_last_wins _ _ fa (by rintro rfl; cases h1)
      exact ⟨n, en, by rw [kn, Option.isSome_map]; exact h1⟩
    · obtain ⟨n, en, kn⟩ := C07_prf_last_wins _ _ fb (by rintro rfl; cases h2)
      exact ⟨n, en, by rw [kn, Option.isSome_map]; exact h2⟩

end Prf

section Airway
open Verif.Parse.Airway Verif.AirwayGraph Verif.AirwayGraph.Spec Verif.Spec.Airway
variable {F : Type} [F64 F] [Quantize (Point F)]

theorem isLeast_unique {o o' : Option Nat} {p : Nat → Prop} (h : IsLeast o p) (h' : IsLeast o' p) : o = o' := by
  cases o <;> cases o'
  · rfl
  · exact (h _ h'.1).elim
  · exact (h' _ h.1).elim
  · exact congrArg some (Nat.le_antisymm (h.2 _ h'.1) (h'.2 _ h.1))

/-- **C115.** Two blocks of lines of an airway file change places: the airways have the same legs, which can be flown in the same
directions and have the same minimum levels. -/
theorem C115_airway (num : Str → F) (hnum : ∀ s, Verif.Spec.Isec.IsCoord s → F64.ofText s = some (num s)) {u a b v : Str}
    {g : Graph (Point F)} (hu : WholeLines u) (ha : WholeLines a) (hb : WholeLines b) (h : parseAirwayTxt (u ++ a ++ b ++ v) = .ok g) :
    ∃ g' : Graph (Point F), parseAirwayTxt (u ++ b ++ a ++ v) = .ok g' ∧ ∀ w p q,
      ((∃ e, HasEdge g' w p q e) ↔ ∃ e, HasEdge g w p q e) ∧
      ∀ e e', HasEdge g w p q e → HasEdge g' w p q e' → e'.validDirection = e.validDirection ∧ e'.minimumLevel = e.minimumLevel := by
  obtain ⟨ws, hne, hf, hl, hg⟩ := airway_lines num hnum h
  obtain ⟨d1, d2, d3, d4, rfl, fa, fb, fs⟩ := airway_cuts.swap hu ha hb hf
  have mem : ∀ w, w ∈ d1 ++ (d3 ++ (d2 ++ d4)) ↔ w ∈ d1 ++ (d2 ++ (d3 ++ d4)) := fun w => by simp only [List.mem_append]; grind
  have hp := parse_complete hnum fs (by simp at hne ⊢; grind)
  obtain ⟨g', hg'⟩ := build_ok ((d1 ++ (d3 ++ (d2 ++ d4))).flatMap (segs num))
  rw [if_pos (fun w hw => hl w ((mem w).1 hw)), hg'] at hp
  refine ⟨g', hp, fun w p q => ?_⟩
  have mem : ∀ x, x ∈ (d1 ++ (d3 ++ (d2 ++ d4))).flatMap (segs num) ↔ x ∈ (d1 ++ (d2 ++ (d3 ++ d4))).flatMap (segs num) := fun x => by
    simp only [List.mem_flatMap, mem]
  generalize (d1 ++ (d3 ++ (d2 ++ d4))).flatMap (segs num) = s' at *
  generalize (d1 ++ (d2 ++ (d3 ++ d4))).flatMap (segs num) = s at *
  refine ⟨?_, fun e e' he he' => ?_⟩
  · rw [C10_edge_iff _ _ hg, C10_edge_iff _ _ hg']
    simp only [Adjacent, mem]
  · have k := C11_aggregate _ _ hg w p q e he
    have k' := C11_aggregate _ _ hg' w p q e' he'
    have fly : Flyable s' w p q ↔ Flyable s w p q := by simp only [Flyable, mem]
    have lev : LevelReported s' w p q = LevelReported s w p q := by
      funext n
      simp only [LevelReported, mem]
    refine ⟨?_, isLeast_unique (lev ▸ k'.2) k.2⟩
    rw [Bool.eq_iff_iff, k'.1, k.1, fly]

end Airway

section Sections
open Verif.Dms

theorem same_mem {A K : Type} [DecidableEq K] {key : A → K} {l l' : List A} (h : SameOrder key l l') {x : A} (hx : x ∈ l') : x ∈ l := by
  have : x ∈ l'.filter (key · = key x) := List.mem_filter.2 ⟨hx, by simp⟩
  rw [← h] at this
  exact (List.mem_filter.1 this).1

theorem same_mem_iff {A K : Type} [DecidableEq K] {key : A → K} {l l' : List A} (h : SameOrder key l l') (x : A) : x ∈ l' ↔ x ∈ l :=
  ⟨same_mem h, same_mem fun k => (h k).symm⟩

/-- What is taken only from elements of one key stays the same. -/
theorem same_filterMap {A B K : Type} [DecidableEq K] {key : A → K} {l l' : List A} (h : SameOrder key l l') {p : A → Option B} {k : K}
    (hp : ∀ x b, p x = some b → key x = k) : l'.filterMap p = l.filterMap p := by
  have e : ∀ l : List A, (l.filter (key · = k)).filterMap p = l.filterMap p := by
    intro l
    rw [List.filterMap_filter]
    congr 1
    funext x
    by_cases hx : key x = k
    · simp [hx]
    · cases hpx : p x with
      | none => simp
      | some b => exact absurd (hp x b hpx) hx
  rw [← e l', ← e l, h]

section Ese
variable {F G : Type} [F64 F] [DmsArith F] [F64 G] [UnicodeTables]

/-- **C115.** The sections of a valid .ese file are put in another order, where sections of the same name stay in order: both files
panic the parser, or both are accepted and give the same positions, sectors, agreements and procedures. -/
theorem C115_ese (f f' : Spec.Ese.File) (h : f.Valid) (h' : f'.Valid) (hs : SameOrder Spec.Ese.Sect.name f.sections f'.sections) :
    (Parse.Ese.parse (F := F) G f.text = .error .panic ∧ Parse.Ese.parse (F := F) G f'.text = .error .panic) ∨
    ∃ e e' : Parse.Ese.Ese F, Parse.Ese.parse G f.text = .ok e ∧ Parse.Ese.parse G f'.text = .ok e' ∧
      (∀ id, e'.positions.get? id = e.positions.get? id) ∧ (∀ id, e'.sectors.get? id = e.sectors.get? id) ∧
      e'.constraints = e.constraints ∧ e'.sidsStars = e.sidsStars := by
  obtain ⟨num, hnum⟩ := ese_reads F
  have fits : f'.Fits ↔ f.Fits := by
    unfold Spec.Ese.File.Fits
    simp only [same_mem_iff hs]
  by_cases hf : f.Fits
  · obtain ⟨e, e1, e2, e3, e4, e5⟩ := C51_ese_meaning (G := G) num hnum f h hf
    obtain ⟨e', e1', e2', e3', e4', e5'⟩ := C51_ese_meaning (G := G) num hnum f' h' (fits.2 hf)
    have p : f'.positions = f.positions := by
      unfold Spec.Ese.File.positions
      rw [same_filterMap hs (k := c!"POSITIONS") (by intro x b hx; split at hx <;> cases hx; rfl)]
    have i : f'.items = f.items := by
      unfold Spec.Ese.File.items
      rw [same_filterMap hs (k := c!"AIRSPACE") (by intro x b hx; split at hx <;> cases hx; rfl)]
    have s : f'.procedures = f.procedures := by
      unfold Spec.Ese.File.procedures
      rw [same_filterMap hs (k := c!"SIDSSTARS") (by intro x b hx; split at hx <;> cases hx; rfl)]
    refine Or.inr ⟨e, e', e1, e1', fun id => ?_, fun id => ?_, ?_, ?_⟩
    · rw [e2, e2', p]
    · rw [e3, e3', i]
    · rw [e4, e4', i]
    · rw [e5, e5', s]
  · exact Or.inl ⟨C50_ese_panics f h hf, C50_ese_panics f' h' fun hf' => hf (fits.1 hf')⟩

end Ese

section Sct
variable {F : Type} [F64 F] [DmsArith F] [DecidableEq F] [UnicodeTables]

/-- **C115.** The sections of a valid .sct file are put in another order, where sections of the same kind and definitions of the same
colour stay in order: both files panic the parser, or both are accepted and give the same. -/
theorem C115_sct (f f' : Spec.Sct.File) (h : f.Valid) (h' : f'.Valid) (ho : f'.outer = f.outer)
    (hs : SameOrder Spec.Sct.Sect.kind (f.sections.map (·.2)) (f'.sections.map (·.2))) (hc : SameOrder (·.name) f.colours f'.colours) :
    (Parse.Sct.parse (F := F) f.text = .error .panic ∧ Parse.Sct.parse (F := F) f'.text = .error .panic) ∨
    ∃ e e' : Parse.Sct.Sct F, Parse.Sct.parse f.text = .ok e ∧ Parse.Sct.parse f'.text = .ok e' ∧
      { e' with colours := [] } = { e with colours := [] } ∧ ∀ n, e'.colours.get? n = e.colours.get? n := by
  obtain ⟨num, hnum⟩ := ese_reads F
  have fits : f'.Fits ↔ f.Fits := by
    have all : ∀ g : Spec.Sct.File, (∀ s ∈ g.sections, s.2.Fits) ↔ ∀ s ∈ g.sections.map (·.2), s.Fits := fun g => List.forall_mem_map.symm
    unfold Spec.Sct.File.Fits
    simp only [ho, all, same_mem_iff hs]
  by_cases hf : f.Fits
  · obtain ⟨c, e1, e2⟩ := C51_sct_meaning num hnum f h hf
    obtain ⟨c', e1', e2'⟩ := C51_sct_meaning num hnum f' h' (fits.2 hf)
    have last : ∀ {A : Type} (p : Spec.Sct.Sect → Option A) (k : Str), (∀ x b, p x = some b → x.kind = k) → f'.lastOf p = f.lastOf p := by
      intro A p k hp
      have e : ∀ g : Spec.Sct.File, (g.sections.filterMap fun s => p s.2) = (g.sections.map (·.2)).filterMap p := fun g => by
        rw [List.filterMap_map]; rfl
      unfold Spec.Sct.File.lastOf
      rw [e, e, same_filterMap hs hp]
    refine Or.inr ⟨_, _, e1, e1', ?_, fun n => ?_⟩
    · show Spec.Sct.File.value num f' [] = Spec.Sct.File.value num f []
      have ent : ∀ {A : Type} (p : Spec.Sct.Sect → Option (Spec.Sct.Block A)) (k : Str), (∀ x b, p x = some b → x.kind = k) →
          f'.entriesOf p = f.entriesOf p := fun p k hp => by
        unfold Spec.Sct.File.entriesOf
        rw [last p k hp]
      unfold Spec.Sct.File.value
      congr 1
      · rw [last _ c!"[INFO]" (by intro x b hx; split at hx <;> cases hx; rfl)]
      · exact congrArg (List.map _) (ent _ c!"[AIRPORT]" (by intro x b hx; split at hx <;> cases hx; rfl))
      · exact congrArg (List.map _) (ent _ c!"[FIXES]" (by intro x b hx; split at hx <;> cases hx; rfl))
      · exact congrArg (List.map _) (ent _ c!"[NDB]" (by intro x b hx; split at hx <;> cases hx; rfl))
      · exact congrArg (List.map _) (ent _ c!"[VOR]" (by intro x b hx; split at hx <;> cases hx; rfl))
      · exact congrArg (List.map _) (ent _ c!"[RUNWAY]" (by intro x b hx; split at hx <;> cases hx; rfl))
      · exact congrArg (List.map _) (ent _ Spec.Sct.Kind.sid.header (by intro x b hx; split at hx <;> cases hx; rfl))
      · exact congrArg (List.map _) (ent _ Spec.Sct.Kind.star.header (by intro x b hx; split at hx <;> cases hx; rfl))
      · exact congrArg (List.map _) (ent _ Spec.Sct.Kind.artccHigh.header (by intro x b hx; split at hx <;> cases hx; rfl))
      · exact congrArg (List.map _) (ent _ Spec.Sct.Kind.artcc.header (by intro x b hx; split at hx <;> cases hx; rfl))
      · exact congrArg (List.map _) (ent _ Spec.Sct.Kind.artccLow.header (by intro x b hx; split at hx <;> cases hx; rfl))
      · exact congrArg (List.map _) (ent _ c!"[HIGH AIRWAY]" (by intro x b hx; split at hx <;> cases hx; rfl))
      · exact congrArg (List.map _) (ent _ c!"[LOW AIRWAY]" (by intro x b hx; split at hx <;> cases hx; rfl))
      · exact congrArg (List.map _) (ent _ c!"[REGIONS]" (by intro x b hx; split at hx <;> cases hx; rfl))
      · exact congrArg (List.map _) (ent _ c!"[LABELS]" (by intro x b hx; split at hx <;> cases hx; rfl))
      · exact congrArg (List.map _) (ent _ Spec.Sct.Kind.geo.header (by intro x b hx; split at hx <;> cases hx; rfl))
    · show c'.get? n = c.get? n
      rw [e2, e2']
      unfold Spec.Sct.File.colourOf
      rw [same_filterMap hc (k := n) (fun x b hx => Classical.byContradiction fun hn => by simp [hn] at hx)]
  · exact Or.inl ⟨C50_sct_panics f h hf, C50_sct_panics f' h' fun hf' => hf (fits.1 hf')⟩

end Sct

end Sections

/-! ## Concrete cases -/

section Examples
attribute [local instance] asciiTables
local instance textF64r : F64 Str := ⟨some, fun _ _ => rfl⟩
local instance : AirwayGraph.Quantize (Point Str) := ⟨fun p => (p.x.length, p.y.length)⟩

example : WholeLines [] := Or.inl rfl
example : WholeLines c!"DLH\ta\tb\tc\n; comment\n" := Or.inr ⟨c!"DLH\ta\tb\tc\n; comment", by decide⟩

/-- Two lines that change places, behind a comment and in front of a third line. -/
example : Parse.Icao.parseAirlines (c!"; airlines\n" ++ c!"DLH\ta\tb\tc\n" ++ c!"BAW\tx\ty\tz\n" ++ c!"AFR\td\te\tf") =
      .ok [(c!"DLH", ⟨c!"DLH", c!"a", c!"b", c!"c"⟩), (c!"BAW", ⟨c!"BAW", c!"x", c!"y", c!"z"⟩), (c!"AFR", ⟨c!"AFR", c!"d", c!"e", c!"f"⟩)] ∧
    Parse.Icao.parseAirlines (c!"; airlines\n" ++ c!"BAW\tx\ty\tz\n" ++ c!"DLH\ta\tb\tc\n" ++ c!"AFR\td\te\tf") =
      .ok [(c!"BAW", ⟨c!"BAW", c!"x", c!"y", c!"z"⟩), (c!"DLH", ⟨c!"DLH", c!"a", c!"b", c!"c"⟩), (c!"AFR", ⟨c!"AFR", c!"d", c!"e", c!"f"⟩)] := by
  decide +kernel

/-- If both lines define the same designator, their order matters. -/
example : Parse.Icao.parseAirlines (c!"DLH\ta\tb\tc\n" ++ c!"DLH\tx\ty\tz\n") = .ok [(c!"DLH", ⟨c!"DLH", c!"a", c!"b", c!"c"⟩)] ∧
    Parse.Icao.parseAirlines (c!"DLH\tx\ty\tz\n" ++ c!"DLH\ta\tb\tc\n") = .ok [(c!"DLH", ⟨c!"DLH", c!"x", c!"y", c!"z"⟩)] := by
  decide +kernel

/-- Two settings of a profile that change places. -/
example : ((Parse.Prf.parsePrf (c!"Settings\tsector\ta\n" ++ c!"Settings\tairlines\tb\n" ++ c!"ASR\tx\ty")).toOption.map fun m =>
      (Map.get? m (c!"Settings", c!"sector"), Map.get? m (c!"Settings", c!"airlines"))) = some (some c!"a", some c!"b") ∧
    ((Parse.Prf.parsePrf (c!"Settings\tairlines\tb\n" ++ c!"Settings\tsector\ta\n" ++ c!"ASR\tx\ty")).toOption.map fun m =>
      (Map.get? m (c!"Settings", c!"sector"), Map.get? m (c!"Settings", c!"airlines"))) = some (some c!"a", some c!"b") := by
  decide +kernel

/-- Two waypoints of the same designator that change places: their order changes. -/
example : ((Parse.Isec.parseIsecTxt (F := Str) (c!"ABC 49.1 10.7 15\n" ++ c!"ABC 50.1 10.7 15\n")).toOption.map fun m =>
      (MultiMap.getVec m c!"ABC").map fun f => f.coordinate.y) = some [c!"49.1", c!"50.1"] ∧
    ((Parse.Isec.parseIsecTxt (F := Str) (c!"ABC 50.1 10.7 15\n" ++ c!"ABC 49.1 10.7 15\n")).toOption.map fun m =>
      (MultiMap.getVec m c!"ABC").map fun f => f.coordinate.y) = some [c!"50.1", c!"49.1"] := by decide +kernel

/-- A file of airways whose first line goes to its end. -/
example : ∃ (g : AirwayGraph.Graph (Point Str)) (a b : Str), Parse.Airway.parseAirwayTxt ([] ++ a ++ b ++ []) = .ok g ∧ a ≠ [] ∧ b ≠ [] ∧
    WholeLines a ∧ WholeLines b := by
  obtain ⟨g, h, _⟩ := C08_airway_ok (F := Str) id (fun _ _ => rfl) _ _ (airwayExample_isFile (level := c!"100")
    (by decide)) (by simp) (by
      intro w hw n hn l hl
      rw [List.mem_singleton.1 hw] at hn
      rcases hn with hn | hn
      · cases hn
        revert hl
        decide +revert
      · cases hn)
  exact ⟨g, c!"; airways\n", c!"ASPAT\t49.1\t10.7\t14\tL603\tH\tRODIX\t49.5\t10.25\t100\tY\t0\t0\t\t0\t0N// end\r\n", h, by decide, by decide,
    Or.inr ⟨c!"; airways", by decide⟩,
    Or.inr ⟨c!"ASPAT\t49.1\t10.7\t14\tL603\tH\tRODIX\t49.5\t10.25\t100\tY\t0\t0\t\t0\t0N// end\r", by decide⟩⟩

/-- The sections of `eseFile` in another order: the two sections of positions keep theirs. -/
def eseReordered : Spec.Ese.File := ⟨eseFile.lead, (eseFile.sections.drop 2).take 1 ++ eseFile.sections.take 2 ++ eseFile.sections.drop 3⟩

example : eseReordered.Valid ∧ SameOrder Spec.Ese.Sect.name eseFile.sections eseReordered.sections ∧ eseReordered.text ≠ eseFile.text := by
  refine ⟨⟨eseFile_valid.1, by decide, fun s hs => eseFile_valid.2.2 s ?_⟩, fun k => ?_, by decide +kernel⟩
  · simp only [eseReordered, List.mem_append] at hs
    rcases hs with (hs | hs) | hs
    · exact List.mem_of_mem_drop (List.mem_of_mem_take hs)
    · exact List.mem_of_mem_take hs
    · exact List.mem_of_mem_drop hs
  · simp only [eseReordered, eseFile, List.drop, List.take, List.append, List.cons_append, List.nil_append, List.filter, Spec.Ese.Sect.name]
    by_cases h1 : c!"POSITIONS" = k
    · subst h1; rfl
    · by_cases h2 : c!"AIRSPACE" = k
      · subst h2; rfl
      · simp [h1, h2]

/-- The sections of `sctFile` in another order: the two sections of radio beacons keep theirs. -/
def sctReordered : Spec.Sct.File :=
  { sctFile with sections := sctFile.sections.take 1 ++ (sctFile.sections.drop 2).take 1 ++ (sctFile.sections.drop 1).take 1 ++ sctFile.sections.drop 3 }

example : sctReordered.Valid ∧ SameOrder Spec.Sct.Sect.kind (sctFile.sections.map (·.2)) (sctReordered.sections.map (·.2)) ∧
    SameOrder (·.name) sctFile.colours sctReordered.colours ∧ sctReordered.text ≠ sctFile.text := by
  have v := sctFile_valid
  refine ⟨⟨v.lead, v.first, ?_, v.outer, fun s hs => v.sections s ?_, v.last, by intro h; cases h⟩, fun k => ?_, fun _ => rfl, by decide +kernel⟩
  · intro b hb
    apply v.breaks
    revert hb
    simp [sctReordered, sctFile, Spec.Sct.File.breaks]
  · simp only [sctReordered, List.mem_append] at hs
    rcases hs with ((hs | hs) | hs) | hs
    · exact List.mem_of_mem_take hs
    · exact List.mem_of_mem_drop (List.mem_of_mem_take hs)
    · exact List.mem_of_mem_drop (List.mem_of_mem_take hs)
    · exact List.mem_of_mem_drop hs
  · simp only [sctReordered, sctFile, List.drop, List.take, List.cons_append, List.nil_append, List.map, List.filter,
      Spec.Sct.Sect.kind, Spec.Sct.Sect.header]
    by_cases h1 : c!"[VOR]" = k
    · subst h1; rfl
    · simp [h1]

end Examples

end Verif.Props
