import Verif.Spec.Cut
import Verif.Props.Joined
import Verif.Props.Ese
/-!
# C119: files that are cut off

A download or a write is interrupted, and only the first part of an accepted file is left.  The theorems say when this part is still
accepted, and what is read from it in terms of what is read from the whole file.
-/

namespace Verif.Props
open Verif.Proofs.Joined
open Verif.Parse (Point)
open Verif.Spec (CutOff)

/-- Whatever is left of a text without carriage returns consists of complete lines and the beginning of a line. -/
theorem cutOff_exists (u v : Str) (h : '\r' ∉ u) : ∃ p q, u = p ++ q ∧ CutOff (u ++ v) p q := by
  have key : ∀ u : Str, ∃ p q, u = p ++ q ∧ (p = [] ∨ ∃ p', p = p' ++ ['\n']) ∧ '\n' ∉ q := by
    intro u
    induction u with
    | nil => exact ⟨[], [], rfl, Or.inl rfl, by simp⟩
    | cons c u ih =>
      obtain ⟨p, q, rfl, hp, hq⟩ := ih
      rcases hp with rfl | ⟨p', rfl⟩
      · by_cases hc : c = '\n'
        · subst hc
          exact ⟨['\n'], q, rfl, Or.inr ⟨[], rfl⟩, hq⟩
        · exact ⟨[], c :: q, rfl, Or.inl rfl, by simp [hq, Ne.symm hc]⟩
      · exact ⟨c :: p' ++ ['\n'], q, by simp, Or.inr ⟨c :: p', rfl⟩, hq⟩
  obtain ⟨p, q, rfl, hp, hq⟩ := key u
  refine ⟨p, q, rfl, ⟨v, rfl⟩, hp, fun c hc => ⟨?_, ?_⟩⟩
  · rintro rfl
    exact hq hc
  · rintro rfl
    exact h (List.mem_append_right _ hc)

/-- The definitions in the whole text and in what is left of it begin with the same ones. -/
theorem cut_files {D : Type} {file : Str → List D → Prop}
    (hj : ∀ u v ds, file (u ++ '\n' :: v) ds ↔ ∃ d1 d2, ds = d1 ++ d2 ∧ file (u ++ ['\n']) d1 ∧ file v d2)
    {t p q : Str} (h : CutOff t p q) {ds ds' : List D} (ht : file t ds) (hu : file (p ++ q) ds') :
    ∃ d1 dq dv v, t = p ++ q ++ v ∧ file t (d1 ++ dv) ∧ file (p ++ q) (d1 ++ dq) ∧ file q dq ∧ file (q ++ v) dv ∧
      (ds' ≠ [] → d1 ++ dq ≠ []) := by
  obtain ⟨⟨v, rfl⟩, hp, _⟩ := h
  rcases hp with rfl | ⟨p', rfl⟩
  · exact ⟨[], ds', ds, v, rfl, ht, hu, hu, ht, id⟩
  · rw [show p' ++ ['\n'] ++ q ++ v = p' ++ '\n' :: (q ++ v) by simp] at ht ⊢
    rw [show p' ++ ['\n'] ++ q = p' ++ '\n' :: q by simp] at hu ⊢
    obtain ⟨e1, dv, rfl, _, hv⟩ := (hj _ _ _).1 ht
    obtain ⟨d1, dq, rfl, h1, hq⟩ := (hj _ _ _).1 hu
    exact ⟨d1, dq, dv, v, by simp, (hj _ _ _).2 ⟨d1, dv, rfl, h1, hv⟩, hu, hq, hv, id⟩

section Icao
open Verif.Parse.Icao
open Verif.Spec.Icao (IsFile IsRest Final AtEnd first)

/-- A line yields at most one definition. -/
theorem icao_one {D : Type} {rest : Str → Prop} {line last : D → Str → Prop} {q : Str} {ds : List D} (hq : ∀ c ∈ q, c ≠ '\n' ∧ c ≠ '\r')
    (hf : IsFile rest line last q ds) : ds = [] ∨ ∃ d, ds = [d] := by
  cases hf with
  | blanks => exact Or.inl rfl
  | blank b c t ds _ h =>
    exact absurd h (by rintro (rfl | rfl) <;> simpa using hq _ (List.mem_append_right _ (List.mem_cons_self ..)))
  | line d s c t ds _ h =>
    exact absurd h (by rintro (rfl | rfl) <;> simpa using hq _ (List.mem_append_right _ (List.mem_cons_self ..)))
  | last d s h => exact Or.inr ⟨d, rfl⟩

/-- The definitions of all designators but one are those of the complete lines. -/
theorem icao_first {D : Type} {rest : Str → Prop} {line last : D → Str → Prop} (hl : Lines rest line last) (name : D → Str) {q : Str}
    {d1 dq dv : List D} (hq : ∀ c ∈ q, c ≠ '\n' ∧ c ≠ '\r') (hf : IsFile rest line last q dq) :
    ∃ k0, ∀ k x, k ≠ k0 ∨ q = [] → first name (d1 ++ dq) k = some x → d1 ≠ [] ∧ first name (d1 ++ dv) k = some x := by
  have of1 : ∀ k x, first name d1 k = some x → d1 ≠ [] ∧ first name (d1 ++ dv) k = some x := by
    intro k x h
    refine ⟨?_, ?_⟩
    · rintro rfl
      cases h
    · unfold first at h ⊢
      rw [List.find?_append, h]
      rfl
  rcases icao_one hq hf with rfl | ⟨d, rfl⟩
  · exact ⟨[], fun k x _ h => of1 k x (by simpa using h)⟩
  · refine ⟨name d, fun k x hk h => of1 k x ?_⟩
    rcases hk with hk | rfl
    · unfold first at h ⊢
      rw [List.find?_append] at h
      simpa [Ne.symm hk] using h
    · cases icao_nil hl hf

/-- **C119.** What is left of a list of airlines, if it is accepted: at most one airline has data that the whole list does not give it,
and none if the list is cut off behind a line end. -/
theorem C119_airlines {t p q : Str} {m m' : Map Str Airline} (h : CutOff t p q) (ht : parseAirlines t = .ok m)
    (hu : parseAirlines (p ++ q) = .ok m') :
    ∃ k0, ∀ k x, k ≠ k0 ∨ q = [] → Map.get? m' k = some x → Map.get? m k = some x := by
  obtain ⟨ds, _, ft⟩ := (C06_airlines_accepts _).1 ⟨_, ht⟩
  obtain ⟨ds', hne, fu⟩ := (C06_airlines_accepts _).1 ⟨_, hu⟩
  obtain ⟨d1, dq, dv, v, _, ft, fu, fq, _, hd⟩ := cut_files (fun _ _ _ => icao_iff airlines_lines) h ft fu
  obtain ⟨_, e, k'⟩ := C06_airlines fu (hd hne)
  cases hu.symm.trans e
  obtain ⟨k0, hk⟩ := icao_first airlines_lines (·.designator) (d1 := d1) (dv := dv) h.begun fq
  refine ⟨k0, fun k x hkk hx => ?_⟩
  rw [k', Option.map_eq_some_iff] at hx
  obtain ⟨a, ha, rfl⟩ := hx
  obtain ⟨h1, h2⟩ := hk k a hkk ha
  obtain ⟨_, e, k''⟩ := C06_airlines ft (by simp [h1])
  cases ht.symm.trans e
  rw [k'', h2]
  rfl

/-- **C119.** The same of the lists of airports. -/
theorem C119_airports [UnicodeTables] {t p q : Str} {m m' : Map Str IcaoAirport} (h : CutOff t p q) (ht : parseAirports t = .ok m)
    (hu : parseAirports (p ++ q) = .ok m') :
    ∃ k0, ∀ k x, k ≠ k0 ∨ q = [] → Map.get? m' k = some x → Map.get? m k = some x := by
  obtain ⟨ds, _, ft⟩ := (C06_airports_accepts _).1 ⟨_, ht⟩
  obtain ⟨ds', hne, fu⟩ := (C06_airports_accepts _).1 ⟨_, hu⟩
  obtain ⟨d1, dq, dv, v, _, ft, fu, fq, _, hd⟩ := cut_files (fun _ _ _ => icao_iff airports_lines) h ft fu
  obtain ⟨_, e, k'⟩ := C06_airports fu (hd hne)
  cases hu.symm.trans e
  obtain ⟨k0, hk⟩ := icao_first airports_lines (·.designator) (d1 := d1) (dv := dv) h.begun fq
  refine ⟨k0, fun k x hkk hx => ?_⟩
  rw [k', Option.map_eq_some_iff] at hx
  obtain ⟨a, ha, rfl⟩ := hx
  obtain ⟨h1, h2⟩ := hk k a hkk ha
  obtain ⟨_, e, k''⟩ := C06_airports ft (by simp [h1])
  cases ht.symm.trans e
  rw [k'', h2]
  rfl

/-- **C119.** The same of the lists of aircraft. -/
theorem C119_aircraft [UnicodeTables] {t p q : Str} {m m' : AircraftMap} (h : CutOff t p q) (ht : parseAircraft t = .ok m)
    (hu : parseAircraft (p ++ q) = .ok m') :
    ∃ k0, ∀ k x, k ≠ k0 ∨ q = [] → Map.get? m' k = some x → Map.get? m k = some x := by
  obtain ⟨ds, _, ft⟩ := (C06_aircraft_accepts _).1 ⟨_, ht⟩
  obtain ⟨ds', hne, fu⟩ := (C06_aircraft_accepts _).1 ⟨_, hu⟩
  obtain ⟨d1, dq, dv, v, _, ft, fu, fq, _, hd⟩ := cut_files (fun _ _ _ => icao_iff aircraft_lines) h ft fu
  obtain ⟨_, e, k'⟩ := C06_aircraft fu (hd hne)
  cases hu.symm.trans e
  have of1 : ∀ k x, first (·.designator) (d1.filterMap id) k = some x →
      d1 ≠ [] ∧ first (·.designator) ((d1 ++ dv).filterMap id) k = some x := by
    intro k x h
    refine ⟨?_, ?_⟩
    · rintro rfl
      cases h
    · unfold first at h ⊢
      rw [List.filterMap_append, List.find?_append, h]
      rfl
  have fin : ∀ k x a, Map.get? m' k = some x → first (·.designator) ((d1 ++ dq).filterMap id) k = some a →
      first (·.designator) (d1.filterMap id) k = some a → Map.get? m k = some x := by
    intro k x a hx h' ha
    obtain ⟨h1, h2⟩ := of1 k a ha
    obtain ⟨_, e, k''⟩ := C06_aircraft ft (by simp [h1])
    cases ht.symm.trans e
    rw [← hx, k'', k', h2, h']
  have some_of : ∀ k x, Map.get? m' k = some x → ∃ a, first (·.designator) ((d1 ++ dq).filterMap id) k = some a := by
    intro k x hx
    rw [k', Option.map_eq_some_iff] at hx
    exact ⟨_, hx.choose_spec.1⟩
  rcases icao_one h.begun fq with rfl | ⟨d, rfl⟩
  · refine ⟨[], fun k x _ hx => ?_⟩
    obtain ⟨a, ha⟩ := some_of k x hx
    exact fin k x a hx ha (by simpa using ha)
  · refine ⟨(d.map (·.designator)).getD [], fun k x hk hx => ?_⟩
    obtain ⟨a, ha⟩ := some_of k x hx
    refine fin k x a hx ha ?_
    rcases hk with hk | rfl
    · cases d with
      | none => simpa using ha
      | some d =>
        have hk : d.designator ≠ k := fun e => hk (by simp [e])
        unfold first at ha ⊢
        rw [List.filterMap_append, List.find?_append] at ha
        simpa [hk] using ha
    · cases icao_nil aircraft_lines fq

/-- **C119.** The same of the airports of the navigation data. -/
theorem C119_navdata [UnicodeTables] {F : Type} [F64 F] (num : Str → F) (hnum : ∀ s, IsDecimal s → F64.ofText s = some (num s))
    {t p q : Str} {m m' : Map Str (NavdataAirport F)} (h : CutOff t p q) (ht : parseNavdataAirports t = .ok m)
    (hu : parseNavdataAirports (p ++ q) = .ok m') :
    ∃ k0, ∀ k x, k ≠ k0 ∨ q = [] → Map.get? m' k = some x → Map.get? m k = some x := by
  obtain ⟨ds, ft⟩ := (C06_navdata_accepts (F := F) _).1 ⟨_, ht⟩
  obtain ⟨ds', fu⟩ := (C06_navdata_accepts (F := F) _).1 ⟨_, hu⟩
  obtain ⟨d1, dq, dv, v, _, ft, fu, fq, _, _⟩ := cut_files (fun _ _ _ => icao_iff navdata_lines) h ft fu
  obtain ⟨_, e, k'⟩ := C06_navdata num hnum fu
  cases hu.symm.trans e
  obtain ⟨k0, hk⟩ := icao_first navdata_lines (·.designator) (d1 := d1) (dv := dv) h.begun fq
  refine ⟨k0, fun k x hkk hx => ?_⟩
  rw [k', Option.map_eq_some_iff] at hx
  obtain ⟨a, ha, rfl⟩ := hx
  obtain ⟨_, h2⟩ := hk k a hkk ha
  obtain ⟨_, e, k''⟩ := C06_navdata num hnum ft
  cases ht.symm.trans e
  rw [k'', h2]
  rfl

end Icao

section Isec
open Verif.Parse.Isec
variable {F : Type} [F64 F]

/-- Without a line end there are no data. -/
theorem isec_none {q : Str} {ws : List Spec.Isec.Wpt} (hq : ∀ c ∈ q, c ≠ '\n' ∧ c ≠ '\r') (hf : Spec.Isec.IsFile q ws) :
    ws = [] ∧ Spec.Isec.IsBlank q := by
  cases hf with
  | last b h => exact ⟨rfl, h⟩
  | blank b nl rest ws _ h =>
    rcases h with rfl | rfl | ⟨rfl, _⟩
    · exact absurd rfl (hq '\n' (by simp)).1
    · exact absurd rfl (hq '\n' (by simp)).1
    · exact absurd rfl (hq '\r' (by simp)).2
  | line w t nl rest ws _ h =>
    rcases h with rfl | rfl | ⟨rfl, _⟩
    · exact absurd rfl (hq '\n' (by simp)).1
    · exact absurd rfl (hq '\n' (by simp)).1
    · exact absurd rfl (hq '\r' (by simp)).2

/-- **C119.** What is left of a file of fixes is accepted exactly if the complete lines are and the beginning of the next line is blank or
a comment: fixes that are cut off are noticed. -/
theorem C119_isec_accepts {p q : Str} (hp : p = [] ∨ ∃ p', p = p' ++ ['\n']) (hq : ∀ c ∈ q, c ≠ '\n' ∧ c ≠ '\r') :
    (∃ m, parseIsecTxt (F := F) (p ++ q) = .ok m) ↔ (∃ m, parseIsecTxt (F := F) p = .ok m) ∧ Spec.Isec.IsBlank q := by
  simp only [(C02_isec_no_panic (F := F) _).2]
  rcases hp with rfl | ⟨p', rfl⟩
  · constructor
    · rintro ⟨ws, hne, hf⟩
      exact absurd (isec_none hq hf).1 hne
    · rintro ⟨⟨ws, hne, hf⟩, _⟩
      exact absurd (isec_none (by simp) hf).1 hne
  · rw [show p' ++ ['\n'] ++ q = p' ++ '\n' :: q by simp]
    constructor
    · rintro ⟨ws, hne, hf⟩
      obtain ⟨w1, w2, rfl, h1, h2⟩ := isec_iff.1 hf
      obtain ⟨rfl, hb⟩ := isec_none hq h2
      exact ⟨⟨w1, by simpa using hne, h1⟩, hb⟩
    · rintro ⟨⟨ws, hne, hf⟩, hb⟩
      exact ⟨ws ++ [], by simpa using hne, isec_iff.2 ⟨ws, [], rfl, hf, .last q hb⟩⟩

/-- **C119.** What is left of a file of fixes, if it is accepted, gives each designator the first of the fixes that the whole file gives
it, unchanged and in the same order. -/
theorem C119_isec {t p q : Str} {m m' : IsecMap F} (h : CutOff t p q) (ht : parseIsecTxt t = .ok m) (hu : parseIsecTxt (p ++ q) = .ok m') (d : Str) :
    MultiMap.getVec m' d <+: MultiMap.getVec m d := by
  obtain ⟨ws, _, ft⟩ := (C02_isec_no_panic (F := F) _).2.1 ⟨_, ht⟩
  obtain ⟨ws', hne, fu⟩ := (C02_isec_no_panic (F := F) _).2.1 ⟨_, hu⟩
  obtain ⟨d1, dq, dv, v, _, ft, fu, fq, _, hd⟩ := cut_files (fun _ _ _ => isec_iff) h ft fu
  obtain ⟨rfl, _⟩ := isec_none h.begun fq
  have h1 : d1 ≠ [] := by simpa using hd hne
  obtain ⟨f1, k1, e1⟩ := parse_complete (F := F) fu (hd hne)
  obtain ⟨f, k, e⟩ := parse_complete (F := F) ft (by simp [h1])
  cases hu.symm.trans e1
  cases ht.symm.trans e
  rw [lookup_collect, lookup_collect]
  rw [List.append_nil] at k1
  rw [List.map_append, k1] at k
  obtain ⟨a, b, rfl, ha, hb⟩ := List.map_eq_append_iff.1 k.symm
  have : a = f1 := (List.map_inj_right fun _ _ => Option.some.inj).1 ha
  subst this
  rw [List.filter_append]
  exact List.prefix_append _ _

end Isec

section Prf
open Verif.Parse.Prf
variable [UnicodeTables]

/-- A line yields at most one setting. -/
theorem prf_one {q : Str} {ws : List Spec.Prf.Setting} (hq : ∀ c ∈ q, c ≠ '\n' ∧ c ≠ '\r') (hf : Spec.Prf.IsFile q ws) :
    ws = [] ∨ ∃ w, ws = [w] := by
  cases hf with
  | last => exact Or.inl rfl
  | lastLine w t h => exact Or.inr ⟨w, rfl⟩
  | blank b rest ws _ h => exact absurd rfl (hq '\n' (by simp)).1
  | line w t rest ws _ h => exact absurd rfl (hq '\n' (by simp)).1

/-- **C119.** What is left of a profile, if it is accepted: each setting but at most one has the value it has in the whole profile, unless
the part from the line that is cut off on sets it to another value.  Without exception if the profile is cut off behind a line end. -/
theorem C119_prf {t p q : Str} {m m' : Settings} (h : CutOff t p q) (ht : parsePrf t = .ok m) (hu : parsePrf (p ++ q) = .ok m') :
    ∃ k0, ∀ k x, k ≠ k0 ∨ q = [] → Map.get? m' k = some x →
      Map.get? m k = some x ∨ ∃ v ws w, t = p ++ q ++ v ∧ Spec.Prf.IsFile (q ++ v) ws ∧ w ∈ ws ∧ (w.category, w.key) = k ∧
        Map.get? m k = some w.value := by
  obtain ⟨ws, _, ft⟩ := (C07_prf_no_panic _).2.1 ⟨_, ht⟩
  obtain ⟨ws', hne, fu⟩ := (C07_prf_no_panic _).2.1 ⟨_, hu⟩
  obtain ⟨d1, dq, dv, v, hv, ft, fu, fq, fv, hd⟩ := cut_files (fun _ _ _ => prf_iff) h ft fu
  obtain ⟨_, e, k'⟩ := C07_prf_last_wins _ _ fu (hd hne)
  cases hu.symm.trans e
  have fin : ∀ c n x, (∃ a, (d1.filter fun w => w.category = c ∧ w.key = n).getLast? = some a ∧ a.value = x) →
      Map.get? m (c, n) = some x ∨ ∃ v ws w, t = p ++ q ++ v ∧ Spec.Prf.IsFile (q ++ v) ws ∧ w ∈ ws ∧ (w.category, w.key) = (c, n) ∧
        Map.get? m (c, n) = some w.value := by
    rintro c n x ⟨a, ha, rfl⟩
    have h1 : d1 ≠ [] := by
      rintro rfl
      cases ha
    obtain ⟨_, e, k''⟩ := C07_prf_last_wins _ _ ft (by simp [h1])
    cases ht.symm.trans e
    rw [k'', List.filter_append, List.getLast?_append, ha]
    cases hl : (dv.filter fun w => w.category = c ∧ w.key = n).getLast? with
    | none => exact Or.inl rfl
    | some w =>
      have hw := List.mem_of_getLast? hl
      rw [List.mem_filter] at hw
      have := of_decide_eq_true hw.2
      exact Or.inr ⟨v, dv, w, hv, fv, hw.1, by rw [this.1, this.2], rfl⟩
  rcases prf_one h.begun fq with rfl | ⟨d, rfl⟩
  · refine ⟨([], []), fun (c, n) x _ hx => fin c n x ?_⟩
    rw [k', Option.map_eq_some_iff] at hx
    simpa using hx
  · refine ⟨(d.category, d.key), fun (c, n) x hk hx => fin c n x ?_⟩
    rw [k', Option.map_eq_some_iff] at hx
    rcases hk with hk | rfl
    · have : ¬ (d.category = c ∧ d.key = n) := fun e => hk (by rw [e.1, e.2])
      simpa [List.filter_append, this] using hx
    · cases prf_nil fq

end Prf

section Airway
open Verif.Parse.Airway Verif.AirwayGraph Verif.AirwayGraph.Spec Verif.Spec.Airway
variable {F : Type} [F64 F] [Quantize (Point F)]

/-- Without a line end there are no data. -/
theorem airway_none {q : Str} {ws : List Line} (hq : ∀ c ∈ q, c ≠ '\n' ∧ c ≠ '\r') (hf : IsFile q ws) :
    ws = [] ∧ (q = [] ∨ Spec.Isec.IsComment q) := by
  cases hf with
  | last b h => exact ⟨rfl, h⟩
  | blank b nl rest ws _ h =>
    rcases h with rfl | rfl | ⟨rfl, _⟩
    · exact absurd rfl (hq '\n' (by simp)).1
    · exact absurd rfl (hq '\n' (by simp)).1
    · exact absurd rfl (hq '\r' (by simp)).2
  | line w t nl rest ws _ h =>
    rcases h with rfl | rfl | ⟨rfl, _⟩
    · exact absurd rfl (hq '\n' (by simp)).1
    · exact absurd rfl (hq '\n' (by simp)).1
    · exact absurd rfl (hq '\r' (by simp)).2

/-- **C119.** What is left of an airway file is refused exactly if the complete lines are, or the beginning of the next line is neither
empty nor a comment. -/
theorem C119_airway_accepts (num : Str → F) (hnum : ∀ s, Verif.Spec.Isec.IsCoord s → F64.ofText s = some (num s)) {p q : Str}
    (hp : p = [] ∨ ∃ p', p = p' ++ ['\n']) (hq : ∀ c ∈ q, c ≠ '\n' ∧ c ≠ '\r') :
    parseAirwayTxt (F := F) (p ++ q) ≠ .error .parseError ↔
      parseAirwayTxt (F := F) p ≠ .error .parseError ∧ (q = [] ∨ Spec.Isec.IsComment q) := by
  have acc : ∀ t, parseAirwayTxt (F := F) t ≠ .error .parseError ↔ ∃ ws, ws ≠ [] ∧ IsFile t ws := fun t => by
    rw [Ne, C08_airway_error_iff num hnum t, Classical.not_not]
  simp only [acc]
  rcases hp with rfl | ⟨p', rfl⟩
  · constructor
    · rintro ⟨ws, hne, hf⟩
      exact absurd (airway_none hq hf).1 hne
    · rintro ⟨⟨ws, hne, hf⟩, _⟩
      exact absurd (airway_none (by simp) hf).1 hne
  · rw [show p' ++ ['\n'] ++ q = p' ++ '\n' :: q by simp]
    constructor
    · rintro ⟨ws, hne, hf⟩
      obtain ⟨w1, w2, rfl, h1, h2⟩ := airway_iff.1 hf
      obtain ⟨rfl, hb⟩ := airway_none hq h2
      exact ⟨⟨w1, by simpa using hne, h1⟩, hb⟩
    · rintro ⟨⟨ws, hne, hf⟩, hb⟩
      exact ⟨ws ++ [], by simpa using hne, airway_iff.2 ⟨ws, [], rfl, hf, .last q hb⟩⟩

/-- **C119.** Every leg in what is left of an airway file is in the whole file; there it can be flown if it can be flown in what is left,
and its minimum level is the same or lower. -/
theorem C119_airway (num : Str → F) (hnum : ∀ s, Verif.Spec.Isec.IsCoord s → F64.ofText s = some (num s)) {t p q : Str}
    {g g' : Graph (Point F)} (h : CutOff t p q) (ht : parseAirwayTxt t = .ok g) (hu : parseAirwayTxt (p ++ q) = .ok g')
    {w : Str} {a b : Key} {e' : AirwayEdge} (he : HasEdge g' w a b e') :
    ∃ e, HasEdge g w a b e ∧ (e'.validDirection = true → e.validDirection = true) ∧
      ∀ n, e'.minimumLevel = some n → ∃ k, e.minimumLevel = some k ∧ k ≤ n := by
  obtain ⟨ws, _, ft, _⟩ := airway_lines num hnum ht
  obtain ⟨ws', hne, fu, _⟩ := airway_lines num hnum hu
  obtain ⟨d1, dq, dv, v, _, ft, fu, fq, _, hd⟩ := cut_files (fun _ _ _ => airway_iff) h ft fu
  obtain ⟨rfl, _⟩ := airway_none h.begun fq
  have h1 : d1 ≠ [] := by simpa using hd hne
  have build_of : ∀ {t : Str} {ws : List Line} {g : Graph (Point F)}, IsFile t ws → ws ≠ [] → parseAirwayTxt t = .ok g →
      build (ws.flatMap (segs num)) = .ok g := by
    intro t ws g hf hne hg
    have e := parse_complete hnum hf hne
    rw [hg] at e
    split at e
    · exact e.symm
    · cases e
  have b' := build_of fu (hd hne) hu
  have bt := build_of ft (by simp [h1]) ht
  rw [List.append_nil] at b'
  rw [List.flatMap_append] at bt
  generalize d1.flatMap (segs num) = s1 at *
  generalize dv.flatMap (segs num) = s2 at *
  obtain ⟨x, hx, hr⟩ := (C10_edge_iff s1 g' b' w a b).1 ⟨e', he⟩
  obtain ⟨e, hE⟩ := (C10_edge_iff (s1 ++ s2) g bt w a b).2 ⟨x, List.mem_append_left _ hx, hr⟩
  obtain ⟨v1, l1⟩ := C11_aggregate s1 g' b' w a b e' he
  obtain ⟨v2, l2⟩ := C11_aggregate (s1 ++ s2) g bt w a b e hE
  refine ⟨e, hE, fun hv => v2.2 ?_, fun n hn => ?_⟩
  · obtain ⟨x, hx, hr⟩ := v1.1 hv
    exact ⟨x, List.mem_append_left _ hx, hr⟩
  · rw [hn] at l1
    obtain ⟨y, hy, hr⟩ := l1.1
    have hl : LevelReported (s1 ++ s2) w a b n := ⟨y, List.mem_append_left _ hy, hr⟩
    cases hm : e.minimumLevel with
    | none =>
      rw [hm] at l2
      exact absurd hl (l2 n)
    | some k =>
      rw [hm] at l2
      exact ⟨k, rfl, l2.2 n hl⟩

end Airway

section Ese
open Verif.Spec (IsNewline IsBlankChar)
variable {F G : Type} [F64 F] [Dms.DmsArith F] [F64 G] [UnicodeTables]

/-- **C119.** What is left of an ESE file is refused if the line that is cut off has begun with something else than blanks or a comment. -/
theorem C119_ese {p q : Str} (hp : p = [] ∨ ∃ p', p = p' ++ ['\n']) (hq : ∀ c ∈ q, c ≠ '\n' ∧ c ≠ '\r') {e : Parse.Ese.Ese F}
    (h : Parse.Ese.parse G (p ++ q) = .ok e) :
    p ≠ [] ∧ ((∀ d ∈ q, IsBlankChar d) ∨ ∃ sp body, q = sp ++ ';' :: body ∧ ∀ d ∈ sp, IsBlankChar d) := by
  obtain ⟨a, c, m, he, hc, hm, hb⟩ := C59_ese_last_line _ _ h
  have hcq : c ∉ q := fun hmem => by
    have := hq c hmem
    rcases hc with rfl | rfl <;> simp at this
  rcases hp with rfl | ⟨p', rfl⟩
  · exact absurd (show c ∈ q by simp only [List.nil_append] at he; rw [he]; simp) hcq
  · refine ⟨by simp, ?_⟩
    have : q = m := by
      rw [show p' ++ ['\n'] ++ q = p' ++ '\n' :: q by simp, List.append_eq_append_iff] at he
      rcases he with ⟨x, rfl, hx⟩ | ⟨x, rfl, hx⟩
      · cases x with
        | nil => simpa using (List.cons.inj hx).2
        | cons y x =>
          obtain ⟨rfl, rfl⟩ := List.cons.inj hx
          exact absurd (by simp) hcq
      · cases x with
        | nil => simpa using (List.cons.inj hx).2.symm
        | cons y x =>
          obtain ⟨rfl, rfl⟩ := List.cons.inj hx
          exact absurd (Or.inl rfl) (hm '\n' (by simp))
    rw [this]
    exact hb

end Ese

/-! ## Concrete cases -/

section Examples
attribute [local instance] asciiTables
local instance textF64c : F64 Str := ⟨some, fun _ _ => rfl⟩

/-- A list of airlines that is cut off in its second line. -/
example : CutOff (c!"DLH\ta\tb\tc" ++ ['\n'] ++ c!"AUA\tx\ty\tzzz" ++ ['\n']) (c!"DLH\ta\tb\tc" ++ ['\n']) c!"AUA\tx\ty\tz" :=
  ⟨⟨c!"zz" ++ ['\n'], by decide⟩, Or.inr ⟨_, rfl⟩, by decide⟩

/-- The exception is there: an airline that is cut off in its country is read with a wrong one, and nothing is reported. -/
theorem C119_airlines_misread : ∃ (t p q : Str) (m m' : Map Str Parse.Icao.Airline), CutOff t p q ∧ Parse.Icao.parseAirlines t = .ok m ∧
    Parse.Icao.parseAirlines (p ++ q) = .ok m' ∧
    (Map.get? m' c!"AUA").map (·.country) = some c!"z" ∧ (Map.get? m c!"AUA").map (·.country) = some c!"zzz" ∧
    (Map.get? m' c!"DLH").isSome ∧ Map.get? m' c!"DLH" = Map.get? m c!"DLH" :=
  ⟨c!"DLH\ta\tb\tc" ++ ['\n'] ++ c!"AUA\tx\ty\tzzz" ++ ['\n'], c!"DLH\ta\tb\tc" ++ ['\n'], c!"AUA\tx\ty\tz",
    [(c!"DLH", ⟨c!"DLH", c!"a", c!"b", c!"c"⟩), (c!"AUA", ⟨c!"AUA", c!"x", c!"y", c!"zzz"⟩)],
    [(c!"DLH", ⟨c!"DLH", c!"a", c!"b", c!"c"⟩), (c!"AUA", ⟨c!"AUA", c!"x", c!"y", c!"z"⟩)],
    ⟨⟨c!"zz" ++ ['\n'], by decide⟩, Or.inr ⟨_, rfl⟩, by decide⟩, by decide +kernel, by decide +kernel, by decide, by decide, by decide, by decide⟩

/-- A profile that is cut off in a value gives another sector file, and nothing is reported. -/
theorem C119_prf_misread :
    CutOff (c!"Settings\tsector\tEDMM.sct") [] c!"Settings\tsector\tE" ∧
    ((Parse.Prf.parsePrf c!"Settings\tsector\tEDMM.sct").toOption.map fun m => Map.get? m (c!"Settings", c!"sector")) = some (some c!"EDMM.sct") ∧
    ((Parse.Prf.parsePrf c!"Settings\tsector\tE").toOption.map fun m => Map.get? m (c!"Settings", c!"sector")) = some (some c!"E") :=
  ⟨⟨⟨c!"DMM.sct", by decide⟩, Or.inl rfl, by decide⟩, by decide +kernel, by decide +kernel⟩

/-- A file of fixes: cut off within the second fix it is refused, cut off within a comment it is read with the first fix. -/
example : (Parse.Isec.parseIsecTxt (F := Str) (c!"ABC 49.1 10.7 15" ++ ['\n'] ++ c!"ABC 50.1 10.7 1")).toOption.isNone ∧
    ((Parse.Isec.parseIsecTxt (F := Str) (c!"ABC 49.1 10.7 15" ++ ['\n'] ++ c!"; com")).toOption.map fun m =>
      (MultiMap.getVec m c!"ABC").map fun f => f.coordinate.y) = some [c!"49.1"] := by decide +kernel

end Examples

end Verif.Props
