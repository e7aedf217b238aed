import Verif.Props.Adaptation
import Verif.Props.AdaptationContents
import Verif.Props.AirwayPositions
import Verif.Props.Constraints
import Verif.Props.Origin
import Verif.Props.OriginTables
/-!
# C117: every name in a loaded adaptation stands in one of its files
-/

namespace Verif.Spec.Adaptation
open Verif.Adaptation
open Verif.PrfPaths (Prf)
open Verif.Display (F32Ops)

/-- The texts stand in the file `f` of the profile one behind another, in this order and without overlap. -/
def Written {F G : Type} [DecidableEq F] [F32Ops G] (env : Env F G) (prf : Prf) (f : File) (texts : List Str) : Prop :=
  ∃ s, TextOf env prf f s ∧ InOrder texts s

end Verif.Spec.Adaptation

namespace Verif.Props
open Verif.Adaptation Verif.Spec.Adaptation Verif.Proofs.Adaptation
open Verif.Spec (InOrder)
open Verif.Spec.Adaptation (Written)
open Verif.PrfPaths (Prf Path)
open Verif.Display (F32Ops)
open Verif.Dms (DmsArith)
open Verif.Parse.SymbolRule (Close)
open Verif.Locations (FloatOps)
open Verif.AirwayGraph (Quantize)

section
variable {F G : Type} [F64 F] [DmsArith F] [DecidableEq F] [FloatOps F] [Close F] [F64 G] [F32Ops G] [UnicodeTables]
  [LE F] [DecidableLE F]

theorem Written.sub {env : Env F G} {prf : Prf} {f : File} {l l' : List Str} (h : Written env prf f l) (hs : l'.Sublist l) : Written env prf f l' := by
  obtain ⟨s, h1, h2⟩ := h
  exact ⟨s, h1, h2.sub hs⟩

theorem written {A : Type} {env : Env F G} {prf : Prf} {f : File} {parse : Str → Run A} {a : A} (h : Parsed env prf f parse a) {l : List Str}
    (hl : ∀ s, parse s = .ok a → InOrder l s) : Written env prf f l := by
  obtain ⟨p, s, h1, h2, h3⟩ := h
  exact ⟨s, ⟨p, h1, h2⟩, hl s h3⟩

theorem sublist_flatMap {A B : Type} {l : List A} {a : A} (f : A → List B) (h : a ∈ l) : (f a).Sublist (l.flatMap f) := by
  induction l with
  | nil => cases h
  | cons b l ih =>
    rw [List.flatMap_cons]
    rcases List.mem_cons.1 h with rfl | h
    · exact List.sublist_append_left _ _
    · exact (ih h).trans (List.sublist_append_right _ _)

variable {env : Env F G} {prf : Prf} {a : Adaptation F G} (h : fromPrf env prf = .ok a)
include h

/-- **C117, the sector file.** The name of the adaptation, and the designators and frequencies of its VORs, NDBs and fixes. -/
theorem C117_navaids : Written env prf .sct [a.name] ∧ ∀ d,
    (∀ v ∈ a.locations.vors.getVec d, v.designator = d ∧ Written env prf .sct [v.designator, v.frequency]) ∧
    (∀ v ∈ a.locations.ndbs.getVec d, v.designator = d ∧ Written env prf .sct [v.designator, v.frequency]) ∧
    ∀ v ∈ a.locations.fixes.getVec d, v.designator = d ∧ Written env prf .sct [v.designator] := by
  obtain ⟨_, _, _, ⟨sct, hs, hn⟩, _⟩ := C74_contents h
  refine ⟨hn ▸ written hs fun s e => (C114_sct_lists s sct e).1.sub (by simp), fun d => ?_⟩
  obtain ⟨e1, e2, e3⟩ := C84_navaids h hs d
  refine ⟨fun v hv => ?_, fun v hv => ?_, fun v hv => ?_⟩
  · rw [e1] at hv
    obtain ⟨x, hx, rfl⟩ := List.mem_map.1 hv
    obtain ⟨hx, hd⟩ := List.mem_filter.1 hx
    exact ⟨by simpa using hd, written hs fun s e => (C114_sct_lists s sct e).2.2.2.2.1.sub (sublist_flatMap Spec.Origin.navaid hx)⟩
  · rw [e2] at hv
    obtain ⟨x, hx, rfl⟩ := List.mem_map.1 hv
    obtain ⟨hx, hd⟩ := List.mem_filter.1 hx
    exact ⟨by simpa using hd, written hs fun s e => (C114_sct_lists s sct e).2.2.2.1.sub (sublist_flatMap Spec.Origin.navaid hx)⟩
  · rw [e3] at hv
    obtain ⟨x, hx, rfl⟩ := List.mem_map.1 hv
    obtain ⟨hx, hd⟩ := List.mem_filter.1 hx
    exact ⟨by simpa using hd, written hs fun s e => (C114_sct_lists s sct e).2.2.1.sub (sublist_flatMap Spec.Origin.fix hx)⟩

/-- **C117, airports.** The designator stands in the sector file or in the navdata, the name behind it in the navdata or in the ICAO
airports, the country behind it in the ICAO airports, and the designators of the runways in front of it in the sector file. -/
theorem C117_airports (ho : AnyOrder env) {d : Str} {x : Locations.Airport F} (hx : a.locations.airports.get? d = some x) :
    x.designator = d ∧ (Written env prf .sct [d] ∨ Written env prf .navdata [d]) ∧
    (∀ n, x.name = some n → Written env prf .navdata [d, n] ∨ Written env prf .airports [d, n]) ∧
    (∀ c, x.country = some c → Written env prf .airports [d, c]) ∧
    ∀ r ∈ x.runways, Written env prf .sct [r.designators.1, r.designators.2, d] := by
  obtain ⟨s⟩ := steps h
  have hs : Parsed env prf .sct Parse.Sct.parse s.sct := required_ok.1 s.hsct
  have hi : Parsed env prf .airports Parse.Icao.parseAirports s.airports := required_ok.1 s.hairports
  have hn : Parsed env prf .navdata Parse.Icao.parseNavdataAirports s.navdata := required_ok.1 s.hnavdata
  have key := C84_airports h ho hs hi hn d
  simp only at key
  rw [hx] at key
  have hname : ∀ n, (((s.navdata.get? d).map (·.name)).or ((s.airports.get? d).map (·.name))) = some n →
      Written env prf .navdata [d, n] ∨ Written env prf .airports [d, n] := by
    intro n e
    rcases Option.or_eq_some_iff.1 e with e | ⟨_, e⟩
    · obtain ⟨v, hv, rfl⟩ := Option.map_eq_some_iff.1 e
      exact Or.inl (written hn fun t et => (C114_navdata et hv).1 ▸ (C114_navdata et hv).2)
    · obtain ⟨v, hv, rfl⟩ := Option.map_eq_some_iff.1 e
      exact Or.inr (written hi fun t et => (C114_airports et hv).1 ▸ (C114_airports et hv).2.sub (by simp))
  have hcountry : ∀ c, (s.airports.get? d).map (·.country) = some c → Written env prf .airports [d, c] := by
    intro c e
    obtain ⟨v, hv, rfl⟩ := Option.map_eq_some_iff.1 e
    exact written hi fun t et => (C114_airports et hv).1 ▸ (C114_airports et hv).2.sub (by simp)
  cases hl : (s.sct.airports.filter (·.designator = d)).getLast? with
  | some y =>
    rw [hl] at key
    cases key
    obtain ⟨hy, hd⟩ := List.mem_filter.1 (List.mem_of_getLast? hl)
    have hd : y.designator = d := by simpa using hd
    refine ⟨rfl, Or.inl (hd ▸ written hs fun t e => (C114_sct_lists t s.sct e).2.1.sub (List.Sublist.trans ?_ (sublist_flatMap Spec.Origin.airport hy))),
      hname, hcountry, fun r hr => ?_⟩
    · unfold Spec.Origin.airport
      simp
    · obtain ⟨z, hz, rfl⟩ := List.mem_map.1 hr
      obtain ⟨hz, hd⟩ := List.mem_filter.1 hz
      have hd : z.aerodrome = d := by simpa using hd
      exact hd ▸ written hs fun t e => (C114_sct_lists t s.sct e).2.2.2.2.2.1.sub (sublist_flatMap Spec.Origin.runway hz)
  | none =>
    rw [hl] at key
    cases hnv : s.navdata.get? d with
    | some v =>
      rw [hnv] at key hname
      cases key
      exact ⟨rfl, Or.inr (written hn fun t et => (C114_navdata et hnv).1 ▸ (C114_navdata et hnv).2.sub (by simp)), hname, hcountry, by simp⟩
    | none =>
      rw [hnv] at key
      cases key

/-- **C117, positions.** Name, frequency, identifier, prefix and suffix of a position stand in the .ese file. -/
theorem C117_positions {id : Str} {p : Position F} (hp : a.positions.get? id = some p) :
    p.id = id ∧ Written env prf .ese [p.name, p.frequency, p.id, p.prefix_, p.suffix] := by
  obtain ⟨_, _, _, _, ese, he, _, _, hpos⟩ := C74_contents h
  rw [hpos] at hp
  obtain ⟨q, hq, rfl⟩ := Option.map_eq_some_iff.1 hp
  have hm := Map.mem_of_get? hq
  obtain ⟨t, ht, e⟩ := (by obtain ⟨p, s, h1, h2, h3⟩ := he; exact ⟨s, ⟨p, h1, h2⟩, h3⟩ :
    ∃ s, TextOf env prf .ese s ∧ Parse.Ese.parse (F := F) G s = .ok ese)
  obtain ⟨h1, h2⟩ := C114_ese_positions t ese e _ hm
  exact ⟨h1.symm, t, ht, h2.sub (by unfold Spec.Origin.position; simp)⟩

/-- **C117, procedures.** Airport, runway, name and waypoints of a SID or STAR stand in the .ese file; the waypoints are returned as
they are resolved with the locations of the adaptation. -/
theorem C117_procedures (airport name : Str) :
    ∀ p ∈ Locations.Spec.stored a.locations.sids airport name ++ Locations.Spec.stored a.locations.stars airport name,
      p.airport = airport ∧ p.name = name ∧ ∃ ws, p.waypoints = ws.filterMap (Locations.Spec.resolved a.locations) ∧
        Written env prf .ese (p.airport :: (p.runway.toList ++ p.name :: ws)) := by
  obtain ⟨_, _, _, _, ese, he, _⟩ := C74_contents h
  obtain ⟨e1, e2⟩ := C84_procedures h he airport name
  intro p hp
  rw [e1, e2] at hp
  have key : ∀ q : Locations.EseProcedure, Locations.SidStar.sid q ∈ ese.sidsStars ∨ Locations.SidStar.star q ∈ ese.sidsStars →
      q.airport = airport ∧ q.name = name → p = Locations.Spec.resolvedProcedure a.locations q →
      p.airport = airport ∧ p.name = name ∧ ∃ ws, p.waypoints = ws.filterMap (Locations.Spec.resolved a.locations) ∧
        Written env prf .ese (p.airport :: (p.runway.toList ++ p.name :: ws)) := by
    rintro q hq ⟨rfl, rfl⟩ rfl
    refine ⟨rfl, rfl, q.waypoints, rfl, written he fun t e => ?_⟩
    rcases hq with hq | hq
    · exact (C114_ese_lists t ese e).1.sub (sublist_flatMap Spec.Origin.procedure hq)
    · exact (C114_ese_lists t ese e).1.sub (sublist_flatMap Spec.Origin.procedure hq)
  rcases List.mem_append.1 hp with hp | hp
  · obtain ⟨q, hq, rfl⟩ := List.mem_map.1 hp
    obtain ⟨hq, hc⟩ := List.mem_filter.1 hq
    obtain ⟨x, hx, e⟩ := List.mem_filterMap.1 hq
    cases x with
    | sid q' => cases e; exact key _ (Or.inl hx) (by simpa using hc) rfl
    | star q' => cases e
  · obtain ⟨q, hq, rfl⟩ := List.mem_map.1 hp
    obtain ⟨hq, hc⟩ := List.mem_filter.1 hq
    obtain ⟨x, hx, e⟩ := List.mem_filterMap.1 hq
    cases x with
    | sid q' => cases e
    | star q' => cases e; exact key _ (Or.inr hx) (by simpa using hc) rfl

/-- **C117, constraints.** The fixes, runways, sectors and the description of a constraint stand in the .ese file. -/
theorem C117_constraints : ∀ e ∈ a.departureConstraints ++ a.destinationConstraints,
    Written env prf .ese (Spec.Origin.constraint e.2.rule) := by
  obtain ⟨_, _, _, _, ese, he, h1, h2, _⟩ := C74_contents h
  obtain ⟨_, _, k1, k2⟩ := Verif.Constraints.C39_entries ese.constraints
  intro e hm
  rw [h1, h2] at hm
  rcases List.mem_append.1 hm with hm | hm
  · obtain ⟨x, hx, rfl⟩ := List.mem_map.1 hm
    exact written he fun t e => (C114_ese_lists t ese e).2.sub (sublist_flatMap Spec.Origin.constraint (k1 x hx).2.1)
  · obtain ⟨x, hx, rfl⟩ := List.mem_map.1 hm
    exact written he fun t e => (C114_ese_lists t ese e).2.sub (sublist_flatMap Spec.Origin.constraint (k2 x hx).2.1)

/-- **C117, sectors.** A sector is named after one of its volumes.  The owners of a sector and the runways on which it depends stand in
the .ese file behind the name of each of its volumes, and each of its airports behind the name of one. -/
theorem C117_sectors (ho : AnyOrder env) {sid : Str} {s : Sectors.Sector} (hs : a.sectors.get? sid = some s) :
    s.id = sid ∧ sid ∈ s.volumes ∧
    (∀ v ∈ s.volumes, Written env prf .ese (v :: s.positionPriority) ∧
      ∀ f ∈ s.runwayFilter, Written env prf .ese (v :: f.flatMap fun r => [r.1, r.2])) ∧
    (∀ d ∈ s.departureAerodromes, ∃ v ∈ s.volumes, Written env prf .ese [v, d]) ∧
    ∀ d ∈ s.arrivalAerodromes, ∃ v ∈ s.volumes, Written env prf .ese [v, d] := by
  obtain ⟨x⟩ := steps h
  have he : Parsed env prf .ese (Parse.Ese.parse (F := F) G) x.ese := required_ok.1 x.hese
  have hn : x.ese.sectors.keys.Nodup := by obtain ⟨_, t, _, _, h6⟩ := he; exact ese_sectors_nodup h6
  obtain ⟨_, hr⟩ := sectors_result ho hn x.hsectors
  have key : ∀ {v : Str} {l : List Str} {d : EseAirspace.Sector (List (Parse.Point F))}, x.ese.sectors.get? v = some d →
      (∀ t, Parse.Ese.parse (F := F) G t = .ok x.ese → InOrder (d.id :: l) t) → Written env prf .ese (v :: l) := by
    intro v l d hd hl
    refine written he fun t e => ?_
    have := (C114_ese_sectors t x.ese e _ (Map.mem_of_get? hd)).1
    simp only at this
    rw [this]
    exact hl t e
  have data : ∀ v ∈ s.volumes, ∃ d b, x.ese.sectors.get? v = some d ∧
      Sectors.Spec.HasPolygon (Sectors.polygonOf env.quantize env.dequantize env.choose) (entries env x.ese) v (eseSector d) b := by
    intro v hv
    obtain ⟨w, hw⟩ := (hr.sector_volumes sid s hs).2.2 v hv
    obtain ⟨e, p, hp, _⟩ := (hr.volume_iff v w).1 hw
    obtain ⟨d, hd, rfl, _⟩ := (hasPolygon_iff ho hn).1 hp
    exact ⟨d, p, hd, hp⟩
  refine ⟨(hr.sector_volumes sid s hs).1, (hr.sector_volumes sid s hs).2.1, fun v hv => ?_, fun d hd => ?_, fun d hd => ?_⟩
  · obtain ⟨d, b, hd, hp⟩ := data v hv
    obtain ⟨e1, e2, _⟩ := hr.sector_data sid s v _ b hs hv hp
    rw [e1, e2]
    refine ⟨key hd fun t e => (C114_ese_sectors t x.ese e _ (Map.mem_of_get? hd)).2.1, fun f hf => ?_⟩
    rw [List.mem_singleton] at hf
    subst hf
    exact key hd fun t e => (C114_ese_sectors t x.ese e _ (Map.mem_of_get? hd)).2.2.2.2
  · obtain ⟨v, hv, e, p, hp, hm⟩ := (hr.airports sid s hs).1 d hd
    obtain ⟨y, hy, rfl, _⟩ := (hasPolygon_iff ho hn).1 hp
    exact ⟨v, hv, key hy fun t e => (C114_ese_sectors t x.ese e _ (Map.mem_of_get? hy)).2.2.1.sub (by simp only [List.cons_sublist_cons, List.singleton_sublist]; exact hm)⟩
  · obtain ⟨v, hv, e, p, hp, hm⟩ := (hr.airports sid s hs).2 d hd
    obtain ⟨y, hy, rfl, _⟩ := (hasPolygon_iff ho hn).1 hp
    exact ⟨v, hv, key hy fun t e => (C114_ese_sectors t x.ese e _ (Map.mem_of_get? hy)).2.2.2.1.sub (by simp only [List.cons_sublist_cons, List.singleton_sublist]; exact hm)⟩

/-- **C117, tables.** The designators, names and callsigns of aircraft and airlines stand in their files. -/
theorem C117_tables :
    (∀ k x, Map.get? a.aircraft k = some x → x.designator = k ∧ Written env prf .aircraft [x.designator, x.manufacturer, x.name]) ∧
    ∀ k x, a.airlines.get? k = some x → x.designator = k ∧ Written env prf .airlines [x.designator, x.name, x.callsign, x.country] := by
  obtain ⟨_, hc, hl, _⟩ := C74_contents h
  refine ⟨fun k x hx => ⟨?_, written hc fun t e => (C114_aircraft e hx).2⟩, fun k x hx => ⟨?_, written hl fun t e => (C114_airlines e hx).2⟩⟩
  · obtain ⟨_, _, _, _, e⟩ := hc
    exact (C114_aircraft e hx).1
  · obtain ⟨_, _, _, _, e⟩ := hl
    exact (C114_airlines e hx).1

omit h in
/-- A line of an airway file stands in it. -/
theorem airway_on_line {t : Str} {ws : List Spec.Airway.Line} (hf : Spec.Airway.IsFile t ws) :
    ∀ w ∈ ws, ∃ s, s <:+: t ∧ Spec.Airway.IsLine w s := by
  induction hf with
  | last => intro w hw; cases hw
  | blank b nl rest ws _ _ _ ih =>
    intro w hw
    obtain ⟨s, hs, hl⟩ := ih w hw
    exact ⟨s, hs.trans ⟨b ++ nl, [], by simp⟩, hl⟩
  | line w' s nl rest ws hl' _ _ ih =>
    intro w hw
    rcases List.mem_cons.1 hw with rfl | hw
    · exact ⟨s, ⟨[], nl ++ rest, by simp⟩, hl'⟩
    · obtain ⟨s', hs, hl⟩ := ih w hw
      exact ⟨s', hs.trans ⟨s ++ nl, [], by simp⟩, hl⟩

omit h in
theorem nb_infix {n : Spec.Airway.Nb} {t : Str} (hn : Spec.Airway.IsNb (some n) t) : n.designator <:+: t := by
  obtain ⟨_, _, _, _, _, rfl⟩ := hn
  exact ⟨['\t'], _, by simp; rfl⟩

/-- **C117, airways.** The designators of the fixes to which an airway leads stand in the airway file. -/
theorem C117_airways (start : AirwayGraph.Fix (Parse.Point F)) (endName w : Str) (out : List (AirwayGraph.AirwayFix (Parse.Point F) × Bool)) :
    letI : Quantize (Parse.Point F) := ⟨fun p => env.quantize (p.x, p.y)⟩
    letI : Quantize (Locations.Point F) := ⟨env.quantize⟩
    a.airways.expand start endName w (fun d p => a.locations.containsNavElement d (p.x, p.y)) = .ok (some out) →
    ∀ x ∈ out, Written env prf .airways [x.1.fix.designator] := by
  obtain ⟨num, text, lines, _, ht, hf, hx⟩ := C116_loaded h
  intro e x hm
  obtain ⟨l, hl, hx⟩ := hx start endName w out e x hm
  obtain ⟨s, hs, hl⟩ := airway_on_line hf l hl
  refine ⟨text, ht, (InOrder.one _).of_infix (List.IsInfix.trans ?_ hs)⟩
  obtain ⟨n1, n2, cm, _, _, _, _, _, h1, h2, _, rfl⟩ := hl
  rcases hx with ⟨hx, _⟩ | ⟨n, hn, hx, _⟩
  · rw [hx]
    exact ⟨[], _, rfl⟩
  · rw [hx]
    rcases hn with hn | hn
    · rw [hn] at h1
      refine (nb_infix h1).trans ⟨l.fix ++ '\t' :: (l.lat ++ '\t' :: (l.lng ++ '\t' :: '1' :: '4' :: '\t' :: (l.airway ++ '\t' :: l.type))), n2 ++ cm, ?_⟩
      simp [List.append_assoc]
    · rw [hn] at h2
      refine (nb_infix h2).trans ⟨l.fix ++ '\t' :: (l.lat ++ '\t' :: (l.lng ++ '\t' :: '1' :: '4' :: '\t' :: (l.airway ++ '\t' :: (l.type ++ n1)))), cm, ?_⟩
      simp [List.append_assoc]

end
end Verif.Props
