import Verif.Parse.Icao
import Verif.Tokens.IcaoAircraft
import Verif.Tokens.IcaoAirlines
import Verif.Tokens.IcaoAirports
import Verif.Tokens.NavdataAirports
/-!
# Token shapes of the ICAO and navdata files
-/

namespace Verif.Parse.Icao
set_option linter.unusedSectionVars false
open Verif.Peg

theorem foldlM_ok {A B : Type} {f : A → B → Run A} {P : B → Prop} (h : ∀ a b, P b → ∃ a', f a b = .ok a') :
    ∀ (l : List B) (a : A), (∀ b ∈ l, P b) → ∃ a', l.foldlM f a = .ok a' := by
  intro l
  induction l with
  | nil => intro a _; exact ⟨a, rfl⟩
  | cons b l ih =>
    intro a hl
    obtain ⟨a1, h1⟩ := h a b (hl b List.mem_cons_self)
    obtain ⟨a2, h2⟩ := ih a1 fun c hc => hl c (List.mem_cons_of_mem _ hc)
    exact ⟨a2, by rw [List.foldlM_cons, h1]; exact h2⟩

/-- A rule whose body is a choice of one-character literals. -/
theorem tok_text {R : Type} {sk : St → Res R} {K : Str → Str → Prop} {e : R} {ty : Ty} {x : Expr R} {t : Tree R}
    (ha : emits ty .nonAtomic = true) (h : Tok sk K (.rule e ty x) .nonAtomic t) {P : Str → Prop}
    (hp : ∀ s r ts, Out sk K x (inside ty .nonAtomic) s r ts → P s) : P t.asStr := by
  obtain ⟨s, r, kids, rfl, ho⟩ := tok_rule ha h
  exact hp _ _ _ ho

section Aircraft
open IcaoAircraft
variable [UnicodeTables] {K : Str → Str → Prop}

theorem wtc_ok {t : Tree Rule} (h : Tok skip K wtc .nonAtomic t) : ∃ w, Wtc.fromStr t.asStr = some w := by
  refine tok_text rfl h (P := fun s => ∃ w, Wtc.fromStr s = some w) ?_
  intro s r ts ho
  rcases ho with ⟨rfl, _⟩ | ⟨⟨rfl, _⟩ | ⟨⟨rfl, _⟩ | ⟨⟨rfl, _⟩ | ⟨⟨rfl, _⟩, _⟩, _⟩, _⟩, _⟩ <;> exact ⟨_, rfl⟩

theorem aircrafttype_ok {t : Tree Rule} (h : Tok skip K aircrafttype .nonAtomic t) :
    ∃ w, AircraftType.fromStr t.asStr = some w := by
  refine tok_text rfl h (P := fun s => ∃ w, AircraftType.fromStr s = some w) ?_
  intro s r ts ho
  rcases ho with ⟨rfl, _⟩ | ⟨⟨rfl, _⟩ | ⟨⟨rfl, _⟩ | ⟨⟨rfl, _⟩ | ⟨⟨rfl, _⟩ | ⟨⟨rfl, _⟩ | ⟨⟨rfl, _⟩, _⟩, _⟩, _⟩, _⟩, _⟩, _⟩ <;>
    exact ⟨_, rfl⟩

theorem enginetype_ok {t : Tree Rule} (h : Tok skip K enginetype .nonAtomic t) :
    ∃ w, EngineType.fromStr t.asStr = some w := by
  refine tok_text rfl h (P := fun s => ∃ w, EngineType.fromStr s = some w) ?_
  intro s r ts ho
  rcases ho with ⟨rfl, _⟩ | ⟨⟨rfl, _⟩ | ⟨⟨rfl, _⟩ | ⟨⟨rfl, _⟩ | ⟨⟨rfl, _⟩ | ⟨⟨rfl, _⟩, _⟩, _⟩, _⟩, _⟩, _⟩ <;> exact ⟨_, rfl⟩

theorem aircraft_step {t : Tree Rule} (h : t.asRule = .definition → Tok skip K definition .nonAtomic t) (acc : AircraftMap) :
    ∃ acc', stepAircraft acc t = .ok acc' := by
  by_cases hd : t.asRule = .definition
  · obtain ⟨s, kids, rfl, hk⟩ := tok_kids rfl (h hd)
    simp only [kids_simp] at hk
    obtain ⟨d, _, w, hw, a, ha, n, _, e, he, m, _, na, _, rfl⟩ := hk
    obtain ⟨w', hw⟩ := wtc_ok hw
    obtain ⟨a', ha⟩ := aircrafttype_ok ha
    obtain ⟨e', he⟩ := enginetype_ok he
    simp [stepAircraft, hw, ha, he]
  · exact ⟨acc, by rw [stepAircraft, if_neg hd]⟩

theorem aircraft_total (content : Str) :
    (∃ m, parseAircraft content = .ok m) ∨ parseAircraft content = .error .parseError := by
  rcases run_tok aircraft rfl (sk := skip) (skipBoth_ok rfl rfl) rfl rfl content with h | ⟨kids, h, ho⟩
  · right
    rw [parseAircraft, h]; rfl
  · left
    have hk := out_kids _ _ _ _ _ ho
    simp only [kids_simp] at hk
    obtain ⟨ts, h1, rfl⟩ := hk
    obtain ⟨m, hm⟩ := foldlM_ok (f := stepAircraft)
      (P := fun t => t.asRule = .definition → Tok skip (Blank [WHITESPACE, COMMENT]) definition .nonAtomic t)
      (fun a b hb => aircraft_step hb a) (ts ++ [Tree.node Rule.EOI [] []]) [] (by
        intro t ht hd
        rcases List.mem_append.1 ht with ht | ht
        · rcases h1 t ht with h | h
          · exact h
          · obtain ⟨_, _, rfl, _⟩ := tok_kids rfl h
            cases hd
        · rw [List.mem_singleton.1 ht] at hd
          cases hd)
    exact ⟨m, by rw [parseAircraft, h]; exact hm⟩

end Aircraft

section Airports
open IcaoAirports
variable [UnicodeTables] {K : Str → Str → Prop}

theorem airport_step {t : Tree Rule} (h : t.asRule = .definition → Tok skip K definition .nonAtomic t)
    (acc : Map Str IcaoAirport) : ∃ acc', stepAirport acc t = .ok acc' := by
  by_cases hd : t.asRule = .definition
  · obtain ⟨s, kids, rfl, hk⟩ := tok_kids rfl (h hd)
    simp only [kids_simp] at hk
    obtain ⟨d, _, n, _, c, _, rfl⟩ := hk
    simp [stepAirport]
  · exact ⟨acc, by rw [stepAirport, if_neg hd]⟩

theorem airports_total (content : Str) :
    (∃ m, parseAirports content = .ok m) ∨ parseAirports content = .error .parseError := by
  rcases run_tok aircraft rfl (sk := skip) (skipBoth_ok rfl rfl) rfl rfl content with h | ⟨kids, h, ho⟩
  · right
    rw [parseAirports, h]; rfl
  · left
    have hk := out_kids _ _ _ _ _ ho
    simp only [kids_simp] at hk
    obtain ⟨ts, h1, rfl⟩ := hk
    obtain ⟨m, hm⟩ := foldlM_ok (f := stepAirport)
      (P := fun t => t.asRule = .definition → Tok skip (Blank [WHITESPACE, COMMENT]) definition .nonAtomic t)
      (fun a b hb => airport_step hb a) (ts ++ [Tree.node Rule.EOI [] []]) [] (by
        intro t ht hd
        rcases List.mem_append.1 ht with ht | ht
        · exact h1 t ht
        · rw [List.mem_singleton.1 ht] at hd
          cases hd)
    exact ⟨m, by rw [parseAirports, h]; exact hm⟩

end Airports

section Navdata
open NavdataAirports
variable [UnicodeTables] {K : Str → Str → Prop} {F : Type} [F64 F]

theorem decimal_ok {t : Tree Rule} (h : Tok skip K decimal .nonAtomic t) :
    ∃ x : F, F64.ofText t.asStr = some x := by
  refine tok_text rfl h (P := fun s => ∃ x : F, F64.ofText s = some x) ?_
  intro s r ts ho
  exact F64.some_of_decimal (out_decimal (by simp [inside]) ho).2

theorem navdata_step {t : Tree Rule} (h : t.asRule = .definition → Tok skip K definition .nonAtomic t)
    (acc : Map Str (NavdataAirport F)) : ∃ acc', stepNavdata acc t = .ok acc' := by
  by_cases hd : t.asRule = .definition
  · obtain ⟨s, kids, rfl, hk⟩ := tok_kids rfl (h hd)
    simp only [kids_simp] at hk
    obtain ⟨d, _, x, hx, y, hy, c, _, rfl⟩ := hk
    obtain ⟨x', hx⟩ := decimal_ok (F := F) hx
    obtain ⟨y', hy⟩ := decimal_ok (F := F) hy
    simp [stepNavdata, hx, hy]
  · exact ⟨acc, by rw [stepNavdata, if_neg hd]⟩

theorem navdata_total (content : Str) :
    (∃ m, parseNavdataAirports (F := F) content = .ok m) ∨ parseNavdataAirports (F := F) content = .error .parseError := by
  rcases run_tok airports rfl (sk := skip) (skipBoth_ok rfl rfl) rfl rfl content with h | ⟨kids, h, ho⟩
  · right
    rw [parseNavdataAirports, h]; rfl
  · left
    have hk := out_kids _ _ _ _ _ ho
    simp only [kids_simp] at hk
    obtain ⟨ts, h1, rfl⟩ := hk
    obtain ⟨m, hm⟩ := foldlM_ok (f := stepNavdata (F := F))
      (P := fun t => t.asRule = .definition → Tok skip (Blank [WHITESPACE, COMMENT]) definition .nonAtomic t)
      (fun a b hb => navdata_step hb a) (ts ++ [Tree.node Rule.EOI [] []]) [] (by
        intro t ht hd
        rcases List.mem_append.1 ht with ht | ht
        · exact h1 t ht
        · rw [List.mem_singleton.1 ht] at hd
          cases hd)
    exact ⟨m, by rw [parseNavdataAirports, h]; exact hm⟩

end Navdata

section Airlines
open IcaoAirlines
variable {K : Str → Str → Prop}

theorem airline_from {t : Tree Rule} (h : Tok skip K definition .nonAtomic t) :
    ∃ a, airlineFromPest t = some (.ok a) := by
  obtain ⟨s, kids, rfl, hk⟩ := tok_kids rfl h
  simp only [kids_simp] at hk
  obtain ⟨d, hd, n, hn, c, hc, o, ho, rfl⟩ := hk
  obtain ⟨_, _, rfl, _⟩ := tok_kids rfl hd
  obtain ⟨_, _, rfl, _⟩ := tok_kids rfl hn
  obtain ⟨_, _, rfl, _⟩ := tok_kids rfl hc
  obtain ⟨_, _, rfl, _⟩ := tok_kids rfl ho
  simp [airlineFromPest]

theorem airlines_from {ts : List (Tree Rule)} (h : ∀ t ∈ ts, Tok skip K definition .nonAtomic t) :
    ∃ as, airlinesFromPest (ts ++ [Tree.node Rule.EOI [] []]) = .ok (as, [Tree.node Rule.EOI [] []]) := by
  induction ts with
  | nil => exact ⟨[], rfl⟩
  | cons t ts ih =>
    obtain ⟨a, ha⟩ := airline_from (h t List.mem_cons_self)
    obtain ⟨as, has⟩ := ih fun u hu => h u (List.mem_cons_of_mem _ hu)
    exact ⟨a :: as, by rw [List.cons_append, airlinesFromPest, ha, has]; rfl⟩

theorem airlines_total (content : Str) :
    (∃ m, parseAirlines content = .ok m) ∨ parseAirlines content = .error .parseError := by
  rcases run_tok airlines rfl (sk := skip) (skipBoth_ok rfl rfl) rfl rfl content with h | ⟨kids, h, ho⟩
  · right
    rw [parseAirlines, h]; rfl
  · left
    have hk := out_kids _ _ _ _ _ ho
    simp only [kids_simp] at hk
    obtain ⟨ts, h1, rfl⟩ := hk
    obtain ⟨as, has⟩ := airlines_from h1
    refine ⟨as.foldl (fun acc airline => Map.insertIfNew acc airline.designator airline) [], ?_⟩
    rw [parseAirlines, h]
    simp only [run_ok_bind, fromPest, next_cons, Tree.asRule_node, Tree.inner_node, if_pos, has]
    rfl

end Airlines

end Verif.Parse.Icao
