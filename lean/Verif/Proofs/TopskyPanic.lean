import Verif.Proofs.TopskyFile
import Verif.Proofs.SymbolRuleSound
import Verif.Tokens.Topsky
import Verif.Peg.Safe
/-!
# TopSky symbol and map files: where panics can come from
-/

namespace Verif.Proofs.Topsky
open Verif.Peg Verif.Peg.Topsky Verif.Spec Verif.Spec.Topsky Verif.Dms Verif.Parse.Topsky Verif.Proofs.SymbolRule
open Verif.Parse.SymbolRule (Kind Close parseRule parsePoint)

set_option linter.unusedSectionVars false

abbrev Sf {A : Type} (T : Str) (m : Run A) : Prop := Safe Harmful T m

theorem gated_safe {A : Type} {p : Prop} [Decidable p] {v : A} {T : Str} (h : ¬ p → ∃ s, s <:+: T ∧ Harmful s) : Sf T (gated p v) := by
  unfold gated
  by_cases hp : p
  · rw [if_pos hp]; exact safe_ok v
  · exact Or.inr (h hp)

/-- Nothing can stand between two tokens of a line, except for what makes it end. -/
theorem gap_none {m : Str} {c : Char} {t : Str} (h : K m (c :: t)) (h1 : isSpTab c = false) (h2 : isNewlineChar c = false) : m = [] := by
  rcases (k_cases h).2 with h | ⟨_, ho⟩
  · exact h
  · rcases over_head ho rfl with h | h
    · rw [h1] at h; cases h
    · rw [h2] at h; cases h

theorem gap_visible {m v r : Str} (h : K m (v ++ r)) (hv : visibleHead v = true) : m = [] := by
  cases v with
  | nil => cases hv
  | cons c t =>
    have hv : visible c = true := hv
    simp only [visible, Bool.and_eq_true, Bool.not_eq_true'] at hv
    exact gap_none h (by simp [hv]) (by simp [hv])

/-! ## Tokens -/

theorem not_fails_alt_right {x : Expr Rule} {w t : Str} {a : Atom} (h : w <+: t) : ¬ Fails skip (x ∥ .str w) a t := fun hf =>
  fails_str.1 (fails_alt hf).2 h

theorem integer_token {s r : Str} {ts : List Tr} (h : Out skip K integer .nonAtomic s r ts) : IsInteger s ∧ ts = [.node .integer s []] := by
  obtain ⟨kids, h1, h2⟩ := h
  obtain ⟨rfl, hi⟩ := out_integer (by decide) h1
  exact ⟨hi, h2⟩

theorem tok_integer {t : Tr} (h : Tok skip K integer .nonAtomic t) : IsInteger t.asStr := by
  obtain ⟨s, r, h⟩ := h
  obtain ⟨hi, e⟩ := integer_token h
  obtain rfl := (List.cons.inj e).1
  exact hi

theorem tok_decimal {t : Tr} (h : Tok skip K decimal .nonAtomic t) : IsDecimal t.asStr := by
  obtain ⟨s, r, kids, h1, h2⟩ := h
  obtain ⟨rfl, hd⟩ := out_decimal (by decide) h1
  obtain rfl := (List.cons.inj h2).1
  exact hd

theorem text_token {s r : Str} {ts : List Tr} (h : Out skip K colon_delimited_text .nonAtomic s r ts) :
    ∃ kids, ts = [.node .colon_delimited_text s kids] ∧ ∀ c ∈ s, c ≠ ':' ∧ isNewlineChar c = false := by
  obtain ⟨kids, h1, h2⟩ := h
  refine ⟨kids, h2, ?_⟩
  refine out_star_ind h1 (fun s _ => ∀ c ∈ s, c ≠ ':' ∧ isNewlineChar c = false) (by simp) ?_
  rintro m s ts s' ts' hm ho hq
  replace hm : m = [] := by
    rcases hm with h | h
    · exact h
    · exact gap_nil (by decide) h
  obtain ⟨s1, s2, t1, t2, rfl, rfl, ⟨e1, _, hn⟩, ⟨c, e2, _, _⟩⟩ := (out_seq_atomic (by decide)).1 ho
  subst hm e1 e2
  intro d hd
  simp only [List.nil_append, List.cons_append, List.mem_cons] at hd
  rcases hd with rfl | hd
  · constructor
    · rintro rfl
      exact absurd hn (not_fails_alt_right (w := c!":") ⟨_, rfl⟩)
    · cases hc : isNewlineChar d with
      | false => rfl
      | true =>
        obtain ⟨st, ts, e⟩ := nl_ok good (a := .atomic) (by decide) (sp := []) (by simp) hc (t := s' ++ r)
        have := (uniform_eval good.uniform (Base.NL : Expr Rule) rfl .atomic).fail_of (fails_alt hn).1 ⟨0, d :: (s' ++ r), []⟩ (by simp)
        rw [show ([] : Str) ++ d :: (s' ++ r) = d :: (s' ++ r) from rfl] at e
        rw [e] at this
        cases this
  · exact hq d hd

theorem gap_text {m s t : Str} (h : K m (s ++ ':' :: t)) (hs : ∀ c ∈ s, c ≠ ':' ∧ isNewlineChar c = false) : m = [] := by
  rcases (k_cases h).2 with h | ⟨_, ho⟩
  · exact h
  · rcases ho with ho | ⟨sp, c, u, e, h1, h2⟩
    · exact absurd ho (by simp)
    · exfalso
      rcases List.append_eq_append_iff.1 e with ⟨a, rfl, e2⟩ | ⟨a, rfl, e2⟩
      · cases a with
        | nil =>
          obtain rfl := (List.cons.inj e2).1
          cases h2
        | cons x a =>
          obtain rfl := (List.cons.inj e2).1
          exact absurd (h1 ':' (by simp)) (by decide)
      · cases a with
        | nil =>
          obtain rfl := (List.cons.inj e2).1
          cases h2
        | cons x a =>
          obtain rfl := (List.cons.inj e2).1
          have := (hs c (by simp)).2
          rw [h2] at this
          cases this

section
variable {F : Type} [F64 F] [DmsArith F] (num : Str → F) (hnum : ∀ s, IsDecimal s → F64.ofText s = some (num s))
include hnum

theorem coord_safe {t : Tr} (h : Tok skip K coordinate .nonAtomic t) :
    t.asRule = .coordinate ∧ Sf t.asStr (parseLocation (F := F) t) := by
  obtain ⟨s, r, kids, rfl, ⟨s1, m, s2, t1, t2, rfl, hg, h1, ⟨s3, m2, s4, t3, t4, rfl, hg2, ⟨rfl, rfl⟩, h4, rfl⟩, rfl⟩⟩ := tok_rule rfl h
  refine ⟨rfl, ?_⟩
  obtain ⟨lat, v1, rfl, rfl⟩ := coordPart_token h1
  obtain ⟨lng, v4, rfl, rfl⟩ := coordPart_token h4
  have hg : K m (':' :: (m2 ++ lng.text ++ r)) := by simpa using hg
  obtain rfl := gap_none hg (by decide) (by decide)
  obtain rfl := gap_visible hg2 (part_visible v4)
  have := read_loc num hnum (l := .coordinate lat lng) ⟨v1, v4⟩
  have e : parseLocation (F := F) (.node .coordinate (lat.text ++ [] ++ (c!":" ++ [] ++ lng.text)) ([partTree lat] ++ [partTree lng])) =
    parseLocation (locTree (.coordinate lat lng)) := rfl
  rw [e, this]
  refine gated_safe fun hf => ⟨_, ?_, .position lat lng v1 v4 hf⟩
  simp [Tree.asStr]

theorem loc_safe {t : Tr} (h : Tok skip K coordinate .nonAtomic t ∨ Tok skip K colon_delimited_text .nonAtomic t) :
    t.asRule ≠ .textalign_config ∧ Sf t.asStr (parseLocation (F := F) t) := by
  rcases h with h | h
  · obtain ⟨e, hs⟩ := coord_safe num hnum h
    exact ⟨by rw [e]; decide, hs⟩
  · obtain ⟨s, r, kids, rfl, _⟩ := tok_rule rfl h
    exact ⟨(by decide : Rule.colon_delimited_text ≠ .textalign_config), safe_ok _⟩

end

/-! ## Conditions -/

theorem names_ok {t : Tr} (h : Tok skip K wildcard .nonAtomic t ∨ Tok skip K names .nonAtomic t) : ∃ v, parseNames t = .ok v := by
  rcases h with h | h <;> obtain ⟨s, r, kids, rfl, _⟩ := tok_rule rfl h
  · exact ⟨_, rfl⟩
  · exact ⟨_, rfl⟩

theorem runway_ok {t : Tr} (h : Tok skip K runway .nonAtomic t) : ∃ v, parseRunwayIdentifier t = .ok v := by
  obtain ⟨s, kids, rfl, hk⟩ := tok_kids rfl h
  simp only [kids_simp] at hk
  obtain ⟨a, ha, b, hb, rfl⟩ := hk
  exact ⟨_, rfl⟩

theorem mapM_ok' {A B : Type} {f : A → Run B} : ∀ {l : List A}, (∀ a ∈ l, ∃ v, f a = .ok v) → ∃ v, l.mapM f = .ok v
  | [], _ => ⟨[], rfl⟩
  | a :: l, h => by
    obtain ⟨v, hv⟩ := h a List.mem_cons_self
    obtain ⟨w, hw⟩ := mapM_ok' fun b hb => h b (List.mem_cons_of_mem _ hb)
    exact ⟨v :: w, by rw [List.mapM_cons, hv, run_ok_bind, hw]; rfl⟩

theorem runways_ok {t : Tr} (h : Tok skip K wildcard .nonAtomic t ∨ Tok skip K runways .nonAtomic t) : ∃ v, parseRunways t = .ok v := by
  rcases h with h | h
  · obtain ⟨s, r, kids, rfl, _⟩ := tok_rule rfl h
    exact ⟨_, rfl⟩
  · obtain ⟨s, kids, rfl, hk⟩ := tok_kids rfl h
    simp only [kids_simp] at hk
    obtain ⟨a, ha, l, hl, rfl⟩ := hk
    obtain ⟨v, hv⟩ := mapM_ok' (f := parseRunwayIdentifier) (l := a :: l) fun b hb => by
      rcases List.mem_cons.1 hb with rfl | hb
      · exact runway_ok ha
      · exact runway_ok (hl b hb)
    exact ⟨some v, by show ((a :: l).mapM parseRunwayIdentifier >>= _) = _; rw [hv]; rfl⟩

theorem nextNames_ok {t : Tr} {ts : List Tr} {v : Option (List Str)} (h : parseNames t = .ok v) : nextNames (t :: ts) = .ok (v, ts) := by
  simp only [nextNames, next, run_ok_bind, h]
  rfl

theorem nextRunways_ok {t : Tr} {ts : List Tr} {v : Option (List RunwayIdentifier)} (h : parseRunways t = .ok v) :
    nextRunways (t :: ts) = .ok (v, ts) := by
  simp only [nextRunways, next, run_ok_bind, h]
  rfl

theorem ids_ok {a b c d : Tr} (ha : Tok skip K wildcard .nonAtomic a ∨ Tok skip K names .nonAtomic a)
    (hb : Tok skip K wildcard .nonAtomic b ∨ Tok skip K names .nonAtomic b)
    (hc : Tok skip K wildcard .nonAtomic c ∨ Tok skip K names .nonAtomic c)
    (hd : Tok skip K wildcard .nonAtomic d ∨ Tok skip K names .nonAtomic d) {q : Rule} {s : Str} :
    ∃ v, parseActiveIds (.node q s [a, b, c, d]) = .ok v := by
  obtain ⟨a', ha⟩ := names_ok ha
  obtain ⟨b', hb⟩ := names_ok hb
  obtain ⟨c', hc⟩ := names_ok hc
  obtain ⟨d', hd⟩ := names_ok hd
  refine ⟨⟨a', b', c', d'⟩, ?_⟩
  simp only [parseActiveIds, Tree.inner, nextNames_ok ha, run_ok_bind, nextNames_ok hb, nextNames_ok hc, nextNames_ok hd]
  rfl

theorem rwy_ok {a b : Tr} (ha : Tok skip K wildcard .nonAtomic a ∨ Tok skip K runways .nonAtomic a)
    (hb : Tok skip K wildcard .nonAtomic b ∨ Tok skip K runways .nonAtomic b) {q : Rule} {s : Str} :
    ∃ v, parseActiveRunways (.node q s [a, b]) = .ok v := by
  obtain ⟨a', ha⟩ := runways_ok ha
  obtain ⟨b', hb⟩ := runways_ok hb
  refine ⟨⟨a', Option.none, b', Option.none⟩, ?_⟩
  simp only [parseActiveRunways, Tree.inner, nextRunways_ok ha, run_ok_bind, nextRunways_ok hb]
  rfl

theorem rwyEx_ok {a b c d : Tr} (ha : Tok skip K wildcard .nonAtomic a ∨ Tok skip K runways .nonAtomic a)
    (hb : Tok skip K wildcard .nonAtomic b ∨ Tok skip K runways .nonAtomic b)
    (hc : Tok skip K wildcard .nonAtomic c ∨ Tok skip K runways .nonAtomic c)
    (hd : Tok skip K wildcard .nonAtomic d ∨ Tok skip K runways .nonAtomic d) {q : Rule} {s : Str} :
    ∃ v, parseActiveRunwaysWithExcludes (.node q s [a, b, c, d]) = .ok v := by
  obtain ⟨a', ha⟩ := runways_ok ha
  obtain ⟨b', hb⟩ := runways_ok hb
  obtain ⟨c', hc⟩ := runways_ok hc
  obtain ⟨d', hd⟩ := runways_ok hd
  refine ⟨⟨a', b', c', d'⟩, ?_⟩
  simp only [parseActiveRunwaysWithExcludes, Tree.inner, nextRunways_ok ha, run_ok_bind, nextRunways_ok hb, nextRunways_ok hc, nextRunways_ok hd]
  rfl

theorem operator_ok {t : Tr} (h : Tok skip K active_map_operator .nonAtomic t) : ∃ v, parseOperator t.asStr = .ok v := by
  obtain ⟨s, r, kids, rfl, ho⟩ := tok_rule rfl h
  rcases ho with ⟨rfl, _⟩ | ⟨⟨rfl, _⟩, _⟩
  · exact ⟨_, rfl⟩
  · exact ⟨_, rfl⟩

/-- Every condition is read. -/
theorem cond_ok {kids : List Tr} (h : Kids skip K active_options .nonAtomic kids) {q : Rule} {s : Str} :
    ∃ v, parseActive (.node q s kids) = .ok v := by
  simp only [active_options] at h
  rcases h with h | h | h | h | h | h | h | h | h | h | h <;> obtain ⟨t, h, rfl⟩ := h <;> obtain ⟨s1, kids, rfl, hk⟩ := tok_kids rfl h
  · exact ⟨_, rfl⟩
  · simp only [kids_simp] at hk
    obtain ⟨a, ha, b, hb, c, hc, d, hd, rfl⟩ := hk
    obtain ⟨v, hv⟩ := ids_ok ha hb hc hd (q := .active_id) (s := s1)
    exact ⟨.id v, by show (parseActiveIds _ >>= _) = _; rw [hv]; rfl⟩
  · simp only [kids_simp] at hk
    obtain ⟨a, ha, b, hb, rfl⟩ := hk
    exact ⟨_, rfl⟩
  · exact ⟨_, rfl⟩
  · simp only [kids_simp] at hk
    obtain ⟨a, ha, b, hb, rfl⟩ := hk
    exact ⟨_, rfl⟩
  · simp only [kids_simp] at hk
    obtain ⟨a, ha, rfl⟩ := hk
    exact ⟨_, rfl⟩
  · simp only [kids_simp] at hk
    obtain ⟨a, ha, b, hb, c, hc, d, hd, rfl⟩ := hk
    obtain ⟨v, hv⟩ := ids_ok ha hb hc hd (q := .active_callsign) (s := s1)
    exact ⟨.callsign v, by show (parseActiveIds _ >>= _) = _; rw [hv]; rfl⟩
  · simp only [kids_simp] at hk
    obtain ⟨a, ha, b, hb, c, hc, d, hd, rfl⟩ := hk
    obtain ⟨v, hv⟩ := rwyEx_ok ha hb hc hd (q := .active_rwy_with_excludes) (s := s1)
    exact ⟨.runway v, by show (parseActiveRunwaysWithExcludes _ >>= _) = _; rw [hv]; rfl⟩
  · simp only [kids_simp] at hk
    obtain ⟨a, ha, b, hb, rfl⟩ := hk
    obtain ⟨v, hv⟩ := rwy_ok ha hb (q := .active_rwy) (s := s1)
    exact ⟨.runway v, by show (parseActiveRunways _ >>= _) = _; rw [hv]; rfl⟩
  · exact ⟨_, rfl⟩
  · simp only [kids_simp] at hk
    obtain ⟨a, ha, b, hb, c, hc, rfl⟩ := hk
    obtain ⟨v, hv⟩ := operator_ok ha
    exact ⟨.map v b.asStr c.asStr, by show (parseOperator a.asStr >>= _) = _; rw [hv]; rfl⟩

/-! ## Settings -/

section
variable {F G : Type} [F64 F] [DmsArith F] [DecidableEq F] [F64 G] (num : Str → F) (numG : Str → G) (upper : Str → Str)
  (hnum : ∀ s, IsDecimal s → F64.ofText s = some (num s)) (hnumG : ∀ s, IsDecimal s → F64.ofText s = some (numG s))

/-- A setting is read or has a harmful part. -/
def Fine (F G : Type) [F64 F] [DmsArith F] [DecidableEq F] [F64 G] (upper : Str → Str) (t : Tr) : Prop :=
  Sf t.asStr (parseMapRule (F := F) (G := G) upper t)

theorem fine_ok {t : Tr} {v : Option (MapRule F G)} (h : parseMapRule upper t = .ok v) : Fine F G upper t := Or.inl ⟨v, h⟩

include hnumG in
theorem f32_ok {t : Tr} {ts : List Tr} (h : IsDecimal t.asStr) : nextF32 (t :: ts) = .ok (numG t.asStr, ts) := by
  simp only [nextF32, nextStr, next, run_ok_bind]
  show (unwrap (F64.ofText t.asStr) >>= _) = _
  rw [hnumG _ h]
  rfl

include hnum in
theorem nextLoc_safe {t : Tr} {ts : List Tr} {T : Str} (h : Sf T (parseLocation (F := F) t)) : Sf T (nextLocation (F := F) (t :: ts)) := by
  simp only [nextLocation, next, run_ok_bind]
  exact h.bind fun _ _ => safe_ok _

include hnum in
theorem fine_coord {t : Tr} (h : Tok skip K coord .nonAtomic t) : Fine F G upper t := by
  obtain ⟨s, r, kids, rfl, ho⟩ := tok_rule rfl h
  have hi := out_infix _ _ _ _ _ ho
  have hk := out_kids _ _ _ _ _ ho
  simp only [kids_simp] at hk
  obtain ⟨a, ha, rfl⟩ := hk
  have := ((loc_safe num hnum ha).2).mono (hi a (by simp))
  show Sf s (nextLocation [a] >>= _)
  exact (nextLoc_safe num hnum this).bind fun _ _ => safe_ok _

include hnum in
theorem ends_safe {t : Tr} (h : Tok skip K maplinecoordinates .nonAtomic t ∨ Tok skip K maplinewpts .nonAtomic t) :
    Sf t.asStr (parseEnds (F := F) t) := by
  have main : ∀ {q : Rule} {s : Str} {a b : Tr}, Sf s (parseLocation (F := F) a) → Sf s (parseLocation (F := F) b) →
      Sf s (parseEnds (F := F) (.node q s [a, b])) := fun {q} {s} {a} {b} ha hb => by
    show Sf _ (nextLocation _ >>= _)
    refine (nextLoc_safe num hnum ha).bind fun v hv => ?_
    rcases ha with ⟨w, hw⟩ | hbad
    · have : v = (w, [b]) := by
        simp only [nextLocation, next, run_ok_bind, hw] at hv
        cases hv
        rfl
      subst this
      exact (nextLoc_safe num hnum hb).bind fun _ _ => safe_ok _
    · exact Or.inr hbad
  rcases h with h | h
  · obtain ⟨s, r, kids, rfl, ho⟩ := tok_rule rfl h
    have hi := out_infix _ _ _ _ _ ho
    have hk := out_kids _ _ _ _ _ ho
    simp only [kids_simp] at hk
    obtain ⟨a, ha, b, hb, rfl⟩ := hk
    exact main (((loc_safe num hnum (Or.inl ha)).2).mono (hi a (by simp))) (((loc_safe num hnum (Or.inl hb)).2).mono (hi b (by simp)))
  · obtain ⟨s, r, kids, rfl, ho⟩ := tok_rule rfl h
    have hi := out_infix _ _ _ _ _ ho
    have hk := out_kids _ _ _ _ _ ho
    simp only [kids_simp] at hk
    obtain ⟨a, ha, b, hb, rfl⟩ := hk
    exact main (((loc_safe num hnum (Or.inr ha)).2).mono (hi a (by simp))) (((loc_safe num hnum (Or.inr hb)).2).mono (hi b (by simp)))

include hnum in
theorem fine_line {t : Tr} (h : Tok skip K mapline .nonAtomic t) : Fine F G upper t := by
  obtain ⟨s, r, kids, rfl, ho⟩ := tok_rule rfl h
  have hi := out_infix _ _ _ _ _ ho
  have hk := out_kids _ _ _ _ _ ho
  have hs : ∀ u ∈ kids, Sf s (parseEnds (F := F) u) := fun u hu => by
    refine (ends_safe num hnum ?_).mono (hi u hu)
    refine kids_plus_all (P := fun u => Tok skip K maplinecoordinates .nonAtomic u ∨ Tok skip K maplinewpts .nonAtomic u) hk
      (fun k hk u hu => ?_) u hu
    simp only [kids_simp] at hk
    rcases hk with ⟨a, ha, rfl⟩
    rw [List.mem_singleton.1 hu]
    exact ha
  show Sf s (parseMapLine (.node .mapline s kids) >>= _)
  refine Safe.bind ?_ fun _ _ => safe_ok _
  exact (safe_mapM hs).bind fun _ _ => safe_ok _

include hnumG in
theorem fine_fontsize {t : Tr} (h : Tok skip K fontsize .nonAtomic t) : Fine F G upper t := by
  obtain ⟨s, kids, rfl, hk⟩ := tok_kids rfl h
  simp only [kids_simp] at hk
  obtain ⟨l, hk, rfl⟩ := hk
  rcases hk with ⟨a, ha, b, hb, rfl⟩ | ⟨a, ha, rfl⟩
  · have hd := tok_decimal hb
    obtain ⟨s1, r1, k1, rfl, ho⟩ := tok_rule rfl ha
    have : ∃ v, parseFontSize (G := G) (.node .fontsize s [.node .font_symbol s1 k1, b]) = .ok v := by
      show ∃ v, (nextF32 [b] >>= _) = .ok v
      rw [f32_ok numG hnumG hd]
      rcases ho with ⟨rfl, _⟩ | ⟨⟨rfl, _⟩ | ⟨⟨rfl, _⟩ | ⟨⟨rfl, _⟩, _⟩, _⟩, _⟩
      · exact ⟨_, rfl⟩
      · exact ⟨_, rfl⟩
      · exact ⟨_, rfl⟩
      · exact ⟨_, rfl⟩
    obtain ⟨v, hv⟩ := this
    exact fine_ok upper (v := some (.fontSize v)) (by show (parseFontSize _ >>= _) = _; rw [hv]; rfl)
  · obtain ⟨s1, r1, k1, rfl, ho⟩ := tok_rule rfl ha
    exact fine_ok upper (v := some (.fontSize .default)) rfl

theorem skip_none {t : Tr} {ts : List Tr} (h : t.asRule ≠ .textalign_config) : skipAlignment (t :: ts) = .ok (t, ts) := by
  simp only [skipAlignment, next, run_ok_bind, if_neg h]
  rfl

theorem skip_some {t u : Tr} {ts : List Tr} (h : t.asRule = .textalign_config) : skipAlignment (t :: u :: ts) = .ok (u, ts) := by
  simp only [skipAlignment, next, run_ok_bind, if_pos h]

theorem tok_name {q : Rule} {ty : Ty} {x : Expr Rule} {t : Tr} (he : emits ty .nonAtomic = true) (h : Tok skip K (.rule q ty x) .nonAtomic t) :
    t.asRule = q := by
  obtain ⟨s, r, kids, rfl, _⟩ := tok_rule he h
  rfl

include hnum in
theorem label_ok {t : Tr} (h : Tok skip K mapsymbollabel .nonAtomic t) : ∃ v, parseLabel (F := F) t = .ok v := by
  obtain ⟨s, kids, rfl, hk⟩ := tok_kids rfl h
  simp only [kids_simp] at hk
  obtain ⟨a, ha, b, hb, rfl⟩ := hk
  obtain ⟨s1, kids, rfl, hk⟩ := tok_kids rfl hb
  simp only [kids_simp] at hk
  obtain ⟨c, hc, d, hd, rfl⟩ := hk
  refine ⟨⟨a.asStr, (num c.asStr, num d.asStr)⟩, ?_⟩
  have e : parsePoint (F := F) (.node Rule.point s1 [c, d]) = .ok (num c.asStr, num d.asStr) := by
    have n : ∀ {t : Tr} {ts : List Tr}, Tok skip K decimal .nonAtomic t → Parse.SymbolRule.nextNum (t :: ts) = .ok (num t.asStr, ts) := fun h => by
      simp only [Parse.SymbolRule.nextNum, next, run_ok_bind, hnum _ (tok_decimal h)]
      rfl
    simp only [parsePoint, Tree.inner, n hc, n hd, run_ok_bind]
    rfl
  show (parsePoint (.node Rule.point s1 [c, d]) >>= _) = _
  rw [e]
  rfl

include hnum in
theorem symbol_tail {name loc : Tr} {l : List Tr} {T : Str} (hl : Sf T (parseLocation (F := F) loc))
    (ho : (∃ t, Tok skip K mapsymbollabel .nonAtomic t ∧ l = [t]) ∨ l = []) :
    Sf T (nextLocation (F := F) (loc :: l) >>= fun x => parseOptLabel x.2 >>= fun label => .ok (some (MapRule.symbol (G := G) ⟨name.asStr, x.1, label⟩))) := by
  refine (nextLoc_safe num hnum hl).bind fun v hv => ?_
  rcases hl with ⟨w, hw⟩ | hbad
  · have : v = (w, l) := by
      simp only [nextLocation, next, run_ok_bind, hw] at hv
      cases hv
      rfl
    subst this
    rcases ho with ⟨t, ht, rfl⟩ | rfl
    · obtain ⟨v, hv⟩ := label_ok num hnum ht
      refine Or.inl ⟨some (.symbol ⟨name.asStr, w, some v⟩), ?_⟩
      show ((parseLabel t >>= _) >>= _) = _
      rw [hv]
      rfl
    · exact safe_ok _
  · exact Or.inr hbad

include hnum in
theorem fine_symbol {t : Tr} (h : Tok skip K mapsymbol .nonAtomic t) : Fine F G upper t := by
  obtain ⟨s, r, kids, rfl, ho⟩ := tok_rule rfl h
  have hi := out_infix _ _ _ _ _ ho
  have hk := out_kids _ _ _ _ _ ho
  clear h ho
  have main : ∀ {n l : Tr} {o : List Tr} (hin : l ∈ kids), Tok skip K coordinate .nonAtomic l ∨ Tok skip K colon_delimited_text .nonAtomic l →
      ((∃ t, Tok skip K mapsymbollabel .nonAtomic t ∧ o = [t]) ∨ o = []) → skipAlignment kids = .ok (n, l :: o) →
      Fine F G upper (.node .mapsymbol s kids) := fun {n} {l} {o} hin hl hlab e => by
    have := symbol_tail (G := G) num hnum (name := n) (((loc_safe num hnum hl).2).mono (hi l hin)) hlab
    show Sf s ((skipAlignment kids >>= _) >>= _)
    rw [e]
    refine (congrArg (Sf s) ?_).mp this
    simp only [bind_assoc]
    rfl
  simp only [kids_simp] at hk
  obtain ⟨al, hal, n, hn, l, hl, o, ho, rfl⟩ := hk
  rcases hal with ⟨x, hx, rfl⟩ | rfl
  · exact main (n := n) (l := l) (o := o) (by simp) hl ho (skip_some (tok_name rfl hx))
  · exact main (n := n) (l := l) (o := o) (by simp) hl ho (skip_none (by rw [tok_name rfl hn]; decide))


include hnum in
theorem fine_text {t : Tr} (h : Tok skip K Peg.Topsky.text .nonAtomic t) : Fine F G upper t := by
  obtain ⟨s, r, kids, rfl, ho⟩ := tok_rule rfl h
  have hi := out_infix _ _ _ _ _ ho
  have hk := out_kids _ _ _ _ _ ho
  clear h ho
  simp only [kids_simp] at hk
  obtain ⟨al, hal, l, hl, c, hc, rfl⟩ := hk
  have e : skipAlignment (al ++ [l, c]) = .ok (l, [c]) := by
    rcases hal with ⟨x, hx, rfl⟩ | rfl
    · exact skip_some (tok_name rfl hx)
    · exact skip_none (loc_safe num hnum hl).1
  show Sf s ((skipAlignment (al ++ [l, c]) >>= _) >>= _)
  rw [e]
  show Sf s ((parseLocation l >>= _) >>= _)
  exact ((((loc_safe num hnum hl).2).mono (hi l (by simp))).bind fun _ _ => safe_ok _).bind fun _ _ => safe_ok _


include hnumG in
theorem fine_f32 {t u : Tr} {s : Str} (h : IsDecimal u.asStr) : t = .node .layer s [u] ∨ t = .node .zoom s [u] → Fine F G upper t := by
  rintro (rfl | rfl)
  · refine fine_ok upper (v := some (.layer (numG u.asStr))) ?_
    show (nextF32 [u] >>= _) = _
    rw [f32_ok numG hnumG h]
    rfl
  · refine fine_ok upper (v := some (.zoom (numG u.asStr))) ?_
    show (nextF32 [u] >>= _) = _
    rw [f32_ok numG hnumG h]
    rfl

include hnum hnumG in
/-- Every setting is read or has a harmful part. -/
theorem setting_safe {k : List Tr} (h : Kids skip K map_setting .nonAtomic k) : ∀ t ∈ k, Fine F G upper t := by
  obtain ⟨k1, h1, k2, ⟨k3, h3, k4, h4, rfl⟩, rfl⟩ := h
  have e1 : k1 = [] := kids_mute _ _ _ (by decide) h1
  have e4 : k4 = [] := kids_mute _ _ _ (by decide) h4
  subst e1 e4
  rw [List.nil_append, List.append_nil]
  rcases h3 with h | h | h | h | h | h | h | h | h | h | h | h | h | h | h | h | h | h | h | h | h | h | h | h | h | h | h <;>
    obtain ⟨t, h, rfl⟩ := h <;> rintro u hu <;> obtain rfl := List.mem_singleton.1 hu
  · -- folder
    obtain ⟨s, kids, rfl, hk⟩ := tok_kids rfl h
    simp only [kids_simp] at hk
    obtain ⟨a, ha, rfl⟩ := hk
    exact fine_ok upper rfl
  · -- colour
    obtain ⟨s, kids, rfl, hk⟩ := tok_kids rfl h
    simp only [kids_simp] at hk
    obtain ⟨a, ha, o1, ho1, o2, ho2, rfl⟩ := hk
    exact fine_ok upper rfl
  · -- asrdata
    obtain ⟨s, kids, rfl, hk⟩ := tok_kids rfl h
    simp only [kids_simp] at hk
    obtain ⟨a, ha, rfl⟩ := hk
    obtain ⟨v, hv⟩ := names_ok ha
    exact fine_ok upper (v := some (.asrData v)) (by show (parseNames a >>= _) = _; rw [hv]; rfl)
  · -- active
    obtain ⟨s, kids, rfl, hk⟩ := tok_kids rfl h
    obtain ⟨k1, e1, k2, hk, rfl⟩ := hk
    have e1' : k1 = [] := e1
    subst e1'
    obtain ⟨v, hv⟩ := cond_ok hk (q := .active) (s := s)
    exact fine_ok upper (v := some (.active v)) (by show (parseActive (.node .active s k2) >>= _) = _; rw [hv]; rfl)
  · -- andactive
    obtain ⟨s, kids, rfl, hk⟩ := tok_kids rfl h
    obtain ⟨k1, e1, k2, hk, rfl⟩ := hk
    have e1' : k1 = [] := e1
    subst e1'
    obtain ⟨v, hv⟩ := cond_ok hk (q := .andactive) (s := s)
    exact fine_ok upper (v := some (.andActive v)) (by show (parseActive (.node .andactive s k2) >>= _) = _; rw [hv]; rfl)
  · -- layer
    obtain ⟨s, kids, rfl, hk⟩ := tok_kids rfl h
    simp only [kids_simp] at hk
    obtain ⟨a, ha, rfl⟩ := hk
    exact fine_f32 numG upper hnumG (tok_integer ha).isDecimal (Or.inl rfl)
  · exact fine_symbol num upper hnum h
  · obtain ⟨s, r, kids, rfl, _⟩ := tok_rule rfl h
    exact fine_ok upper rfl
  · exact fine_fontsize numG upper hnumG h
  · -- zoom
    obtain ⟨s, kids, rfl, hk⟩ := tok_kids rfl h
    simp only [kids_simp] at hk
    obtain ⟨a, ha, rfl⟩ := hk
    exact fine_f32 numG upper hnumG (tok_decimal ha) (Or.inr rfl)
  · -- style
    obtain ⟨s, kids, rfl, hk⟩ := tok_kids rfl h
    simp only [kids_simp] at hk
    obtain ⟨a, ha, o1, ho1, rfl⟩ := hk
    exact fine_ok upper rfl
  · exact fine_line num upper hnum h
  · exact fine_text num upper hnum h
  · obtain ⟨s, r, kids, rfl, _⟩ := tok_rule rfl h
    exact fine_ok upper rfl
  · obtain ⟨s, r, kids, rfl, _⟩ := tok_rule rfl h
    exact fine_ok upper rfl
  · obtain ⟨s, r, kids, rfl, _⟩ := tok_rule rfl h
    exact fine_ok upper rfl
  · obtain ⟨s, r, kids, rfl, _⟩ := tok_rule rfl h
    exact fine_ok upper rfl
  · -- coordpoly
    obtain ⟨s, kids, rfl, hk⟩ := tok_kids rfl h
    simp only [kids_simp] at hk
    obtain ⟨a, ha, rfl⟩ := hk
    exact fine_ok upper rfl
  · exact fine_coord num upper hnum h
  all_goals
    obtain ⟨s, r, kids, rfl, _⟩ := tok_rule rfl h
    exact fine_ok upper rfl

/-! ## Definitions -/

variable [Close F]

include hnum hnumG in
theorem map_safe {t : Tr} (h : Tok skip K Peg.Topsky.map .nonAtomic t) : t.asRule = .map ∧ Sf t.asStr (parseMap (F := F) (G := G) upper t) := by
  obtain ⟨s, r, kids, rfl, ho⟩ := tok_rule rfl h
  refine ⟨rfl, ?_⟩
  have hi := out_infix _ _ _ _ _ ho
  have hk := out_kids _ _ _ _ _ ho
  obtain ⟨k1, e1, k2, ⟨k3, ⟨n, hn, rfl⟩, k4, ⟨k5, h5, k6, h6, rfl⟩, rfl⟩, rfl⟩ := hk
  have e1' : k1 = [] := e1
  have e5 : k5 = [] := kids_mute _ _ _ (by decide) h5
  subst e1' e5
  show Sf s (k6.mapM (parseMapRule upper) >>= _)
  refine Safe.bind (safe_mapM fun u hu => ?_) fun _ _ => safe_ok _
  refine Safe.mono ?_ (hi u (by simp [hu]))
  exact kids_plus_all (P := Fine F G upper) h6 (fun k hk => setting_safe num numG upper hnum hnumG hk) u hu

omit [DmsArith F] [DecidableEq F] in
include hnum in
theorem symbol_safe {H : Str → Prop} (hH : ∀ (d : Verif.Spec.Drawing.Drawing) s, d.IsText s → ¬ d.Fits → H s) {q : Rule} {w : Str} (hq : q = .symbol ∨ q = .symboldef) {t : Tr}
    (h : Tok skip K (.rule q .normal ((.str w) ⬝ colon_delimited_text ⬝ NL ⬝ (.plus symbolrule))) .nonAtomic t) :
    t.asRule = q ∧ Safe H t.asStr (parseSymbol (F := F) t) := by
  obtain ⟨s, r, kids, rfl, ho⟩ := tok_rule rfl h
  refine ⟨rfl, ?_⟩
  have hi := out_infix _ _ _ _ _ ho
  have hk := out_kids _ _ _ _ _ ho
  obtain ⟨k1, e1, k2, ⟨k3, ⟨n, hn, rfl⟩, k4, ⟨k5, h5, k6, h6, rfl⟩, rfl⟩, rfl⟩ := hk
  have e1' : k1 = [] := e1
  have e5 : k5 = [] := kids_mute _ _ _ (by decide) h5
  subst e1' e5
  have hr : ∀ u ∈ k6, Safe H u.asStr (parseRule (F := F) kind u) := by
    refine kids_plus_all h6 fun k hk u hu => ?_
    rw [symbolrule_eq] at hk
    obtain ⟨k3, e3, k4, e4, rfl⟩ := hk
    have e4' : k4 = [] := kids_mute _ _ _ (by decide) e4
    subst e4'
    obtain ⟨d, v, rfl, hd, hp⟩ := rule_sound good drawNames kind_name num hnum e3
    have : u = v := by simpa using hu
    subst this
    rw [hp]
    by_cases hf : d.Fits
    · rw [if_pos hf]; exact safe_ok _
    · exact safe_bad List.infix_rfl (hH d _ hd hf)
  have main : Safe H s (k6.mapM (parseRule (F := F) kind) >>= fun rules => .ok (some (SymbolDef.mk n.asStr rules))) :=
    Safe.bind (safe_mapM fun u hu => (hr u hu).mono (hi u (by simp [hu]))) fun _ _ => safe_ok _
  rcases hq with rfl | rfl
  · exact main
  · exact main

theorem colour_safe {t : Tr} (h : Tok skip K colourdef .nonAtomic t) : t.asRule = .colourdef ∧ Sf t.asStr (parseColour t) := by
  obtain ⟨s, r, kids, rfl, h1⟩ := tok_rule rfl h
  refine ⟨rfl, ?_⟩
  obtain ⟨s1, m1, w1, t1, u1, rfl, g1, ⟨rfl, rfl⟩, h2, rfl⟩ := h1
  obtain ⟨s2, m2, w2, t2, u2, rfl, g2, o2, h3, rfl⟩ := h2
  obtain ⟨s3, m3, w3, t3, u3, rfl, g3, ⟨rfl, rfl⟩, h4, rfl⟩ := h3
  obtain ⟨s4, m4, w4, t4, u4, rfl, g4, o4, h5, rfl⟩ := h4
  obtain ⟨s5, m5, w5, t5, u5, rfl, g5, ⟨rfl, rfl⟩, h6, rfl⟩ := h5
  obtain ⟨s6, m6, w6, t6, u6, rfl, g6, o6, h7, rfl⟩ := h6
  obtain ⟨s7, m7, w7, t7, u7, rfl, g7, ⟨rfl, rfl⟩, h8, rfl⟩ := h7
  obtain ⟨s8, m8, w8, t8, u8, rfl, g8, o8, h9, rfl⟩ := h8
  obtain ⟨k2, rfl, c2⟩ := text_token o2
  obtain ⟨i4, rfl⟩ := integer_token o4
  obtain ⟨i6, rfl⟩ := integer_token o6
  obtain ⟨i8, rfl⟩ := integer_token o8
  have v : ∀ {s : Str}, IsInteger s → visibleHead s = true := fun h => visible_decimal h.isDecimal
  obtain rfl : m2 = [] := gap_none (c := ':') (t := _) g2 (by decide) (by decide)
  obtain rfl : m1 = [] := by
    refine gap_text (s := s2) (t := m3 ++ (s4 ++ m4 ++ (c!":" ++ m5 ++ (s6 ++ m6 ++ (c!":" ++ m7 ++ (s8 ++ m8 ++ w8))))) ++ r) ?_ c2
    simpa using g1
  obtain rfl : m3 = [] := gap_visible (v := s4) (r := m4 ++ (c!":" ++ m5 ++ (s6 ++ m6 ++ (c!":" ++ m7 ++ (s8 ++ m8 ++ w8)))) ++ r)
    (by simpa using g3) (v i4)
  obtain rfl : m4 = [] := gap_none (c := ':') (t := _) g4 (by decide) (by decide)
  obtain rfl : m5 = [] := gap_visible (v := s6) (r := m6 ++ (c!":" ++ m7 ++ (s8 ++ m8 ++ w8)) ++ r)
    (by simpa using g5) (v i6)
  obtain rfl : m6 = [] := gap_none (c := ':') (t := _) g6 (by decide) (by decide)
  obtain rfl : m7 = [] := gap_visible (v := s8) (r := m8 ++ w8 ++ r)
    (by simpa using g7) (v i8)
  show Sf _ (nextU8 (.node .integer s4 [] :: .node .integer s6 [] :: .node .integer s8 [] :: u8) >>= _)
  have bad : ¬ (FitsU8 s4 ∧ FitsU8 s6 ∧ FitsU8 s8) → ∃ s, s <:+: (c!"COLORDEF:" ++ [] ++ (s2 ++ [] ++ (c!":" ++ [] ++ (s4 ++ [] ++ (c!":" ++ [] ++
      (s6 ++ [] ++ (c!":" ++ [] ++ (s8 ++ m8 ++ w8)))))))) ∧ Harmful s := fun hf =>
    ⟨_, ⟨[], m8 ++ w8, by simp⟩, .colour s2 s4 s6 s8 (fun c hc => (c2 c hc).1) i4 i6 i8 hf⟩
  simp only [Tree.asStr] at bad ⊢
  by_cases hf : FitsU8 s4 ∧ FitsU8 s6 ∧ FitsU8 s8
  · rw [read_u8 i4, gated, if_pos hf.1, run_ok_bind]
    show Sf _ (nextU8 (.node .integer s6 [] :: .node .integer s8 [] :: u8) >>= _)
    rw [read_u8 i6, gated, if_pos hf.2.1, run_ok_bind]
    show Sf _ (nextU8 (.node .integer s8 [] :: u8) >>= _)
    rw [read_u8 i8, gated, if_pos hf.2.2, run_ok_bind]
    exact safe_ok _
  · exact Or.inr (bad hf)

include hnumG in
theorem style_ok {t : Tr} (h : Tok skip K linestyledef .nonAtomic t) : t.asRule = .linestyledef ∧ ∃ v, parseLinestyle (G := G) t = .ok v := by
  obtain ⟨s, kids, rfl, hk⟩ := tok_kids rfl h
  refine ⟨rfl, ?_⟩
  have hd : ∀ l : List Tr, (∀ u ∈ l, Tok skip K integer .nonAtomic u) → ∃ v, l.mapM (fun t => unwrap (F64.ofText (F := G) t.asStr)) = .ok v := fun l hl =>
    mapM_ok' fun u hu => ⟨numG u.asStr, by rw [hnumG _ (tok_integer (hl u hu)).isDecimal]; rfl⟩
  simp only [kids_simp] at hk
  obtain ⟨a, ha, b, hb, c, hc, l, hl, rfl⟩ := hk
  obtain ⟨v, hv⟩ := hd l (by
    rcases hl with ⟨x, hx, y, hy, rfl⟩ | rfl
    · rintro u hu
      rcases List.mem_cons.1 hu with rfl | hu
      · exact hx
      · exact hy u hu
    · simp)
  refine ⟨some ⟨a.asStr, b.asStr, c.asStr, v⟩, ?_⟩
  show (l.mapM (fun t => unwrap (F64.ofText (F := G) t.asStr)) >>= _) = _
  rw [hv]
  rfl

theorem override_ok {t : Tr} (h : Tok skip K override_sct .nonAtomic t) : t.asRule = .override_sct ∧ ∃ v, parseOverride t = .ok v := by
  obtain ⟨s, kids, rfl, hk⟩ := tok_kids rfl h
  refine ⟨rfl, ?_⟩
  simp only [kids_simp] at hk
  obtain ⟨a, ha, o, ho, rfl⟩ := hk
  exact ⟨_, rfl⟩

include hnum hnumG in
theorem def_safe {k : List Tr} (h : Kids skip K (Peg.Topsky.map ∥ symboldef ∥ colourdef ∥ linestyledef ∥ override_sct ∥ sctfilepath) .nonAtomic k) :
    ∀ t ∈ k, Sf t.asStr (parseDefinition (F := F) (G := G) upper t) := by
  rcases h with h | h | h | h | h | h <;>
    obtain ⟨t, h, rfl⟩ := h <;> rintro u hu <;> obtain rfl := List.mem_singleton.1 hu
  · obtain ⟨e, hs⟩ := map_safe num numG upper hnum hnumG h
    simp only [parseDefinition, e]
    exact hs.bind fun _ _ => safe_ok _
  · obtain ⟨e, hs⟩ := symbol_safe (F := F) num hnum Harmful.angle (Or.inr rfl) h
    simp only [parseDefinition, e]
    exact hs.bind fun _ _ => safe_ok _
  · obtain ⟨e, hs⟩ := colour_safe h
    simp only [parseDefinition, e]
    exact hs.bind fun _ _ => safe_ok _
  · obtain ⟨e, v, hv⟩ := style_ok numG hnumG h
    simp only [parseDefinition, e, hv]
    exact safe_ok _
  · obtain ⟨e, v, hv⟩ := override_ok h
    simp only [parseDefinition, e, hv]
    exact safe_ok _
  · have e := tok_name rfl h
    simp only [parseDefinition, e]
    exact safe_ok _

/-! ## Files -/

theorem file_tokens {x : Expr Rule} {P : Tr → Prop} (hx : ∀ k, Kids skip K x .nonAtomic k → ∀ t ∈ k, P t) {ts : List Tr} {s r : Str}
    (h : Out skip K (.soi ⬝ (.opt NL) ⬝ (.plus x) ⬝ (.eoi .EOI)) .nonAtomic s r ts) :
    ∀ t ∈ ts, t.asStr <:+: s ∧ (t.asRule = .EOI ∨ P t) := by
  have hi := out_infix _ _ _ _ _ h
  have hk := out_kids _ _ _ _ _ h
  obtain ⟨k1, e1, k2, ⟨k3, e3, k4, ⟨k5, e5, k6, e6, rfl⟩, rfl⟩, rfl⟩ := hk
  have e1' : k1 = [] := e1
  have e3' : k3 = [] := kids_mute _ _ _ (by decide) e3
  have e6' : k6 = [.node .EOI [] []] := e6
  subst e1' e3' e6'
  refine fun t ht => ⟨hi t ht, ?_⟩
  simp only [List.mem_append, List.nil_append, List.mem_singleton] at ht
  rcases ht with ht | rfl
  · exact Or.inr (kids_plus_all e5 hx t ht)
  · exact Or.inl rfl

omit [DmsArith F] [DecidableEq F] in
include hnum in
/-- A text is rejected, read as symbols, or has a harmful part. -/
theorem symbols_safe {H : Str → Prop} (hH : ∀ (d : Verif.Spec.Drawing.Drawing) s, d.IsText s → ¬ d.Fits → H s) (content : Str) :
    parseSymbols (F := F) content = .error .parseError ∨ Safe H content (parseSymbols (F := F) content) := by
  rcases run_tok symbols rfl good.ok rfl rfl content with h | ⟨kids, h, ho⟩
  · left
    simp only [parseSymbols]
    rw [h]; rfl
  · right
    have e : parseSymbols (F := F) content =
        kids.mapM parseSymbol >>= fun found => .ok (Map.ofList ((found.filterMap id).map fun s => (s.name, s))) := by
      simp only [parseSymbols]
      rw [h]; rfl
    rw [e]
    refine (safe_mapM fun t ht => ?_).bind fun _ _ => safe_ok _
    obtain ⟨hi, hc⟩ := file_tokens (x := symbol) (P := fun t => Safe H t.asStr (parseSymbol (F := F) t))
      (fun k hk t ht => by
        obtain ⟨u, hu, rfl⟩ := hk
        rw [List.mem_singleton.1 ht]
        exact (symbol_safe num hnum hH (Or.inl rfl) hu).2) ho t ht
    rcases hc with hc | hc
    · simp only [parseSymbol, hc]; exact safe_ok _
    · exact hc.mono hi

include hnum hnumG in
/-- A text is rejected, read as maps, or has a harmful part. -/
theorem maps_safe (content : Str) :
    parseMaps (F := F) (G := G) upper content = .error .parseError ∨ Sf content (parseMaps (F := F) (G := G) upper content) := by
  rcases run_tok maps rfl good.ok rfl rfl content with h | ⟨kids, h, ho⟩
  · left
    simp only [parseMaps]
    rw [h]; rfl
  · right
    have e : parseMaps (F := F) (G := G) upper content =
        kids.mapM (parseDefinition upper) >>= fun found => .ok ((found.filterMap id).foldl step ⟨[], [], [], [], []⟩) := by
      simp only [parseMaps]
      rw [h]; rfl
    rw [e]
    refine (safe_mapM fun t ht => ?_).bind fun _ _ => safe_ok _
    obtain ⟨hi, hc⟩ := file_tokens (P := fun t => Sf t.asStr (parseDefinition (F := F) (G := G) upper t))
      (fun k hk => def_safe num numG upper hnum hnumG hk) ho t ht
    rcases hc with hc | hc
    · simp only [parseDefinition, hc]; exact safe_ok _
    · exact hc.mono hi

end

end Verif.Proofs.Topsky
