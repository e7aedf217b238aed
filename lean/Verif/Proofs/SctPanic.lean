import Verif.Proofs.SctTokens
/-!
# Lemmas about .sct files: where panics can come from
-/

namespace Verif.Proofs.Sct
open Verif.Proofs Verif.Peg Verif.Spec Verif.Spec.Sct Verif.Dms Verif.Parse
open Verif.Spec.Ese (DmsText Fits number)
open Verif.Peg.Sct (Rule skip)
open Verif.Parse.Sct
open Verif.Colours (Colour fromEuroscope)

set_option linter.unusedSectionVars false

abbrev Sf {A : Type} (T : Str) (m : Run A) : Prop := Safe Harmful T m

theorem gated_safe {A : Type} {p : Prop} [Decidable p] {v : A} {T : Str} (h : ¬ p → ∃ s, s <:+: T ∧ Harmful s) : Sf T (gated p v) := by
  unfold gated
  by_cases hp : p
  · rw [if_pos hp]; exact safe_ok v
  · exact Or.inr (h hp)

theorem Safe.map {A B : Type} {T : Str} {m : Run A} (f : A → B) (h : Sf T m) : Sf T (f <$> m) := by
  rcases h with ⟨v, rfl⟩ | h
  · exact Or.inl ⟨f v, rfl⟩
  · exact Or.inr h

/-! ## Colour definitions -/

theorem colourName_out {s r : Str} {ts : List (Tree Rule)} (h : Out skip K Peg.Sct.colour_name .nonAtomic s r ts) :
    IsColourName s ∧ ts = [.node .colour_name s []] := by
  obtain ⟨kids, ho, rfl⟩ := h
  have hu : ∀ (e : Expr Rule), plain e = true → Uniform (eval skip e .atomic) := fun e h => uniform_eval lineSkip.uniform e h _
  have hl : LikeCls skip K ((.cls isAsciiAlphanumeric) ∥ (.str c!"-") ∥ (.str c!"_")) .atomic _ :=
    (likeCls_cls _ _).alt ((likeCls_char '-' _).alt (likeCls_char '_' _) (hu _ rfl)) (hu _ rfl)
  have := (hl.plus (by decide)).1 ho
  refine ⟨⟨this.1, fun c hc => by simpa using this.2.1 c hc⟩, ?_⟩
  rw [this.2.2.2]; rfl

theorem colourName_head {n : Str} (h : IsColourName n) : ∃ c t, n = c :: t ∧ isNewlineChar c = false := by
  cases n with
  | nil => exact absurd rfl h.1
  | cons c t =>
    refine ⟨c, t, rfl, ?_⟩
    cases hn : isNewlineChar c with
    | false => rfl
    | true =>
      have := h.2 c List.mem_cons_self
      rcases newline_iff.1 hn with rfl | rfl <;> exact absurd this (by decide)

theorem fits_i32 {n : Str} (h : IsPosInteger n) : (∃ v, parseSigned (2 ^ 31) n = some v) ∨ ¬ Fits (2 ^ 31) n := by
  by_cases hf : Fits (2 ^ 31) n
  · left
    rw [parseSigned_integer h.1 (by decide)]
    have h1 : intValue n < 2 ^ 31 := hf.2
    have h2 : (0 : Int) ≤ intValue n := by
      unfold intValue
      have := h.2
      split
      · exact absurd rfl this
      · omega
      · omega
    rw [if_pos ⟨by omega, by omega⟩]
    exact ⟨_, rfl⟩
  · exact Or.inr hf

theorem colour_safe {t : Tree Rule} {a : Atom} (ha : a = .nonAtomic) (h : Tok skip K Peg.Sct.colour_definition a t) (m : Map Str Colour) :
    Sf t.asStr (storeColour m t) := by
  subst ha
  obtain ⟨T, r, kids, rfl, ho⟩ := tok_rule rfl h
  obtain ⟨_, m1, s2, _, t2, rfl, hg, ⟨rfl, rfl⟩, ⟨s3, m2, s4, t3, t4, rfl, hg2, h3, h4, rfl⟩, rfl⟩ := ho
  obtain ⟨hn, rfl⟩ := colourName_out h3
  obtain ⟨hi, rfl⟩ := out_posInteger h4
  have b1 : Spec.Sct.AreBlanks m1 := blanks_before (n := s3) (r := m2 ++ s4 ++ r) (by simpa [List.append_assoc] using hg) (colourName_head hn)
  have b2 : Spec.Sct.AreBlanks m2 := blanks_before (n := s4) (r := r) hg2 (integer_head hi.1)
  rcases fits_i32 hi with ⟨v, hv⟩ | hf
  · left
    simp only [storeColour, parseColourDefinition, nextStr, Tree.inner_node, next_cons, run_ok_bind, run_pure, List.nil_append,
      List.cons_append, Tree.asStr_node, hv, unwrap]
    cases fromEuroscope v <;> exact ⟨_, rfl⟩
  · refine safe_bad List.infix_rfl ?_
    have := Harmful.colour m1 s3 m2 s4 b1 hn b2 hi hf
    simpa [List.append_assoc] using this

section
variable {F : Type} [F64 F] [DmsArith F] (num : Str → F) (hnum : ∀ s, IsDecimal s → F64.ofText s = some (num s))

/-! ## Coordinates and locations -/

include hnum in
theorem part_safe {a : Atom} {t : Tree Rule} (h : Tok skip K Peg.Sct.sct_coord_part a t) : Sf t.asStr (parseCoordinatePart (F := F) t) := by
  obtain ⟨s, r, ho⟩ := h
  obtain ⟨d, hd, rfl, e⟩ := out_dms ho
  obtain rfl : t = dmsTree d := by simpa using e
  rw [read_dms num hnum hd]
  exact gated_safe fun hn => ⟨_, List.infix_rfl, .angle d hd hn⟩

include hnum in
theorem coord_safe {a : Atom} {t : Tree Rule} (h : Tok skip K Peg.Sct.sct_coordinate a t) : Sf t.asStr (parseCoordinate (F := F) t) := by
  obtain ⟨s, r, ho⟩ := h
  obtain ⟨d, g, d', hd, _, hd', rfl, e⟩ := out_coord ho
  obtain rfl : t = _ := by simpa using e
  rw [read_coord num hnum hd hd']
  refine gated_safe fun hn => ?_
  by_cases hf : d.Fits
  · exact ⟨_, infix_right (infix_right List.infix_rfl), .angle d' hd' fun h => hn ⟨hf, h⟩⟩
  · exact ⟨_, infix_left List.infix_rfl, .angle d hd hf⟩

theorem coord_rule {a : Atom} {t : Tree Rule} (h : Tok skip K Peg.Sct.sct_coordinate a t) : t.asRule = .sct_coordinate := by
  obtain ⟨s, r, ho⟩ := h
  obtain ⟨d, g, d', hd, _, hd', rfl, e⟩ := out_coord ho
  obtain rfl : t = _ := by simpa using e
  rfl

include hnum in
theorem location_safe {t : Tree Rule} (h : Tok skip K Peg.Sct.sct_coordinate .nonAtomic t ∨ Tok skip K Peg.Sct.airway_fix .nonAtomic t) :
    Sf t.asStr (parseLocation (F := F) t) := by
  rcases h with h | h
  · have := coord_safe num hnum h
    have hr := coord_rule h
    unfold parseLocation
    rw [hr]
    exact this.bind fun v _ => safe_ok _
  · obtain ⟨T, kids, rfl, hk⟩ := tok_kids rfl h
    have hk : Kids skip K _ .compound kids := hk
    simp only [kids_simp] at hk
    obtain ⟨t, _, _, _, rfl⟩ := hk
    exact safe_ok _

/-! ## Entries -/

/-- Reading the token is safe. -/
abbrev Reads {A : Type} (f : Tree Rule → Run A) (t : Tree Rule) : Prop := Sf t.asStr (f t)

include hnum in
theorem navaid_safe {t : Tree Rule} (h : Tok skip K Peg.Sct.location .nonAtomic t) : Reads (parseNavaid (F := F)) t := by
  have hin := tok_infix rfl h
  obtain ⟨T, kids, rfl, hk⟩ := tok_kids rfl h
  simp only [kids_simp] at hk
  obtain ⟨a, _, b, _, c, hc, rfl⟩ := hk
  have : Sf T (parseCoordinate (F := F) c) := (coord_safe num hnum hc).mono (hin c (by simp))
  simp only [Reads, parseNavaid, nextCoordinate, nextStr, Tree.inner_node, next_cons, run_ok_bind, run_pure]
  exact (this.bind fun v _ => safe_ok _).bind fun v _ => safe_ok _

include hnum in
theorem ndb_safe {t : Tree Rule} (h : Tok skip K Peg.Sct.location .nonAtomic t ∨ Tok skip K Peg.Sct.broken .nonAtomic t) :
    Reads (parseNdb (F := F)) t := by
  rcases h with h | h
  · have := navaid_safe num hnum h
    obtain ⟨T, kids, rfl, hk⟩ := tok_kids rfl h
    exact Safe.map _ this
  · obtain ⟨T, kids, rfl, hk⟩ := tok_kids rfl h
    exact safe_ok _

include hnum in
theorem fix_safe [UnicodeTables] {t : Tree Rule} (h : Tok skip K Peg.Sct.fix .nonAtomic t ∨ Tok skip K Peg.Sct.broken .nonAtomic t) :
    Reads (parseFix (F := F)) t := by
  rcases h with h | h
  · have hin := tok_infix rfl h
    obtain ⟨T, kids, rfl, hk⟩ := tok_kids rfl h
    simp only [kids_simp] at hk
    obtain ⟨a, _, c, hc, rfl⟩ := hk
    have : Sf T (parseCoordinate (F := F) c) := (coord_safe num hnum hc).mono (hin c (by simp))
    simp only [Reads, parseFix, nextCoordinate, nextStr, Tree.inner_node, next_cons, run_ok_bind, run_pure, Tree.asRule_node]
    exact (this.bind fun v _ => safe_ok _).bind fun v _ => safe_ok _
  · obtain ⟨T, kids, rfl, hk⟩ := tok_kids rfl h
    exact safe_ok _

include hnum in
theorem airport_safe {t : Tree Rule} (h : Tok skip K Peg.Sct.aerodrome .nonAtomic t) : Reads (parseAirport (F := F)) t := by
  have hin := tok_infix rfl h
  obtain ⟨T, kids, rfl, hk⟩ := tok_kids rfl h
  simp only [kids_simp] at hk
  have : ∃ a l c d, kids = a :: (l ++ [c, d]) ∧ (∀ t ∈ l, t.asRule ≠ .sct_coordinate) ∧ Tok skip K Peg.Sct.sct_coordinate .nonAtomic c := by
    obtain ⟨a, _, l, hl, c, hc, d, _, rfl⟩ := hk
    refine ⟨a, l, c, d, rfl, fun t ht => ?_, hc⟩
    rcases hl with (⟨b, hb, rfl⟩ | rfl) | rfl
    · rw [List.mem_singleton.1 ht]
      obtain ⟨s, ks, rfl, _⟩ := tok_kids rfl hb
      simp
    · cases ht
    · cases ht
  obtain ⟨a, l, c, d, rfl, hl, hc⟩ := this
  have hf : findCoordinate (l ++ [c, d]) = .ok (c, [d]) := by
    clear hin h hk
    induction l with
    | nil => simp [findCoordinate, coord_rule hc]
    | cons b l ih =>
      rw [List.cons_append, findCoordinate, if_neg (hl b List.mem_cons_self)]
      exact ih fun t ht => hl t (List.mem_cons_of_mem _ ht)
  have : Sf T (parseCoordinate (F := F) c) := (coord_safe num hnum hc).mono (hin c (by simp))
  simp only [Reads, parseAirport, nextStr, Tree.inner_node, next_cons, run_ok_bind, run_pure, hf]
  exact this.bind fun v _ => safe_ok _

include hnum in
theorem airway_safe [UnicodeTables] {t : Tree Rule} (h : Tok skip K Peg.Sct.airway .nonAtomic t) : Reads (parseAirway (F := F)) t := by
  have hin := tok_infix rfl h
  obtain ⟨T, kids, rfl, hk⟩ := tok_kids rfl h
  simp only [kids_simp] at hk
  obtain ⟨a, _, b, hb, c, hc, rfl⟩ := hk
  have h1 : Sf T (parseLocation (F := F) b) := (location_safe num hnum hb).mono (hin b (by simp))
  have h2 : Sf T (parseLocation (F := F) c) := (location_safe num hnum hc).mono (hin c (by simp))
  simp only [Reads, parseAirway, nextStr, Tree.inner_node, next_cons, run_ok_bind, run_pure]
  exact h1.bind fun v _ => h2.bind fun v _ => safe_ok _

include hnum in
theorem coords_safe {T : Str} {ts : List (Tree Rule)} (h : ∀ t ∈ ts, Tok skip K Peg.Sct.sct_coordinate .nonAtomic t)
    (hi : ∀ t ∈ ts, t.asStr <:+: T) : Sf T (ts.mapM (parseCoordinate (F := F))) :=
  safe_mapM fun t ht => (coord_safe num hnum (h t ht)).mono (hi t ht)

include hnum in
theorem region_safe {t : Tree Rule} (h : Tok skip K Peg.Sct.region .nonAtomic t) : Reads (parseRegion (F := F)) t := by
  have hin := tok_infix rfl h
  obtain ⟨T, kids, rfl, hk⟩ := tok_kids rfl h
  simp only [kids_simp] at hk
  obtain ⟨a, _, b, _, c, hc, l, hl, rfl⟩ := hk
  have : Sf T ((c :: l).mapM (parseCoordinate (F := F))) := by
    refine coords_safe num hnum (fun t ht => ?_) fun t ht => hin t (by simp_all)
    rcases List.mem_cons.1 ht with rfl | ht
    · exact hc
    · exact hl t ht
  simp only [Reads, parseRegion, nextStr, Tree.inner_node, next_cons, run_ok_bind, run_pure]
  exact this.bind fun v _ => safe_ok _

include hnum in
theorem label_safe {t : Tree Rule} (h : Tok skip K Peg.Sct.label .nonAtomic t) : Reads (parseLabel (F := F)) t := by
  have hin := tok_infix rfl h
  obtain ⟨T, kids, rfl, hk⟩ := tok_kids rfl h
  simp only [kids_simp, Peg.Sct.quoted_string] at hk
  obtain ⟨a, _, b, hb, c, _, rfl⟩ := hk
  have h1 : Sf T (parseLocation (F := F) b) := (location_safe num hnum (Or.inl hb)).mono (hin b (by simp))
  simp only [Reads, parseLabel, nextLocation, nextStr, Tree.inner_node, next_cons, run_ok_bind, run_pure]
  exact (h1.bind fun v _ => safe_ok _).bind fun v hv => by
    obtain ⟨w, _, hw⟩ := run_bind_ok_iff.1 hv
    cases hw
    exact safe_ok _

include hnum in
theorem line_safe {t : Tree Rule} (h : Tok skip K Peg.Sct.coloured_line .nonAtomic t) : Reads (parseColouredLine (F := F)) t := by
  have hin := tok_infix rfl h
  obtain ⟨T, kids, rfl, hk⟩ := tok_kids rfl h
  simp only [kids_simp] at hk
  have : ∃ a b l, kids = a :: b :: l ∧
      (Tok skip K Peg.Sct.sct_coordinate .nonAtomic a ∨ Tok skip K Peg.Sct.airway_fix .nonAtomic a) ∧
      (Tok skip K Peg.Sct.sct_coordinate .nonAtomic b ∨ Tok skip K Peg.Sct.airway_fix .nonAtomic b) := by
    obtain ⟨a, ha, b, hb, l, _, rfl⟩ := hk
    exact ⟨a, b, l, rfl, ha, hb⟩
  obtain ⟨a, b, l, rfl, ha, hb⟩ := this
  have h1 : Sf T (parseLocation (F := F) a) := (location_safe num hnum ha).mono (hin a (by simp))
  have h2 : Sf T (parseLocation (F := F) b) := (location_safe num hnum hb).mono (hin b (by simp))
  simp only [Reads, parseColouredLine, nextLocation, Tree.inner_node, next_cons, run_ok_bind, run_pure]
  refine (h1.bind fun v _ => safe_ok _).bind fun v hv => ?_
  obtain ⟨w, _, hw⟩ := run_bind_ok_iff.1 hv
  cases hw
  exact (h2.bind fun v _ => safe_ok _).bind fun v hv => safe_ok _

include hnum in
theorem drawing_safe [DecidableEq F] {t : Tree Rule} (h : Tok skip K Peg.Sct.coloured_lines .nonAtomic t) : Reads (parseDrawing (F := F)) t := by
  have hin := tok_infix rfl h
  obtain ⟨T, kids, rfl, hk⟩ := tok_kids rfl h
  simp only [kids_simp] at hk
  obtain ⟨a, _, c, hc, l, hl, rfl⟩ := hk
  have : Sf T ((c :: l).mapM (parseColouredLine (F := F))) := by
    refine safe_mapM fun t ht => Safe.mono (line_safe num hnum ?_) (hin t (by simp_all))
    rcases List.mem_cons.1 ht with rfl | ht
    · exact hc
    · exact hl t ht
  simp only [Reads, parseDrawing, parseLineGroups, nextStr, Tree.inner_node, next_cons, run_ok_bind, run_pure]
  exact (this.bind fun v _ => safe_ok _).bind fun v _ => safe_ok _

theorem out_runway {s r : Str} {ts : List (Tree Rule)} (h : Out skip K Peg.Sct.runway_designator .nonAtomic s r ts) :
    Spec.Sct.IsRunway s ∧ ts = [.node .runway_designator s []] := by
  obtain ⟨kids, ho, rfl⟩ := h
  obtain ⟨s1, s2, t1, t2, rfl, rfl, h1, h2⟩ := (out_seq_atomic (by decide)).1 ho
  obtain ⟨s3, s4, t3, t4, rfl, rfl, ⟨c, rfl, hc, rfl⟩, ⟨d, rfl, hd, rfl⟩⟩ := (out_seq_atomic (by decide)).1 h1
  have : (s2 = [] ∨ ∃ c ∈ c!"LCRG", s2 = [c]) ∧ t2 = [] := by
    rcases h2 with (⟨rfl, rfl⟩ | ⟨⟨rfl, rfl⟩ | ⟨⟨rfl, rfl⟩ | ⟨⟨rfl, rfl⟩, _⟩, _⟩, _⟩) | ⟨rfl, rfl, _⟩
    all_goals simp
  obtain ⟨h3, rfl⟩ := this
  exact ⟨⟨c, d, s2, rfl, hc, hd, h3⟩, rfl⟩

theorem runway_head {n : Str} (h : Spec.Sct.IsRunway n) : ∃ c t, n = c :: t ∧ isNewlineChar c = false := by
  obtain ⟨x, y, t, rfl, hx, _⟩ := h
  exact ⟨x, _, rfl, not_newline_digit hx⟩

include hnum in
theorem runway_safe {t : Tree Rule} (h : Tok skip K Peg.Sct.runway .nonAtomic t) : Reads (parseRunway (F := F)) t := by
  obtain ⟨T, r, kids, rfl, ho⟩ := tok_rule rfl h
  have hin := out_infix _ _ _ _ _ ho
  obtain ⟨r1, m1, u1, t1, v1, rfl, g1, h1, ⟨r2, m2, u2, t2, v2, rfl, g2, h2, ⟨n1, m3, u3, t3, v3, rfl, g3, h3,
    ⟨n2, m4, u4, t4, v4, rfl, g4, h4, h5, rfl⟩, rfl⟩, rfl⟩, rfl⟩ := ho
  obtain ⟨k1, rfl⟩ := out_runway h1
  obtain ⟨k2, rfl⟩ := out_runway h2
  obtain ⟨k3, rfl⟩ := out_posInteger h3
  obtain ⟨k4, rfl⟩ := out_posInteger h4
  have b1 : Spec.Sct.AreBlanks m1 := blanks_before (n := r2) (r := m2 ++ (n1 ++ m3 ++ (n2 ++ m4 ++ u4)) ++ r)
    (by simpa [List.append_assoc] using g1) (runway_head k2)
  have b2 : Spec.Sct.AreBlanks m2 := blanks_before (n := n1) (r := m3 ++ (n2 ++ m4 ++ u4) ++ r)
    (by simpa [List.append_assoc] using g2) (integer_head k3.1)
  have b3 : Spec.Sct.AreBlanks m3 := blanks_before (n := n2) (r := m4 ++ u4 ++ r)
    (by simpa [List.append_assoc] using g3) (integer_head k4.1)
  have hk := out_kids _ _ _ _ _ h5
  simp only [kids_simp] at hk
  obtain ⟨a, ha, b, hb, c, _, l, _, rfl⟩ := hk
  have s1 : Sf _ (parseCoordinate (F := F) a) := (coord_safe num hnum ha).mono (hin a (by simp))
  have s2 : Sf _ (parseCoordinate (F := F) b) := (coord_safe num hnum hb).mono (hin b (by simp))
  have bad : ¬ (Fits (2 ^ 32) n1 ∧ Fits (2 ^ 32) n2) → ∃ s, s <:+: r1 ++ m1 ++ (r2 ++ m2 ++ (n1 ++ m3 ++ (n2 ++ m4 ++ u4))) ∧ Harmful s := fun hn =>
    ⟨_, ⟨[], m4 ++ u4, by simp⟩, .heading r1 m1 r2 m2 n1 m3 n2 k1 b1 k2 b2 k3 b3 k4 hn⟩
  simp only [Reads, parseRunway, nextStr, Tree.inner_node, next_cons, run_ok_bind, run_pure, List.cons_append, List.nil_append,
    read_unsigned k3.1, Tree.asStr_node]
  refine Safe.bind (gated_safe fun hn => bad fun h => hn h.1) fun v hv => ?_
  have : v.2 = .node .pos_integer n2 [] :: a :: b :: c :: l.flatten := by
    unfold gated at hv
    split at hv
    · cases hv; rfl
    · cases hv
  rw [this, read_unsigned k4.1]
  refine Safe.bind (gated_safe fun hn => bad fun h => hn h.2) fun w hw => ?_
  have : w.2 = a :: b :: c :: l.flatten := by
    unfold gated at hw
    split at hw
    · cases hw; rfl
    · cases hw
  rw [this]
  simp only [nextCoordinate, next_cons, run_ok_bind]
  refine (s1.bind fun v _ => safe_ok _).bind fun v hv => ?_
  obtain ⟨w, _, hw⟩ := run_bind_ok_iff.1 hv
  cases hw
  simp only [next_cons, run_ok_bind]
  refine (s2.bind fun v _ => safe_ok _).bind fun v hv => ?_
  obtain ⟨w, _, hw⟩ := run_bind_ok_iff.1 hv
  cases hw
  exact safe_ok _

/-! ## Sections -/

/-- Reading the entries of a section. -/
theorem entries_safe {A : Type} {f : Tree Rule → Run (Option A)} {T : Str} : ∀ {ts : List (Tree Rule)} {m : Map Str Colour},
    (∀ t ∈ ts, Tok skip K Peg.Sct.colour_definition .nonAtomic t ∨ t.asRule ≠ .colour_definition ∧ Reads f t) →
    (∀ t ∈ ts, t.asStr <:+: T) → Sf T (entries f m ts)
  | [], m, _, _ => safe_ok _
  | t :: ts, m, h, hi => by
    unfold entries
    have ih := fun m => entries_safe (f := f) (m := m) (fun t ht => h t (List.mem_cons_of_mem _ ht)) fun t ht => hi t (List.mem_cons_of_mem _ ht)
    rcases h t List.mem_cons_self with h | ⟨h1, h2⟩
    · have hs := (colour_safe rfl h m).mono (hi t List.mem_cons_self)
      obtain ⟨s, kids, rfl, _⟩ := tok_kids rfl h
      rw [if_pos (show (Tree.node _ _ _).asRule = Rule.colour_definition from rfl)]
      exact hs.bind fun v _ => ih v
    · rw [if_neg h1]
      exact (Safe.mono h2 (hi t List.mem_cons_self)).bind fun v _ => (ih m).bind fun w _ => safe_ok _

theorem kids_entries {x : Expr Rule} {ts : List (Tree Rule)} {Q : Tree Rule → Prop}
    (hx : ∀ k, Kids skip K x .nonAtomic k → ∃ t, Q t ∧ k = [t])
    (h : Kids skip K (.star (Peg.Sct.NL ⬝ (Peg.Sct.colour_definition ∥ x))) .nonAtomic ts) :
    ∀ t ∈ ts, Tok skip K Peg.Sct.colour_definition .nonAtomic t ∨ Q t := by
  refine kids_star_all h ?_
  rintro k ⟨k1, hk1, k2, hk2, rfl⟩ t ht
  rw [kids_mute _ _ _ rfl hk1, List.nil_append] at ht
  rcases hk2 with ⟨u, hu, rfl⟩ | hk2
  · rw [List.mem_singleton.1 ht]
    exact Or.inl hu
  · obtain ⟨u, hu, rfl⟩ := hx _ hk2
    rw [List.mem_singleton.1 ht]
    exact Or.inr hu

/-- A section with a list of entries. -/
theorem list_safe {A : Type} {q : Rule} {key : Expr Rule} {x : Expr Rule} {f : Tree Rule → Run (Option A)} {t : Tree Rule}
    (hkey : mute key .nonAtomic = true)
    (hx : ∀ k, Kids skip K x .nonAtomic k → ∃ t, (t.asRule ≠ .colour_definition ∧ Reads f t) ∧ k = [t])
    (h : Tok skip K (.rule q .normal (key ⬝ (.star (Peg.Sct.NL ⬝ (Peg.Sct.colour_definition ∥ x))))) .nonAtomic t) (m : Map Str Colour) :
    t.asRule = q ∧ Sf t.asStr (entries f m t.inner) := by
  have hin := tok_infix rfl h
  obtain ⟨T, kids, rfl, k1, hk1, k2, hk2, rfl⟩ := tok_kids rfl h
  rw [kids_mute _ _ _ hkey hk1, List.nil_append] at *
  refine ⟨rfl, entries_safe (kids_entries hx hk2) fun t ht => hin t ht⟩

theorem one_tok {A : Type} {x : Expr Rule} {q : Rule} {ty : Ty} {b : Expr Rule} (e : x = .rule q ty b) (he : emits ty .nonAtomic = true)
    (hq : q ≠ .colour_definition) {f : Tree Rule → Run (Option A)} (hr : ∀ t, Tok skip K x .nonAtomic t → Reads f t) :
    ∀ k, Kids skip K x .nonAtomic k → ∃ t, (t.asRule ≠ .colour_definition ∧ Reads f t) ∧ k = [t] := by
  subst e
  intro k hk
  have : ∃ t, Tok skip K (.rule q ty b) .nonAtomic t ∧ k = [t] := by
    rw [Kids, if_pos he] at hk
    exact hk
  obtain ⟨t, ht, rfl⟩ := this
  refine ⟨t, ⟨?_, hr t ht⟩, rfl⟩
  obtain ⟨T, kids, rfl, _⟩ := tok_kids he ht
  exact hq

theorem two_tok {A : Type} {x y : Expr Rule} {f : Tree Rule → Run (Option A)}
    (h1 : ∀ k, Kids skip K x .nonAtomic k → ∃ t, (t.asRule ≠ .colour_definition ∧ Reads f t) ∧ k = [t])
    (h2 : ∀ k, Kids skip K y .nonAtomic k → ∃ t, (t.asRule ≠ .colour_definition ∧ Reads f t) ∧ k = [t]) :
    ∀ k, Kids skip K (x ∥ y) .nonAtomic k → ∃ t, (t.asRule ≠ .colour_definition ∧ Reads f t) ∧ k = [t] := by
  rintro k (h | h)
  · exact h1 k h
  · exact h2 k h

/-! ## The section `[INFO]` -/

include hnum in
theorem decimal_read {t : Tree Rule} (h : Tok skip K Peg.Sct.decimal .nonAtomic t) :
    t.asRule ≠ .colour_definition ∧ ∃ v, unwrap (F64.ofText (F := F) t.asStr) = .ok v := by
  obtain ⟨s, r, ho⟩ := h
  obtain ⟨hd, e⟩ := out_decimal_rule ho
  obtain rfl : t = _ := by simpa using e
  refine ⟨by simp, num s, ?_⟩
  show unwrap (F64.ofText s) = _
  rw [hnum s hd]; rfl

theorem infoColours {T : Str} : ∀ {ts : List (Tree Rule)} {s : InfoState F}, (∀ t ∈ ts, Tok skip K Peg.Sct.colour_definition .nonAtomic t) →
    (∀ t ∈ ts, t.asStr <:+: T) → Sf T (ts.foldlM infoStep s) := by
  intro ts s h hi
  refine safe_foldlM fun t ht s => ?_
  have := (colour_safe rfl (h t ht) s.colours).mono (hi t ht)
  obtain ⟨u, kids, rfl, _⟩ := tok_kids rfl (h t ht)
  unfold infoStep
  rw [if_pos (show (Tree.node _ _ _).asRule = Rule.colour_definition from rfl)]
  exact this.bind fun v _ => safe_ok _

theorem infoColours_i : ∀ {ts : List (Tree Rule)} {s s' : InfoState F}, (∀ t ∈ ts, t.asRule = .colour_definition) →
    ts.foldlM infoStep s = .ok s' → s'.i = s.i
  | [], s, s', _, h => by cases h; rfl
  | t :: ts, s, s', hc, h => by
    rw [List.foldlM_cons] at h
    obtain ⟨s1, h1, h2⟩ := run_bind_ok_iff.1 h
    rw [infoColours_i (fun t ht => hc t (List.mem_cons_of_mem _ ht)) h2]
    unfold infoStep at h1
    rw [if_pos (hc t List.mem_cons_self)] at h1
    obtain ⟨c, _, h4⟩ := run_bind_ok_iff.1 h1
    cases h4
    rfl

/-- One of the lines of the section. -/
theorem info_step {T : Str} {t : Tree Rule} {ts : List (Tree Rule)} {s : InfoState F} (ht : t.asRule ≠ .colour_definition)
    (h : Sf T (infoStep s t)) (hr : ∀ s' : InfoState F, s'.i = s.i + 1 → Sf T (ts.foldlM infoStep s')) :
    Sf T ((t :: ts).foldlM infoStep s) := by
  rw [List.foldlM_cons]
  refine h.bind fun s' hs => hr s' ?_
  unfold infoStep at hs
  rw [if_neg ht] at hs
  obtain ⟨s1, h1, h2⟩ := run_bind_ok_iff.1 hs
  cases h2
  have : s1.i = s.i := by
    unfold infoLine at h1
    split at h1
    all_goals first
      | (cases h1; rfl)
      | (cases h1; done)
      | (obtain ⟨v, _, h3⟩ := run_bind_ok_iff.1 h1; cases h3; rfl)
  show s1.i + 1 = _
  rw [this]

theorem tok_ne {q : Rule} {ty : Ty} {b : Expr Rule} {t : Tree Rule} (he : emits ty .nonAtomic = true) (hq : q ≠ .colour_definition)
    (h : Tok skip K (.rule q ty b) .nonAtomic t) : t.asRule ≠ .colour_definition := by
  obtain ⟨T, kids, rfl, _⟩ := tok_kids he h
  exact hq

include hnum in
theorem info_safe [UnicodeTables] {t : Tree Rule} (h : Tok skip K Peg.Sct.info_section .nonAtomic t) (m : Map Str Colour) :
    Sf t.asStr (parseInfoSection (F := F) t m) := by
  have hin := tok_infix rfl h
  obtain ⟨T, kids, rfl, hk⟩ := tok_kids rfl h
  simp only [kids_simp] at hk
  obtain ⟨c1, hc1, a0, h0, a1, h1, a2, h2, a3, h3, a4, h4, a5, h5, a6, h6, a7, h7, l8, h8, c2, hc2, rfl⟩ := hk
  have hs : ∀ u : Tree Rule, u ∈ _ → u.asStr <:+: T := hin
  have num_step : ∀ {u : Tree Rule} {s : InfoState F}, Tok skip K Peg.Sct.decimal .nonAtomic u → 5 ≤ s.i → s.i ≤ 8 → Sf T (infoStep s u) := by
    intro u s hu l1 l2
    obtain ⟨e, v, hv⟩ := decimal_read num hnum hu
    unfold infoStep
    rw [if_neg e]
    refine Safe.bind ?_ fun _ _ => safe_ok _
    have : s.i = 5 ∨ s.i = 6 ∨ s.i = 7 ∨ s.i = 8 := by omega
    unfold infoLine
    rcases this with e | e | e | e <;> (rw [e]; simp only [hv, run_ok_bind]; exact safe_ok _)
  have part_step : ∀ {u : Tree Rule} {s : InfoState F}, Tok skip K Peg.Sct.sct_coord_part .nonAtomic u → u.asStr <:+: T → s.i = 3 ∨ s.i = 4 →
      Sf T (infoStep s u) := by
    intro u s hu hi l
    have hp := (part_safe num hnum hu).mono hi
    unfold infoStep
    rw [if_neg (tok_ne rfl (by decide) hu)]
    refine Safe.bind ?_ fun _ _ => safe_ok _
    unfold infoLine
    rcases l with e | e <;> (rw [e]; exact hp.bind fun _ _ => safe_ok _)
  have text_step : ∀ {u : Tree Rule} {s : InfoState F}, u.asRule ≠ .colour_definition → s.i ≤ 2 → Sf T (infoStep s u) := by
    intro u s hu l
    unfold infoStep
    rw [if_neg hu]
    have : s.i = 0 ∨ s.i = 1 ∨ s.i = 2 := by omega
    refine Safe.bind ?_ fun _ _ => safe_ok _
    unfold infoLine
    rcases this with e | e | e <;> (rw [e]; exact safe_ok _)
  refine Safe.bind ?_ fun _ _ => safe_ok _
  have e0 := tok_ne rfl (by decide) h0
  have e1 := tok_ne rfl (by decide) h1
  have e2 := tok_ne rfl (by decide) h2
  rw [Tree.inner_node, List.foldlM_append]
  refine Safe.bind (infoColours hc1 fun t ht => hs t (by simp [ht])) fun s hs0 => ?_
  have i0 : s.i = 0 := infoColours_i (fun t ht => by obtain ⟨u, ks, rfl, _⟩ := tok_kids rfl (hc1 t ht); rfl) hs0
  refine info_step e0 (text_step e0 (by omega)) fun s1 i1 => ?_
  refine info_step e1 (text_step e1 (by omega)) fun s2 i2 => ?_
  refine info_step e2 (text_step e2 (by omega)) fun s3 i3 => ?_
  refine info_step (tok_ne rfl (by decide) h3) (part_step h3 (hs a3 (by simp)) (by omega)) fun s4 i4 => ?_
  refine info_step (tok_ne rfl (by decide) h4) (part_step h4 (hs a4 (by simp)) (by omega)) fun s5 i5 => ?_
  refine info_step (tok_ne rfl (by decide) h5) (num_step h5 (by omega) (by omega)) fun s6 i6 => ?_
  refine info_step (tok_ne rfl (by decide) h6) (num_step h6 (by omega) (by omega)) fun s7 i7 => ?_
  refine info_step (tok_ne rfl (by decide) h7) (num_step h7 (by omega) (by omega)) fun s8 i8 => ?_
  have fin : ∀ s : InfoState F, Sf T (c2.foldlM infoStep s) := fun s => infoColours hc2 fun t ht => hs t (by simp [ht])
  rcases h8 with ⟨a8, h8, rfl⟩ | rfl
  · exact info_step (tok_ne rfl (by decide) h8) (num_step h8 (by omega) (by omega)) fun s9 _ => fin s9
  · exact fin s8

variable [DecidableEq F]

include hnum in
theorem section_safe [UnicodeTables] {t : Tree Rule} {k : List (Tree Rule)} (hk : Kids skip K Peg.Sct.section_ .nonAtomic k) (ht : t ∈ k) :
    Tok skip K Peg.Sct.colour_definition .nonAtomic t ∨
      t.asRule ≠ .colour_definition ∧ ∀ m, Sf t.asStr (parseSection (F := F) t m) := by
  unfold Peg.Sct.section_ at hk
  simp only [kids_simp] at hk
  obtain ⟨t', h, rfl⟩ := hk
  rw [List.mem_singleton.1 ht]
  have nv := one_tok (x := Peg.Sct.location) rfl rfl (by decide) (f := fun t => some <$> parseVor (F := F) t)
    fun t ht => Safe.map _ (navaid_safe num hnum ht)
  have dr := one_tok (x := Peg.Sct.coloured_lines) rfl rfl (by decide) (f := fun t => some <$> parseDrawing (F := F) t)
    fun t ht => Safe.map _ (drawing_safe num hnum ht)
  have aw := one_tok (x := Peg.Sct.airway) rfl rfl (by decide) (f := parseAirway (F := F))
    fun t ht => airway_safe num hnum ht
  rcases h with h | h | h | h | h | h | h | h | h | h | h | h | h | h | h | h | h
  · exact Or.inr ⟨tok_ne rfl (by decide) h, fun m => by
      have := info_safe num hnum h m
      obtain ⟨T, kids, rfl, _⟩ := tok_kids rfl h
      exact this.bind fun _ _ => safe_ok _⟩
  · exact Or.inr ⟨tok_ne rfl (by decide) h, fun m => by
      obtain ⟨e, this⟩ := list_safe rfl nv h m
      unfold parseSection; rw [e]; exact this.bind fun _ _ => safe_ok _⟩
  · exact Or.inr ⟨tok_ne rfl (by decide) h, fun m => by
      obtain ⟨e, this⟩ := list_safe rfl (two_tok
        (one_tok (x := Peg.Sct.location) rfl rfl (by decide) (f := parseNdb (F := F)) fun t ht => ndb_safe num hnum (Or.inl ht))
        (one_tok (x := Peg.Sct.broken) rfl rfl (by decide) fun t ht => ndb_safe num hnum (Or.inr ht))) h m
      unfold parseSection; rw [e]; exact this.bind fun _ _ => safe_ok _⟩
  · exact Or.inr ⟨tok_ne rfl (by decide) h, fun m => by
      obtain ⟨e, this⟩ := list_safe rfl (two_tok
        (one_tok (x := Peg.Sct.fix) rfl rfl (by decide) (f := parseFix (F := F)) fun t ht => fix_safe num hnum (Or.inl ht))
        (one_tok (x := Peg.Sct.broken) rfl rfl (by decide) fun t ht => fix_safe num hnum (Or.inr ht))) h m
      unfold parseSection; rw [e]; exact this.bind fun _ _ => safe_ok _⟩
  · exact Or.inr ⟨tok_ne rfl (by decide) h, fun m => by
      obtain ⟨e, this⟩ := list_safe rfl (one_tok (x := Peg.Sct.aerodrome) rfl rfl (by decide)
        (f := fun t => some <$> parseAirport (F := F) t) fun t ht => Safe.map _ (airport_safe num hnum ht)) h m
      unfold parseSection; rw [e]; exact this.bind fun _ _ => safe_ok _⟩
  · exact Or.inr ⟨tok_ne rfl (by decide) h, fun m => by
      obtain ⟨e, this⟩ := list_safe rfl (one_tok (x := Peg.Sct.runway) rfl rfl (by decide)
        (f := fun t => some <$> parseRunway (F := F) t) fun t ht => Safe.map _ (runway_safe num hnum ht)) h m
      unfold parseSection; rw [e]; exact this.bind fun _ _ => safe_ok _⟩
  · exact Or.inr ⟨tok_ne rfl (by decide) h, fun m => by
      obtain ⟨e, this⟩ := list_safe rfl dr h m
      unfold parseSection; rw [e]; exact this.bind fun _ _ => safe_ok _⟩
  · exact Or.inr ⟨tok_ne rfl (by decide) h, fun m => by
      obtain ⟨e, this⟩ := list_safe rfl dr h m
      unfold parseSection; rw [e]; exact this.bind fun _ _ => safe_ok _⟩
  · exact Or.inr ⟨tok_ne rfl (by decide) h, fun m => by
      obtain ⟨e, this⟩ := list_safe rfl dr h m
      unfold parseSection; rw [e]; exact this.bind fun _ _ => safe_ok _⟩
  · exact Or.inr ⟨tok_ne rfl (by decide) h, fun m => by
      obtain ⟨e, this⟩ := list_safe rfl dr h m
      unfold parseSection; rw [e]; exact this.bind fun _ _ => safe_ok _⟩
  · exact Or.inr ⟨tok_ne rfl (by decide) h, fun m => by
      obtain ⟨e, this⟩ := list_safe rfl dr h m
      unfold parseSection; rw [e]; exact this.bind fun _ _ => safe_ok _⟩
  · exact Or.inr ⟨tok_ne rfl (by decide) h, fun m => by
      obtain ⟨e, this⟩ := list_safe rfl aw h m
      unfold parseSection; rw [e]; exact this.bind fun _ _ => safe_ok _⟩
  · exact Or.inr ⟨tok_ne rfl (by decide) h, fun m => by
      obtain ⟨e, this⟩ := list_safe rfl aw h m
      unfold parseSection; rw [e]; exact this.bind fun _ _ => safe_ok _⟩
  · exact Or.inr ⟨tok_ne rfl (by decide) h, fun m => by
      obtain ⟨e, this⟩ := list_safe rfl (one_tok (x := Peg.Sct.region) rfl rfl (by decide)
        (f := fun t => some <$> parseRegion (F := F) t) fun t ht => Safe.map _ (region_safe num hnum ht)) h m
      unfold parseSection; rw [e]; exact this.bind fun _ _ => safe_ok _⟩
  · exact Or.inr ⟨tok_ne rfl (by decide) h, fun m => by
      obtain ⟨e, this⟩ := list_safe rfl (one_tok (x := Peg.Sct.label) rfl rfl (by decide)
        (f := fun t => some <$> parseLabel (F := F) t) fun t ht => Safe.map _ (label_safe num hnum ht)) h m
      unfold parseSection; rw [e]; exact this.bind fun _ _ => safe_ok _⟩
  · exact Or.inr ⟨tok_ne rfl (by decide) h, fun m => by
      obtain ⟨e, this⟩ := list_safe rfl dr h m
      unfold parseSection; rw [e]; exact this.bind fun _ _ => safe_ok _⟩
  · exact Or.inl h

theorem sections_safe {T : Str} : ∀ {ts : List (Tree Rule)} {m : Map Str Colour},
    (∀ t ∈ ts, Tok skip K Peg.Sct.colour_definition .nonAtomic t ∨
      t.asRule ≠ .colour_definition ∧ ∀ m, Sf t.asStr (parseSection (F := F) t m)) →
    (∀ t ∈ ts, t.asStr <:+: T) → Sf T (parseSections (F := F) m ts)
  | [], m, _, _ => safe_ok _
  | t :: ts, m, h, hi => by
    unfold parseSections
    have ih := fun m => sections_safe (m := m) (fun t ht => h t (List.mem_cons_of_mem _ ht)) fun t ht => hi t (List.mem_cons_of_mem _ ht)
    rcases h t List.mem_cons_self with h | ⟨h1, h2⟩
    · have hs := (colour_safe rfl h m).mono (hi t List.mem_cons_self)
      obtain ⟨s, kids, rfl, _⟩ := tok_kids rfl h
      rw [if_pos (show (Tree.node _ _ _).asRule = Rule.colour_definition from rfl)]
      exact hs.bind fun v _ => ih v
    · rw [if_neg h1]
      exact (Safe.mono (h2 m) (hi t List.mem_cons_self)).bind fun v _ => (ih v.2).bind fun w _ => safe_ok _

include hnum in
/-- The outcome of reading a file. -/
theorem parse_cases [UnicodeTables] (content : Str) :
    Verif.Parse.Sct.parse (F := F) content = .error .parseError ∨ Sf content (Verif.Parse.Sct.parse (F := F) content) := by
  rcases run_tok Peg.Sct.sct rfl (sk := skip) (skipBoth_ok rfl rfl) rfl rfl content with h | ⟨kids, h, ho⟩
  · left
    show (run skip Peg.Sct.sct content).bind _ = _
    rw [h]
    rfl
  · right
    have hin := out_infix _ _ _ _ _ ho
    have hk := out_kids _ _ _ _ _ ho
    obtain ⟨k1, hk1, _, ⟨k2, hk2, _, ⟨k3, hk3, _, ⟨k4, hk4, k5, hk5, rfl⟩, rfl⟩, rfl⟩, rfl⟩ := hk
    rw [kids_mute _ _ _ rfl hk1, kids_mute _ _ _ rfl hk4, List.nil_append, List.nil_append] at *
    have : Sf content (parseSections (F := F) [] (k2 ++ (k3 ++ k5))) := by
      refine sections_safe (fun t ht => ?_) hin
      rcases List.mem_append.1 ht with h | h
      · rcases hk2 with hk2 | rfl
        · exact section_safe num hnum hk2 h
        · cases h
      · rcases List.mem_append.1 h with h | h
        · refine kids_star_all (P := fun t => Tok skip K Peg.Sct.colour_definition .nonAtomic t ∨
            t.asRule ≠ .colour_definition ∧ ∀ m, Sf t.asStr (parseSection (F := F) t m)) hk3 ?_ t h
          rintro k ⟨k6, hk6, k7, hk7, rfl⟩ t ht
          rw [kids_mute _ _ _ rfl hk6, List.nil_append] at ht
          exact section_safe num hnum hk7 ht
        · have hk5 : k5 = [Tree.node Rule.EOI [] []] := by simpa [Kids] using hk5
          subst hk5
          rw [List.mem_singleton.1 h]
          exact Or.inr ⟨by simp, fun m => safe_ok _⟩
    show Sf content ((run skip Peg.Sct.sct content).bind _)
    rw [h]
    exact Safe.bind (m := parseSections (F := F) [] (k2 ++ (k3 ++ k5))) this fun v _ => safe_ok _
end

end Verif.Proofs.Sct
