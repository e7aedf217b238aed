import Verif.Model.Texts
import Verif.Spec.Texts
import Verif.Props.Airway
import Verif.Props.IsecDoubles
/-!
# C99 to C101: printed airways, wake turbulence categories and constraints
-/

namespace Verif.Props
open Verif.Parse Verif.Parse.Airway Verif.Spec.Texts Verif.AirwayGraph
open Verif.Spec.Isec (IsCoord IsDesignator)
open Verif.Spec.Airway (IsFile Line Nb)

/-! ## Airways -/

section Airways
variable {F : Type} [F64 F] [Quantize (Point F)]

/-- A neighbour as it is written in a row: a tab and the printed fix, or the text for none. -/
def neighbourText (show6 : F → Str) : Option (AirwayFix (Point F)) → Str
  | none => c!"\t\t\t\t\tN"
  | some a => '\t' :: Texts.airwayFix show6 a

/-- The text of a row: what the crate prints, put into the layout of airway.txt. -/
def rowText (show6 : F → Str) (r : Row F) : Str :=
  r.fix.designator ++ ['\t'] ++ show6 r.fix.coordinate.y ++ ['\t'] ++ show6 r.fix.coordinate.x ++ c!"\t14\t" ++ r.airway ++ ['\t'] ++
    Texts.airwayType r.type ++ neighbourText show6 r.before ++ neighbourText show6 r.behind ++ ['\n']

/-- What a neighbour is written as -/
def nbOf (show6 : F → Str) (a : AirwayFix (Point F)) : Nb where
  designator := a.fix.designator
  lat := show6 a.fix.coordinate.y
  lng := show6 a.fix.coordinate.x
  level := Texts.level a.minimumLevel
  valid := if a.validDirection then c!"Y" else c!"N"

/-- What a row is written as -/
def lineOf (show6 : F → Str) (r : Row F) : Line where
  fix := r.fix.designator
  lat := show6 r.fix.coordinate.y
  lng := show6 r.fix.coordinate.x
  airway := r.airway
  type := Texts.airwayType r.type
  nb1 := r.before.map (nbOf show6)
  nb2 := r.behind.map (nbOf show6)

/-- The names and coordinates of a row can be written, and its levels are `u32`. -/
structure RowPrintable (show6 : F → Str) (r : Row F) : Prop where
  airway : IsDesignator r.airway
  fixes : ∀ f ∈ r.fixes, Printable show6 f
  levels : ∀ l ∈ r.levels, l < 2 ^ 32

omit [Quantize (Point F)] in
theorem isNb_of (show6 : F → Str) {o : Option (AirwayFix (Point F))} (h : ∀ a, o = some a → Printable show6 a.fix) :
    Spec.Airway.IsNb (o.map (nbOf show6)) (neighbourText show6 o) := by
  cases o with
  | none => exact ⟨[], [], [], [], [], by simp, rfl⟩
  | some a =>
    have h1 := h a rfl
    refine ⟨h1.1, h1.2.2.1, h1.2.1.1, ?_, ?_, ?_⟩
    · show IsDigits (Texts.level a.minimumLevel) ∨ Texts.level a.minimumLevel = _ ∨ Texts.level a.minimumLevel = _
      cases a.minimumLevel with
      | none => exact .inr (.inr rfl)
      | some l => exact .inl (Model.Rounding.padZero_digits 5 (Model.Rounding.showRadix_digits l))
    · show (if a.validDirection then c!"Y" else c!"N") = _ ∨ (if a.validDirection then c!"Y" else c!"N") = _
      cases a.validDirection
      · exact .inr rfl
      · exact .inl rfl
    · simp [neighbourText, Texts.airwayFix, nbOf]

omit [Quantize (Point F)] in
theorem rows_isFile (show6 : F → Str) (rows : List (Row F)) (h : ∀ r ∈ rows, RowPrintable show6 r) :
    IsFile (rows.flatMap (rowText show6)) (rows.map (lineOf show6)) := by
  induction rows with
  | nil => exact .last [] (.inl rfl)
  | cons r rows ih =>
    have h1 := h r (by simp)
    have h2 := h1.fixes r.fix (by simp [Row.fixes])
    have := IsFile.line (lineOf show6 r) (r.fix.designator ++ '\t' :: (show6 r.fix.coordinate.y ++ '\t' :: (show6 r.fix.coordinate.x ++
      '\t' :: '1' :: '4' :: '\t' :: (r.airway ++ '\t' :: (Texts.airwayType r.type ++ (neighbourText show6 r.before ++
      (neighbourText show6 r.behind ++ []))))))) ['\n'] (rows.flatMap (rowText show6)) (rows.map (lineOf show6)) ?_ (.inl rfl)
      (ih fun r hr => h r (by simp [hr]))
    · simpa [rowText] using this
    · refine ⟨_, _, [], h2.1, h2.2.2.1, h2.2.1.1, h1.airway, ?_, isNb_of show6 ?_, isNb_of show6 ?_, .inl rfl, rfl⟩
      · show Texts.airwayType r.type = _ ∨ Texts.airwayType r.type = _ ∨ Texts.airwayType r.type = _ ∨ Texts.airwayType r.type = _
        cases r.type <;> simp [Texts.airwayType]
      · intro a ha
        exact h1.fixes a.fix (by simp [Row.fixes, ha])
      · intro a ha
        exact h1.fixes a.fix (by simp [Row.fixes, ha])

omit [F64 F] [Quantize (Point F)] in
theorem levelOf_nbOf (show6 : F → Str) (a : AirwayFix (Point F)) : Spec.Airway.levelOf (nbOf show6 a) = a.minimumLevel := by
  unfold Spec.Airway.levelOf nbOf
  simp only
  cases a.minimumLevel with
  | none => simp [Texts.level]
  | some l =>
    have hd : IsDigits (Texts.level (some l)) := Model.Rounding.padZero_digits 5 (Model.Rounding.showRadix_digits l)
    rw [if_neg, Texts.level, Model.Rounding.digitsValue_pad]
    rintro (h' | h')
    · exact hd.1 h'
    · rw [h'] at hd
      exact absurd hd (by decide)

omit [Quantize (Point F)] in
theorem segment_nbOf (show6 : F → Str) {r : Row F} (hr : RowPrintable show6 r) {a : AirwayFix (Point F)} (ha : a ∈ r.before.toList ++ r.behind.toList)
    (num : Str → F) (hnum : ∀ s, IsCoord s → F64.ofText s = some (num s)) :
    Spec.Airway.segment (fun lat lng => ({ x := num lng, y := num lat } : Point F)) (lineOf show6 r) (nbOf show6 a) =
      ⟨r.airway, r.fix.designator, r.fix.coordinate, a, r.type⟩ := by
  have back : ∀ f ∈ r.fixes, num (show6 f.coordinate.x) = f.coordinate.x ∧ num (show6 f.coordinate.y) = f.coordinate.y := by
    intro f hf
    obtain ⟨_, ⟨hx, hx'⟩, hy, hy'⟩ := hr.fixes f hf
    rw [hnum _ hx] at hx'
    rw [hnum _ hy] at hy'
    exact ⟨Option.some.inj hx', Option.some.inj hy'⟩
  have h1 := back r.fix (by simp [Row.fixes])
  have h2 := back a.fix (List.mem_cons_of_mem _ (List.mem_map_of_mem ha))
  have ht : Spec.Airway.typeOf (Texts.airwayType r.type) = r.type := by cases r.type <;> rfl
  have hv : decide ((nbOf show6 a).valid = ['Y']) = a.validDirection := by
    obtain ⟨_, _ | _, _⟩ := a <;> rfl
  have hl := levelOf_nbOf show6 a
  obtain ⟨⟨name, pos⟩, vd, lvl⟩ := a
  unfold Spec.Airway.segment
  rw [hl, hv]
  simp only [lineOf, nbOf, ht]
  simp only at h2
  rw [h1.1, h1.2, h2.1, h2.2]

omit [Quantize (Point F)] in
theorem segments_lineOf (show6 : F → Str) {r : Row F} (hr : RowPrintable show6 r) (num : Str → F)
    (hnum : ∀ s, IsCoord s → F64.ofText s = some (num s)) :
    Spec.Airway.segments (fun lat lng => ({ x := num lng, y := num lat } : Point F)) (lineOf show6 r) = r.segments := by
  have key := fun a ha => segment_nbOf show6 hr (a := a) ha num hnum
  obtain ⟨fix, airway, type, before, behind⟩ := r
  unfold Spec.Airway.segments Row.segments
  cases before <;> cases behind <;> simp_all [lineOf]

/-- **C99.**  A file that is put together from printed fixes and types of airways is read as the airways it was printed from: it
gives the graph of the segments of its rows. -/
theorem C99_airway_round_trip (show6 : F → Str) (num : Str → F) (hnum : ∀ s, IsCoord s → F64.ofText s = some (num s)) (rows : List (Row F))
    (hne : rows ≠ []) (h : ∀ r ∈ rows, RowPrintable show6 r) :
    ∃ g, parseAirwayTxt (F := F) (rows.flatMap (rowText show6)) = .ok g ∧ build (rows.flatMap Row.segments) = .ok g := by
  obtain ⟨g, h1, h2⟩ := C08_airway_ok num hnum _ _ (rows_isFile show6 rows h) (by simpa using hne) (by
    intro w hw n hn l hl
    obtain ⟨r, hr, rfl⟩ := List.mem_map.1 hw
    have : ∃ a ∈ r.before.toList ++ r.behind.toList, n = nbOf show6 a := by
      rcases hn with hn | hn <;> obtain ⟨a, ha, rfl⟩ := Option.map_eq_some_iff.1 hn <;> exact ⟨a, by simp [ha], rfl⟩
    obtain ⟨a, ha, rfl⟩ := this
    rw [levelOf_nbOf] at hl
    exact (h r hr).levels l (List.mem_filterMap.2 ⟨a, ha, hl⟩))
  refine ⟨g, h1, ?_⟩
  rw [← h2, List.flatMap_map]
  congr 1
  have : ∀ rs : List (Row F), (∀ r ∈ rs, RowPrintable show6 r) → rs.flatMap Row.segments =
      rs.flatMap fun r => Spec.Airway.segments (fun lat lng => ({ x := num lng, y := num lat } : Point F)) (lineOf show6 r) := by
    intro rs hrs
    induction rs with
    | nil => rfl
    | cons r rs ih =>
      rw [List.flatMap_cons, List.flatMap_cons, segments_lineOf show6 (hrs r (by simp)) num hnum, ih fun r hr => hrs r (by simp [hr])]
  exact this rows h

end Airways

section Doubles
variable (R : Model.Rounding) [Quantize (Point R.Num)]

/-- A coordinate that was read from a numeral below 10⁹ with at most six decimals -/
def SixDecimals (x : R.Num) : Prop := ∃ s neg n, Spec.Quantize.Millionths s neg n ∧ n ≤ 10 ^ 15 ∧ x = R.ofText s

/-- **C99, with doubles.**  Nothing is assumed about how coordinates are printed: those that were read from numerals with at most six
decimals, as in airway.txt, are read back exactly. -/
theorem C99_airway_doubles (rows : List (Row R.Num)) (hne : rows ≠ []) (h : ∀ r ∈ rows, IsDesignator r.airway ∧
      (∀ f ∈ r.fixes, IsDesignator f.designator ∧ SixDecimals R f.coordinate.x ∧ SixDecimals R f.coordinate.y) ∧
      ∀ l ∈ r.levels, l < 4294967296) :
    ∃ g, parseAirwayTxt (F := R.Num) (rows.flatMap (rowText (show6 R))) = .ok g ∧ build (rows.flatMap Row.segments) = .ok g := by
  refine C99_airway_round_trip (show6 R) R.ofText (fun _ _ => rfl) rows hne fun r hr => ⟨(h r hr).1, fun f hf => ?_, (h r hr).2.2⟩
  obtain ⟨h1, ⟨s, neg, n, h2, h3, h4⟩, s', neg', n', h5, h6, h7⟩ := (h r hr).2.1 f hf
  refine ⟨h1, ?_, ?_⟩
  · rw [h4]; exact (C96_coordinate R h2 h3).2
  · rw [h7]; exact (C96_coordinate R h5 h6).2

end Doubles

/-! ## Wake turbulence categories -/

/-- **C100, partial.**  Except for an unknown one, the letter printed for a category is the one that is read as this category, and no other
text is. -/
theorem C100_wtc_partial (w : Icao.Wtc) (h : w ≠ .unknown) (s : Str) : Icao.Wtc.fromStr s = some w ↔ s = Texts.wtc w := by
  constructor
  · intro hs
    unfold Icao.Wtc.fromStr at hs
    split at hs <;> first | (cases hs; first | rfl | exact absurd rfl h) | cases hs
  · rintro rfl
    cases w <;> first | rfl | exact absurd rfl h

/-- **C100.**  Different categories have different texts. -/
theorem C100_wtc_injective (v w : Icao.Wtc) (h : Texts.wtc v = Texts.wtc w) : v = w := by
  cases v <;> cases w <;> first | rfl | exact absurd h (by decide)

/-- **C100 is false for unknown categories**: what is printed is not read at all, and what is read as unknown is printed differently. -/
theorem C100_wtc_unknown : Icao.Wtc.fromStr (Texts.wtc .unknown) = none ∧ Icao.Wtc.fromStr c!"-" = some .unknown ∧
    Texts.wtc .unknown ≠ c!"-" := by decide

/-! ## Constraints -/

open Texts (padRight)

theorem padRight_length {w : Nat} {s : Str} (h : s.length ≤ w) : (padRight w s).length = w := by
  simp [padRight]; omega

theorem dropWhile_replicate (n : Nat) (c : Char) (s : Str) :
    (List.replicate n c ++ s).dropWhile (fun x => decide (x = c)) = s.dropWhile fun x => decide (x = c) := by
  induction n with
  | zero => rfl
  | succ n ih => simp [List.replicate_succ, ih]

theorem column_padRight {w n : Nat} {pre s post : Str} (hp : pre.length = n) (h : Fits w s) :
    column n w (pre ++ padRight w s ++ post) = s := by
  unfold column
  rw [List.append_assoc, List.drop_append, ← hp, List.drop_length, Nat.sub_self, List.drop_zero, List.nil_append,
    List.take_append_of_le_length (by rw [padRight_length h.1]), List.take_of_length_le (by rw [padRight_length h.1])]
  unfold padRight
  rw [List.reverse_append, List.reverse_replicate, dropWhile_replicate]
  have : s.reverse.dropWhile (fun x => decide (x = ' ')) = s.reverse := by
    have h2 := h.2
    rw [← List.head?_reverse] at h2
    cases hr : s.reverse with
    | nil => rfl
    | cons c t =>
      rw [hr] at h2
      rw [List.dropWhile_cons_of_neg]
      simpa using h2
  rw [this, List.reverse_reverse]

/-- **C101, partial.**  In a list of printed constraints the fix (or `*`) and the sectors stand in columns: if they fit, they can be read off. -/
theorem C101_columns_partial (c : Constraints.Constraint) (h1 : Fits 8 (c.fix.getD c!"*")) (h2 : Fits 30 c.exitSector) (h3 : Fits 30 c.entrySector) :
    column 0 8 (Texts.constraint c) = c.fix.getD c!"*" ∧ column 9 30 (Texts.constraint c) = c.exitSector ∧
      column 42 30 (Texts.constraint c) = c.entrySector := by
  have l1 := padRight_length h1.1
  have l2 := padRight_length h2.1
  unfold Texts.constraint
  refine ⟨?_, ?_, ?_⟩
  · have := fun post => column_padRight (pre := []) (n := 0) (post := post) rfl h1
    simp only [List.append_assoc, List.nil_append] at this ⊢
    exact this _
  · have := fun post => column_padRight (pre := padRight 8 (c.fix.getD c!"*") ++ c!" ") (n := 9) (post := post) (by simp [l1]) h2
    simp only [List.append_assoc] at this ⊢
    exact this _
  · have := fun post => column_padRight (pre := padRight 8 (c.fix.getD c!"*") ++ c!" " ++ padRight 30 c.exitSector ++ c!" → ") (n := 42) (post := post)
      (by simp [l1, l2]) h3
    simp only [List.append_assoc] at this ⊢
    exact this _

/-- A constraint with a climb level or a descent level, a departure or an arrival runway -/
def constraintWith (climb descent : Option Nat) (dep arr : Option Str) : Constraints.Constraint :=
  ⟨none, dep, none, arr, some c!"DKB", c!"EDMM·ALB", c!"EDGG·KTG", climb, descent, []⟩

/-- **C101 is false for levels and runways**: a constraint for climbing is printed as one for descending, a level is rounded down to
hundreds of feet, and the runway of departure is printed as that of arrival. -/
theorem C101_ambiguous :
    Texts.constraint (constraintWith (some 24000) none none none) = Texts.constraint (constraintWith none (some 24000) none none) ∧
    Texts.constraint (constraintWith (some 24000) none none none) = Texts.constraint (constraintWith (some 24099) none none none) ∧
    Texts.constraint (constraintWith (some 24000) none (some c!"08R") none) = Texts.constraint (constraintWith (some 24000) none none (some c!"08R")) ∧
    Texts.constraint (constraintWith (some 24000) none (some c!"08R") none) = Texts.constraint (constraintWith (some 24000) none (some c!"08R") (some c!"25C")) := by
  decide +kernel

/-! ## Examples -/

/-- Rows that meet the hypotheses of C99 -/
example : ∃ rows : List (Row binary64.Num), rows.length = 1 ∧ rows ≠ [] ∧ ∀ r ∈ rows, IsDesignator r.airway ∧
      (∀ f ∈ r.fixes, IsDesignator f.designator ∧ SixDecimals binary64 f.coordinate.x ∧ SixDecimals binary64 f.coordinate.y) ∧
      ∀ l ∈ r.levels, l < 4294967296 := by
  have six : SixDecimals binary64 (binary64.ofText c!"-49.196175") :=
    ⟨c!"-49.196175", true, 49196175, ⟨c!"-", c!"49", c!"196175", 0, rfl, rfl, by decide, by decide, rfl, by decide⟩, by norm_num, rfl⟩
  refine ⟨[⟨⟨c!"ASPAT", ⟨binary64.ofText c!"-49.196175", binary64.ofText c!"-49.196175"⟩⟩, c!"L603", .high,
    some ⟨⟨c!"RODIX", ⟨binary64.ofText c!"-49.196175", binary64.ofText c!"-49.196175"⟩⟩, true, some 9500⟩, none⟩], rfl, by simp, ?_⟩
  intro r hr
  rw [List.mem_singleton.1 hr]
  refine ⟨by decide, ?_, ?_⟩
  · intro f hf
    simp only [Row.fixes, Option.toList, List.append_nil, List.map_cons, List.map_nil, List.mem_cons, List.not_mem_nil, or_false] at hf
    rcases hf with rfl | rfl
    · exact ⟨(by decide : IsDesignator c!"ASPAT"), six, six⟩
    · exact ⟨(by decide : IsDesignator c!"RODIX"), six, six⟩
  · intro l hl
    simp [Row.levels] at hl
    omega

/-- The text of a row -/
example : rowText (F := Str) id ⟨⟨c!"ASPAT", ⟨c!"10.700000", c!"49.196175"⟩⟩, c!"L603", .high, some ⟨⟨c!"RODIX", ⟨c!"10.250000", c!"49.500000"⟩⟩, true, some 950⟩, none⟩ =
    c!"ASPAT\t49.196175\t10.700000\t14\tL603\tH\tRODIX\t49.500000\t10.250000\t00950\tY\t\t\t\t\tN\n" := by decide +kernel

/-- The text of a constraint -/
example : Texts.constraint (constraintWith (some 24000) none (some c!"08R") none) =
    c!"DKB      EDMM·ALB                       → EDGG·KTG                        FL240  [08R]" := by decide +kernel

/-- Its columns fit. -/
example : Fits 8 ((constraintWith none none none none).fix.getD c!"*") ∧ Fits 30 (constraintWith none none none none).exitSector ∧
    Fits 30 (constraintWith none none none none).entrySector := by decide

end Verif.Props
