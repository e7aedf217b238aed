import Verif.Proofs.SctWriteLines
import Verif.Proofs.SctWriteName
/-!
# Written entries as texts of the format
-/

namespace Verif.Proofs.SctWrite
open Verif.Dms Verif.Parse Verif.Spec Verif.Spec.Sct Verif.Spec.SctWrite Verif.Model.SctWrite
open Verif.Spec.Ese (DmsText)
open Verif.Parse.Sct (Loc Airport Airway Fix Navaid Runway Region Label Drawing Info)
open Verif.Lines (Group ColouredLine)

theorem gap_pad (n : Nat) (s : Str) : IsGap (List.replicate (n - s.length) ' ' ++ c!" ") := by
  refine ⟨by simp, fun c hc => ?_⟩
  rcases List.mem_append.1 hc with h | h
  · rw [List.eq_of_mem_replicate h]; decide
  · rw [List.mem_singleton.1 h]; decide

theorem plainGap_pad (n : Nat) (s : Str) : IsPlainGap (List.replicate (n - s.length) ' ' ++ c!" ") := by
  refine ⟨gap_pad n s, fun c hc => ?_⟩
  have : c ∈ List.replicate (n - s.length) ' ' ++ c!" " := List.mem_of_mem_head? hc
  rcases List.mem_append.1 this with h | h
  · rw [List.eq_of_mem_replicate h]; decide
  · rw [List.mem_singleton.1 h]; decide

theorem gap_one : IsGap c!" " := by decide

theorem filler_blanks {s t : Str} (h : ∀ c ∈ s, IsBlankChar c) (ht : IsFiller marks t) : IsFiller marks (s ++ t) := by
  induction s with
  | nil => exact ht
  | cons c s ih => exact .blank c _ (h c List.mem_cons_self) (ih fun d hd => h d (List.mem_cons_of_mem _ hd))

/-- A line end and blanks. -/
theorem break_blanks {s : Str} (h : ∀ c ∈ s, IsBlankChar c) : Sct.IsBreak ('\n' :: s) :=
  ⟨'\n', s, rfl, Or.inl rfl, by simpa using filler_blanks h .nil⟩

theorem tail_nil : IsTail [] := ⟨[], [], rfl, by simp [AreBlanks], Or.inl rfl⟩

theorem digits_padZero (w n : Nat) : IsDigits (padZero w (showNat n)) := by
  refine ⟨by simp [padZero, showNat_ne_nil], fun c hc => ?_⟩
  rcases List.mem_append.1 hc with h | h
  · rw [List.eq_of_mem_replicate h]; rfl
  · exact showNat_digits n c h

theorem digitsValue_zeros (k : Nat) (s : Str) : digitsValue (List.replicate k '0' ++ s) = digitsValue s := by
  induction k with
  | zero => rfl
  | succ k ih =>
    rw [List.replicate_succ, List.cons_append]
    unfold digitsValue at ih ⊢
    rw [List.foldl_cons]
    exact ih

theorem value_padZero (w n : Nat) : digitsValue (padZero w (showNat n)) = n := by
  unfold padZero
  rw [digitsValue_zeros, digitsValue_showNat]

theorem intValue_digits {s : Str} (h : IsDigits s) : intValue s = digitsValue s := by
  obtain ⟨c, t, rfl⟩ := List.exists_cons_of_ne_nil h.1
  have hc := h.2 c List.mem_cons_self
  unfold intValue
  split
  · next e => injection e with e _; subst e; exact absurd hc (by decide)
  · next e => injection e with e _; subst e; exact absurd hc (by decide)
  · rfl

theorem digits_head {s : Str} (h : IsDigits s) : s.head? ≠ some '-' := by
  obtain ⟨c, t, rfl⟩ := List.exists_cons_of_ne_nil h.1
  intro e
  cases e
  exact absurd (h.2 _ List.mem_cons_self) (by decide)

theorem posInteger_digits {s : Str} (h : IsDigits s) : IsPosInteger s := ⟨⟨[], s, rfl, Or.inl rfl, h⟩, digits_head h⟩

theorem number_digits {s : Str} (h : IsDigits s) : Ese.number s = digitsValue s := by
  unfold Ese.number
  rw [intValue_digits h]
  rfl

theorem fits_digits {s : Str} {b : Nat} (h : IsDigits s) (hb : digitsValue s < b) : Ese.Fits b s := by
  refine ⟨digits_head h, ?_⟩
  rw [intValue_digits h]
  exact_mod_cast hb

theorem windows_pairs {A : Type} (l : List A) : windows l = pairs l := by
  induction l with
  | nil => rfl
  | cons a l ih =>
    cases l with
    | nil => rfl
    | cons b l =>
      show (a, b) :: windows (b :: l) = (a, b) :: pairs (b :: l)
      rw [ih]

theorem groupSegs_segments {F : Type} [DecidableEq F] (g : Group (Loc F)) : groupSegs g = segments g := by
  unfold groupSegs segments
  have : (windows : List (Loc F) → _) = pairs := funext windows_pairs
  rw [this]

section
variable {F : Type} (P : Printer F) (T : Bool → F → DmsText)

/-- The texts of angles are angles. -/
structure Texts : Prop where
  valid : ∀ lat x, (T lat x).Valid
  fits : ∀ lat x, (T lat x).Fits
  text : ∀ lat x, (T lat x).text = P.dms lat x

/-- The text of a point. -/
def ctext (p : Point F) : CoordText := ⟨T true p.y, c!" ", T false p.x⟩

def ltext : Loc F → LocText
  | .fix n => .fix n c!" "
  | .coordinate p => .coord (ctext T p)

def stext (s : ColouredLine (Loc F)) : LineText := ⟨ltext T s.start, c!" ", ltext T s.stop, s.colour.map fun c => (c!" ", c)⟩

variable {P T} (hT : Texts P T)
include hT

theorem ctext_text (p : Point F) : (ctext T p).text = point P p := by
  unfold ctext CoordText.text point
  rw [hT.text, hT.text]

theorem ctext_valid (p : Point F) : (ctext T p).Valid := ⟨hT.valid _ _, gap_one, hT.valid _ _⟩
theorem ctext_fits (p : Point F) : (ctext T p).Fits := ⟨hT.fits _ _, hT.fits _ _⟩

theorem ltext_text (l : Loc F) : (ltext T l).text = loc P l := by
  cases l with
  | fix n => rfl
  | coordinate p => exact ctext_text hT p

theorem ltext_valid {l : Loc F} (h : IsLoc l) : (ltext T l).Valid := by
  cases l with
  | fix n => exact ⟨h, gap_one⟩
  | coordinate p => exact ctext_valid hT p

theorem ltext_fits (l : Loc F) : (ltext T l).Fits := by
  cases l with
  | fix n => trivial
  | coordinate p => exact ctext_fits hT p

theorem stext_text (c : Option Str) (s : Loc F × Loc F) : (stext T ⟨s.1, s.2, c⟩).text = segment P c s := by
  unfold stext LineText.text segment
  rw [ltext_text hT, ltext_text hT]
  cases c <;> rfl

theorem stext_fits (s : ColouredLine (Loc F)) : (stext T s).Fits := ⟨ltext_fits hT _, ltext_fits hT _⟩

theorem stext_valid {s : ColouredLine (Loc F)} (h1 : IsLoc s.start) (h2 : IsLoc s.stop) (hc : ∀ c, s.colour = some c → IsColourName c) :
    (stext T s).Valid := by
  refine ⟨ltext_valid hT h1, gap_one, ltext_valid hT h2, fun g c h => ?_⟩
  simp only [stext, Option.map_eq_some_iff, Prod.mk.injEq] at h
  obtain ⟨a, h1, rfl, rfl⟩ := h
  exact ⟨gap_one, hc _ h1⟩

/-! ## Values -/

variable [DmsArith F] (num : Str → F)

omit hT in
/-- The angle that is read. -/
def back (T : Bool → F → DmsText) (num : Str → F) (lat : Bool) (x : F) : F := (T lat x).value num

omit hT in
theorem ctext_point (p : Point F) : (ctext T p).point num = rePoint (back T num) p := rfl

omit hT in
theorem ltext_value (l : Loc F) : (ltext T l).value num = reLoc (back T num) l := by
  cases l <;> rfl

omit hT in
theorem stext_value (s : ColouredLine (Loc F)) : (stext T s).value num = reSegment (back T num) s := by
  unfold stext LineText.value reSegment
  rw [ltext_value, ltext_value]
  cases h : s.colour <;> rfl

/-! ## Entries -/

theorem navaid_text {n : Navaid F} (h : IsDesignator n.designator ∧ IsDecimal n.frequency) :
    ∃ x : Tailed NavaidText, x.text NavaidText.text = navaid P n ∧ x.Valid NavaidText.Valid ∧ x.body.coord.Fits ∧
      x.body.value num = reNavaid (back T num) n := by
  refine ⟨⟨⟨n.designator, List.replicate (4 - n.designator.length) ' ' ++ c!" ", n.frequency, c!" ", ctext T n.coordinate⟩, []⟩, ?_,
    ⟨⟨h.1, gap_pad _ _, h.2, gap_one, ctext_valid hT _⟩, tail_nil⟩, ctext_fits hT _, rfl⟩
  simp [Tailed.text, NavaidText.text, ctext_text hT, navaid, padRight]

theorem fix_text [UnicodeTables] {n : Fix F} (h : IsFixName n.designator ∧ IsStart n.designator) :
    ∃ x : Tailed FixText, x.text FixText.text = fix P n ∧ x.Valid FixText.Valid ∧ x.body.coord.Fits ∧
      x.body.value num = reFix (back T num) n := by
  refine ⟨⟨⟨n.designator, List.replicate (5 - n.designator.length) ' ' ++ c!" ", ctext T n.coordinate⟩, []⟩, ?_,
    ⟨⟨h.1, h.2, plainGap_pad _ _, ctext_valid hT _⟩, tail_nil⟩, ctext_fits hT _, rfl⟩
  simp [Tailed.text, FixText.text, ctext_text hT, fix, padRight]

theorem airport_text {n : Airport F} (h : IsDesignator n.designator ∧ ∃ c ∈ c!"ABCDEFG", n.ctrAirspace = [c]) :
    ∃ x : Tailed AirportText, x.text AirportText.text = airport P n ∧ x.Valid AirportText.Valid ∧ x.body.coord.Fits ∧
      x.body.value num = reAirport (back T num) n := by
  obtain ⟨h1, c, hc, e⟩ := h
  refine ⟨⟨⟨n.designator, c!" ", some (c!"000.000", c!" "), ctext T n.coordinate, c!" ", c⟩, []⟩, ?_,
    ⟨⟨h1, gap_one, ?_, ctext_valid hT _, gap_one, hc⟩, tail_nil⟩, ctext_fits hT _, ?_⟩
  · simp [Tailed.text, AirportText.text, ctext_text hT, airport, frequencyText, e]
  · intro f g e'
    cases e'
    exact ⟨Or.inl ⟨[], c!"000", c!".000", rfl, Or.inl rfl, by decide, Or.inr ⟨c!"000", rfl, by decide⟩⟩, gap_one⟩
  · unfold AirportText.value reAirport
    rw [e]
    rfl

theorem runway_text {r : Runway F} (h : IsRunway r.designators.1 ∧ IsRunway r.designators.2 ∧ r.headings.1 < 2 ^ 32 ∧ r.headings.2 < 2 ^ 32 ∧
      IsDesignator r.aerodrome) :
    ∃ x : RunwayText, x.text = runway P r ∧ x.Valid ∧ x.Fits ∧ x.value num = reRunway (back T num) r := by
  obtain ⟨h1, h2, h3, h4, h5⟩ := h
  have d1 := digits_padZero 3 r.headings.1
  have d2 := digits_padZero 3 r.headings.2
  refine ⟨⟨r.designators.1, List.replicate (3 - r.designators.1.length) ' ' ++ c!" ", r.designators.2,
    List.replicate (3 - r.designators.2.length) ' ' ++ c!" ", padZero 3 (showNat r.headings.1), c!" ", padZero 3 (showNat r.headings.2), c!" ",
    ctext T r.location.1, c!" ", ctext T r.location.2, c!" ", r.aerodrome, []⟩, ?_,
    ⟨h1, gap_pad _ _, h2, gap_pad _ _, posInteger_digits d1, gap_one, posInteger_digits d2, gap_one, ctext_valid hT _, gap_one, ctext_valid hT _,
      gap_one, h5, by simp, by simp⟩,
    ⟨fits_digits d1 (by rw [value_padZero]; exact h3), fits_digits d2 (by rw [value_padZero]; exact h4), ctext_fits hT _, ctext_fits hT _⟩, ?_⟩
  · simp [RunwayText.text, ctext_text hT, runway, padRight]
  · unfold RunwayText.value reRunway
    simp only [number_digits d1, number_digits d2, value_padZero]
    rfl

theorem airway_text [UnicodeTables] {a : Airway F} (h : IsFixName a.designator ∧ IsStart a.designator ∧ IsLoc a.start ∧ IsLoc a.stop) :
    ∃ x : Tailed AirwayText, x.text AirwayText.text = airway P a ∧ x.Valid AirwayText.Valid ∧ x.body.Fits ∧
      x.body.value num = reAirway (back T num) a := by
  obtain ⟨h1, h2, h3, h4⟩ := h
  refine ⟨⟨⟨a.designator, List.replicate (10 - a.designator.length) ' ' ++ c!" ", ltext T a.start, c!" ", ltext T a.stop⟩, []⟩, ?_,
    ⟨⟨h1, h2, plainGap_pad _ _, ltext_valid hT h3, gap_one, ltext_valid hT h4⟩, tail_nil⟩, ⟨ltext_fits hT _, ltext_fits hT _⟩, ?_⟩
  · simp [Tailed.text, AirwayText.text, ltext_text hT, airway, padRight]
  · unfold AirwayText.value reAirway
    rw [ltext_value, ltext_value]

theorem label_text {l : Label F} (h : (IsStart l.name ∧ ∀ c ∈ l.name, ¬ IsNewline c ∧ c ≠ '"') ∧ (∃ p, l.coordinate = .coordinate p) ∧
      IsColourName l.colourName) :
    ∃ x : Tailed LabelText, x.text LabelText.text = label P l ∧ x.Valid LabelText.Valid ∧ x.body.coord.Fits ∧
      x.body.value num = reLabel (back T num) l := by
  obtain ⟨h1, ⟨p, e⟩, h3⟩ := h
  refine ⟨⟨⟨l.name, c!" ", ctext T p, c!" ", l.colourName⟩, []⟩, ?_, ⟨⟨h1, gap_one.2, ctext_valid hT _, gap_one, h3⟩, tail_nil⟩,
    ctext_fits hT _, ?_⟩
  · simp [Tailed.text, LabelText.text, ctext_text hT, label, e, loc]
  · unfold LabelText.value reLabel
    rw [e]
    rfl

theorem region_text {r : Region F} (h : (r.name ≠ [] ∧ IsStart r.name ∧ (∀ c ∈ r.name, ¬ IsNewline c ∧ c ≠ '\t' ∧ c ≠ '[') ∧
      ∀ c, r.name.getLast? = some c → ¬ IsBlankChar c) ∧ IsColourName r.colourName ∧ r.polygon ≠ []) :
    ∃ x : RegionText, x.text = region P r ∧ x.Valid ∧ x.Fits ∧ x.value num = reRegion (back T num) r := by
  obtain ⟨h1, h2, h3⟩ := h
  obtain ⟨name, colour, polygon⟩ := r
  obtain ⟨p, ps, rfl⟩ := List.exists_cons_of_ne_nil h3
  refine ⟨⟨c!" ", name, [], c!"\n", colour, List.replicate (26 - colour.length) ' ' ++ c!" ", ctext T p, [],
    ps.map fun q => ⟨'\n' :: (padRight 26 [] ++ c!" "), ctext T q, []⟩⟩, ?_, ⟨gap_one, h1, by simp, break_blanks (s := []) (by simp), h2,
      gap_pad _ _, ctext_valid hT _, tail_nil, ?_⟩, ?_, ?_⟩
  · have e : ∀ qs : List (Point F), (qs.map fun q => (⟨'\n' :: (padRight 26 [] ++ c!" "), ctext T q, []⟩ : Ln CoordText)).flatMap (Ln.text CoordText.text) =
        qs.flatMap fun q => c!"\n" ++ (padRight 26 [] ++ (c!" " ++ point P q)) := by
      intro qs
      rw [List.flatMap_map]
      refine congrArg (fun f => List.flatMap f qs) (funext fun q => ?_)
      simp [Ln.text, ctext_text hT]
    unfold RegionText.text
    rw [e]
    cases ps with
    | nil => simp [region, ctext_text hT, padRight]
    | cons q ps => simp [region, ctext_text hT, padRight]
  · intro l hl
    obtain ⟨q, _, rfl⟩ := List.mem_map.1 hl
    exact ⟨break_blanks (by decide), ctext_valid hT _, tail_nil⟩
  · intro c hc
    rcases List.mem_cons.1 hc with rfl | hc
    · exact ctext_fits hT _
    · obtain ⟨l, hl, rfl⟩ := List.mem_map.1 hc
      obtain ⟨q, _, rfl⟩ := List.mem_map.1 hl
      exact ctext_fits hT _
  · unfold RegionText.value reRegion RegionText.points
    simp [ctext_point]

/-! ## Drawings -/

omit hT [DmsArith F] in
theorem join_indent (a : Str) (l : List Str) : join c!"\n" (a :: l.map (indent ++ ·)) = a ++ l.flatMap fun s => c!"\n" ++ (indent ++ s) := by
  induction l generalizing a with
  | nil => simp [join]
  | cons b l ih =>
    show a ++ (c!"\n" ++ join c!"\n" ((indent ++ b) :: l.map (indent ++ ·))) = _
    rw [ih]
    simp

omit [DmsArith F] in
theorem group_text {g : Group (Loc F)} {a : ColouredLine (Loc F)} {l : List (ColouredLine (Loc F))} (e : segments g = a :: l) :
    group P g = (stext T a).text ++ l.flatMap fun s => c!"\n" ++ (indent ++ (stext T s).text) := by
  have e1 : (g.lines.flatMap fun l => (windows l).map (segment P g.colour)) = (segments g).map fun s => (stext T s).text := by
    unfold segments
    rw [List.map_map]
    have : (fun l => (windows l).map (segment P g.colour)) = fun l : List (Loc F) => (pairs l).map ((fun s => (stext T s).text) ∘
        fun s : Loc F × Loc F => (⟨s.1, s.2, g.colour⟩ : ColouredLine (Loc F))) := by
      funext l
      rw [windows_pairs]
      refine congrArg (fun f => List.map f _) (funext fun s => (stext_text hT g.colour s).symm)
    rw [this, List.map_flatMap]
  unfold group
  rw [e1, e]
  simp only [List.map_cons]
  rw [join_indent]
  rw [List.flatMap_map]

omit hT [DmsArith F] in
theorem segs_ne {g : Group (Loc F)} (h : IsGroup g) : ∃ a l, segments g = a :: l := by
  obtain ⟨c, ls⟩ := g
  cases ls with
  | nil => exact absurd rfl h.lines
  | cons l ls =>
    match l, h.points l List.mem_cons_self with
    | a :: b :: r, _ => exact ⟨_, _, rfl⟩

omit [DmsArith F] in
theorem groups_text (gs : List (Group (Loc F))) (h : ∀ g ∈ gs, IsGroup g) :
    (gs.flatMap fun g => c!"\n" ++ (indent ++ group P g)) =
      (gs.flatMap segments).flatMap fun s => c!"\n" ++ (indent ++ (stext T s).text) := by
  rw [List.flatMap_assoc]
  induction gs with
  | nil => rfl
  | cons g gs ih =>
    rw [List.flatMap_cons, List.flatMap_cons, ih fun g hg => h g (List.mem_cons_of_mem _ hg)]
    obtain ⟨a, l, e⟩ := segs_ne (h g List.mem_cons_self)
    rw [group_text hT e, e]
    simp

omit [DmsArith F] in
/-- The written drawing has its name, the first segment, and the other segments on lines of their own. -/
theorem drawing_written {d : Drawing F} (h0 : d.lineGroups ≠ []) (h : ∀ g ∈ d.lineGroups, IsGroup g) {a : ColouredLine (Loc F)}
    {l : List (ColouredLine (Loc F))} (e : d.lineGroups.flatMap segments = a :: l) :
    drawing P d = padRight 40 d.name ++ (c!" " ++ ((stext T a).text ++ l.flatMap fun s => c!"\n" ++ (indent ++ (stext T s).text))) := by
  obtain ⟨name, gs⟩ := d
  cases gs with
  | nil => exact absurd rfl h0
  | cons g gs =>
    obtain ⟨a', l', e'⟩ := segs_ne (h g List.mem_cons_self)
    rw [List.flatMap_cons, e', List.cons_append] at e
    injection e with e1 e2
    subst e1
    subst e2
    have e3 : (if (g :: gs).length > 1 then ((g :: gs).drop 1).flatMap fun g => c!"\n" ++ (indent ++ group P g) else []) =
        gs.flatMap fun g => c!"\n" ++ (indent ++ group P g) := by
      cases gs <;> rfl
    unfold drawing
    simp only [List.head?_cons]
    rw [e3, group_text hT e', groups_text hT gs fun g hg => h g (List.mem_cons_of_mem _ hg)]
    simp

omit hT [DmsArith F] in
theorem pairs_mem {A : Type} {l : List A} {s : A × A} (h : s ∈ pairs l) : s.1 ∈ l ∧ s.2 ∈ l := by
  obtain ⟨h1, h2⟩ := List.of_mem_zip (show (s.1, s.2) ∈ l.zip l.tail from h)
  exact ⟨h1, List.mem_of_mem_tail h2⟩

omit hT [DmsArith F] in
theorem segs_mem {g : Group (Loc F)} (h : IsGroup g) {s : ColouredLine (Loc F)} (hs : s ∈ segments g) :
    IsLoc s.start ∧ IsLoc s.stop ∧ ∀ c, s.colour = some c → IsColourName c := by
  obtain ⟨p, hp, rfl⟩ := List.mem_map.1 hs
  obtain ⟨l, hl, hp⟩ := List.mem_flatMap.1 hp
  obtain ⟨h1, h2⟩ := pairs_mem hp
  exact ⟨h.locs l hl _ h1, h.locs l hl _ h2, h.colour⟩

theorem drawing_text [DecidableEq F] {d : Drawing F} (h : IsDrawing d) :
    ∃ x : DrawingText, x.text = drawing P d ∧ x.Valid ∧ x.Fits ∧ x.value num = reDrawing (back T num) d := by
  -- the first segment
  have hs : ∃ a l, d.lineGroups.flatMap segments = a :: l ∧ firstTwo d = some (a.start, a.stop) := by
    obtain ⟨name, gs⟩ := d
    cases gs with
    | nil => exact absurd rfl h.groups
    | cons g gs =>
      obtain ⟨c, ls⟩ := g
      cases ls with
      | nil => exact absurd rfl (h.group _ List.mem_cons_self).lines
      | cons l ls =>
        match l, (h.group _ List.mem_cons_self).points l List.mem_cons_self with
        | a :: b :: r, _ => exact ⟨⟨a, b, c⟩, _, rfl, rfl⟩
  obtain ⟨a, l, e, e2⟩ := hs
  have mem : ∀ s ∈ a :: l, IsLoc s.start ∧ IsLoc s.stop ∧ ∀ c, s.colour = some c → IsColourName c := by
    intro s hs
    rw [← e] at hs
    obtain ⟨g, hg, hs⟩ := List.mem_flatMap.1 hs
    exact segs_mem (h.group g hg) hs
  have valid : ∀ s ∈ a :: l, (stext T s).Valid := fun s hs => stext_valid hT (mem s hs).1 (mem s hs).2.1 (mem s hs).2.2
  have hfix : ∀ (x : Loc F) m g, ltext T x = .fix m g → x = .fix m := by
    intro x m g e
    cases x with
    | fix n => cases e; rfl
    | coordinate p => cases e
  have hS : Shows a.start a.stop (stext T a) := by
    refine ⟨fun m g e => hfix _ m g e, fun m g e => hfix _ m g e, fun c e => ?_⟩
    cases hl : a.start with
    | fix n => rw [show (stext T a).start = ltext T a.start from rfl, hl] at e; cases e
    | coordinate p => exact ⟨p, rfl⟩
  have hA := h.apart _ _ e2
  have text : (⟨d.name, List.replicate (40 - d.name.length) ' ' ++ c!" ", stext T a, [], l.map fun s => ⟨'\n' :: indent, stext T s, []⟩⟩ :
      DrawingText).text = drawing P d := by
    rw [drawing_written hT h.groups h.group e]
    unfold DrawingText.text DrawingText.firstLine
    rw [List.flatMap_map]
    have : (fun s => Ln.text LineText.text (⟨'\n' :: indent, stext T s, []⟩ : Ln LineText)) = fun s => c!"\n" ++ (indent ++ (stext T s).text) := by
      funext s
      simp [Ln.text]
    rw [this]
    simp [padRight]
  refine ⟨_, text, ?_, ?_, ?_⟩
  · have huni : (stext T a).Uniform := by
      have := h.alike _ _ e2
      show (ltext T a.start).isCoord = (ltext T a.stop).isCoord
      cases h1 : a.start <;> cases h2 : a.stop <;> rw [h1, h2] at this <;> first | rfl | exact this.elim
    constructor
    · exact h.nonempty
    · exact h.chars
    · exact h.start
    · exact h.noColour
    · intro p q e' _ hq
      exact name_whole hA.noEnd hS h.ending (gap_pad _ _) (valid a List.mem_cons_self) huni (by simp) p q e' hq
    · unfold DrawingText.firstLine
      exact name_noLine hA hS h.ending (gap_pad _ _) (valid a List.mem_cons_self) huni (by simp)
    · exact gap_pad _ _
    · exact valid a List.mem_cons_self
    · exact huni
    · simp
    · intro x hx
      obtain ⟨s, hs, rfl⟩ := List.mem_map.1 hx
      exact ⟨break_blanks (by decide), valid s (List.mem_cons_of_mem _ hs), tail_nil⟩
  · intro x hx
    rcases List.mem_cons.1 hx with rfl | hx
    · exact stext_fits hT _
    · obtain ⟨y, hy, rfl⟩ := List.mem_map.1 hx
      obtain ⟨s, _, rfl⟩ := List.mem_map.1 hy
      exact stext_fits hT _
  · unfold DrawingText.value reDrawing DrawingText.lines
    rw [e]
    simp only [List.map_cons, List.map_map]
    have : ((LineText.value num) ∘ (fun y : Ln LineText => y.body) ∘ fun s => (⟨'\n' :: indent, stext T s, []⟩ : Ln LineText)) = reSegment (back T num) := by
      funext s
      exact stext_value num s
    rw [stext_value, this]
end

end Verif.Proofs.SctWrite
