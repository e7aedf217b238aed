import Verif.Proofs.EseLines
/-!
# The statements of the section `[AIRSPACE]`
-/

namespace Verif.Proofs.Ese
open Verif.Peg Verif.Spec Verif.Spec.Ese Verif.Dms Verif.Parse
open Verif.Peg.Ese (Rule skip)
open Verif.EseAirspace (Sector Statement)
open Verif.Constraints (Constraint)
open Verif.Parse.Ese (nextStr nextUnsigned parseCoordinate parseMsaw parseSectorLine parseCircleSectorLine CircleSectorLine
  SectorSubsetting parseSubsettings parseSector parseWildcardString parseWildcardU32 parseConstraint parseAirspace)

set_option linter.unusedSectionVars false

/-! ## Keys -/

/-- Neither text is a prefix of the other. -/
def Apart2 (a b : Str) : Prop := ¬ a <+: b ∧ ¬ b <+: a

instance (a b : Str) : Decidable (Apart2 a b) := inferInstanceAs (Decidable (_ ∧ _))

theorem not_prefix {k w t : Str} (h : Apart2 k w) : ¬ k <+: w ++ t := fun hp => by
  rcases List.prefix_or_prefix_of_prefix hp (List.prefix_append w t) with h' | h'
  · exact h.1 h'
  · exact h.2 h'

/-- The end of the text or one of the keys. -/
def Starts (keys : List Str) (r : Str) : Prop := r = [] ∨ ∃ w ∈ keys, ∃ t, r = w ++ t

theorem starts_not {keys : List Str} {r k : Str} (h : Starts keys r) (hd : ∀ w ∈ keys, Apart2 k w) (hk : k ≠ []) :
    ¬ k <+: r := by
  rcases h with rfl | ⟨w, hw, t, rfl⟩
  · simpa using hk
  · exact not_prefix (hd w hw)

def KeyHead : Str → Prop
  | [] => False
  | c :: _ => Head c ∧ isNewlineChar c = false

instance : (w : Str) → Decidable (KeyHead w)
  | [] => inferInstanceAs (Decidable False)
  | _ :: _ => inferInstanceAs (Decidable (_ ∧ _))

theorem k_key {w : Str} (h : KeyHead w) (r : Str) : K [] (w ++ r) := by
  cases w with
  | nil => exact h.elim
  | cons c t => exact k_cons h.1

theorem start_key {w : Str} (h : KeyHead w) (r : Str) : Start (w ++ r) := by
  cases w with
  | nil => exact h.elim
  | cons c t => exact start_cons h.1 h.2

theorem starts_start {keys : List Str} {r : Str} (h : Starts keys r) (hk : ∀ w ∈ keys, KeyHead w) : Start r := by
  rcases h with rfl | ⟨w, hw, t, rfl⟩
  · exact start_nil
  · exact start_key (hk w hw) t

theorem fails_key {q : Rule} {w r : Str} {y : Expr Rule} (h : ¬ w <+: r) :
    Fails skip (.rule q .normal ((.str w) ⬝ y)) .nonAtomic r := fails_rule (fails_seq_left (fails_str.2 h))

theorem fails_alt {x y : Expr Rule} {r : Str} (hp : plain x = true) (h1 : Fails skip x .nonAtomic r) (h2 : Fails skip y .nonAtomic r) :
    Fails skip (x ∥ y) .nonAtomic r := (fails_alt_iff (uniform_eval lineSkip.uniform x hp _)).2 ⟨h1, h2⟩

abbrev itemKeys : List Str :=
  [c!"[", c!"SECTORLINE:", c!"CIRCLE_SECTORLINE:", c!"DISPLAY_SECTORLINE:", c!"SECTOR:", c!"COPX:", c!"FIR_COPX:", c!"MSAW:"]

/-- A statement, a section or the end of the file. -/
abbrev ItemStart : Str → Prop := Starts itemKeys

theorem itemStart {r : Str} (h : ItemStart r) : Start r := starts_start h (by decide)

/-! ## Lines below statements -/

theorem pb_display {a b c f r : Str} (h : AreFields [a, b, c]) (hf : IsBreak f) :
    ∃ s, P Peg.Ese.display (displayText a b c) (f ++ r) [.node .display s [text a, text b, text c]] := by
  have b3 := pb_last lineSkip (r := r) (seg_last (h.2 c rfl)) hf
  have b2 := pb_colon k_colon (seg_field (h.1 b (by simp))) b3
  have b1 := pb_colon k_colon (seg_field (h.1 a (by simp))) b2
  have e : displayText a b c = c!"DISPLAY:" ++ (a ++ ':' :: (b ++ ':' :: c)) := by simp [displayText, fields]
  rw [e]
  exact pb_rule (pb_key (k_key (by decide)) b1)

theorem start_display {a b c r : Str} : Start (displayText a b c ++ r) := by
  unfold displayText
  rw [List.append_assoc]
  exact start_key (by decide) _

theorem pb_coordLine {c : Coord} {f r : Str} (h : c.Valid) (hf : IsBreak f) :
    P Peg.Ese.coord (c!"COORD:" ++ c.text) (f ++ r) [coordTree c] :=
  pb_key (k_key (by decide)) (pb_last lineSkip (seg_mono (seg_coord h) ends_line) hf)

/-- The coordinate of a line below `SECTORLINE`, read. -/
def readBorder {F : Type} [F64 F] [DmsArith F] (t : Tree Rule) : Option (Run (Point F)) :=
  if t.asRule = .display then none else some (parseCoordinate t)

section
variable {F : Type} [F64 F] [DmsArith F] (num : Str → F) (hnum : ∀ s, IsDecimal s → F64.ofText s = some (num s))

/-- The value of a coordinate. -/
def coordVal (c : Coord) : Run (Point F) := gated c.Fits (c.point num)

include hnum

theorem blk_borderLine {l : BorderLine × Str} {r : Str} (h : l.1.Valid ∧ IsBreak l.2) (hr : Start r) :
    (∃ t, Blk skip K ((Peg.Ese.display ∥ Peg.Ese.coord) ⬝ Base.NL) (l.1.text ++ l.2) r [t] ∧
      readBorder t = l.1.coord?.map (coordVal num)) ∧ Start (l.1.text ++ l.2 ++ r) := by
  obtain ⟨l, f⟩ := l
  obtain ⟨hv, hf⟩ := h
  cases l with
  | display a b c =>
    obtain ⟨s, hs⟩ := pb_display (r := r) hv hf
    refine ⟨⟨_, (pb_line lineSkip (pb_alt_left hs) hf hr).1, rfl⟩, ?_⟩
    rw [List.append_assoc]
    exact start_display
  | coord c =>
    have hs := pb_coordLine (r := r) hv hf
    refine ⟨⟨_, (pb_line lineSkip (pb_alt_right (fails_key ?_) hs) hf hr).1, ?_⟩, ?_⟩
    · rw [List.append_assoc]
      exact not_prefix (by decide)
    · show some (parseCoordinate (coordTree c)) = some (coordVal num c)
      rw [read_coord num hnum hv]
      rfl
    · exact start_key (w := c!"COORD:") (by decide) _

theorem readBorders {ts : List (Tree Rule)} {l : List BorderLine} (h : ts.map (readBorder (F := F)) = l.map fun b => b.coord?.map (coordVal num)) :
    (ts.partition fun t => t.asRule = .display).2.mapM (parseCoordinate (F := F)) =
      gated (∀ c ∈ l.filterMap BorderLine.coord?, c.Fits) ((l.filterMap BorderLine.coord?).map (Coord.point num)) := by
  rw [← mapM_gated]
  refine mapM_of_map ?_
  rw [List.partition_eq_filter_filter]
  have e1 : (ts.filter (not ∘ fun t : Tree Rule => decide (t.asRule = .display))).map (parseCoordinate (F := F)) =
      (ts.map (readBorder (F := F))).filterMap id := by
    clear h
    induction ts with
    | nil => rfl
    | cons t ts ih =>
      rw [List.filter_cons, List.map_cons, List.filterMap_cons]
      unfold readBorder at ih ⊢
      by_cases hd : t.asRule = .display <;> simp [hd, ih]
  have e2 : (l.filterMap BorderLine.coord?).map (coordVal num) = (l.map fun b => b.coord?.map (coordVal num)).filterMap id := by
    clear h
    induction l with
    | nil => rfl
    | cons b l ih =>
      rw [List.filterMap_cons, List.map_cons, List.filterMap_cons, ← ih]
      cases b.coord? <;> rfl
  simp only
  rw [e1, h, ← e2]
  rfl
end

/-! ## Lines below `SECTOR` -/

/-- What is read from the line. -/
def SectorLine.setting : Spec.Ese.SectorLine → SectorSubsetting
  | .owner l => .owner l
  | .altOwner s l => .alternativeOwner s l
  | .border l => .border l
  | .guest .. => .guest
  | .active i r => .active i r
  | .depApt l => .departureAirports l
  | .arrApt l => .arrivalAirports l

abbrev desTree (v : Str) : Tree Rule := .node .designator v []

theorem pb_fields {l : List Str} {f r : Str} (hl : l ≠ []) (h : AreFields l) (hf : IsBreak f) :
    P (.plus ((.str c!":") ⬝ Peg.Ese.colon_delimited_text)) (fields l) (f ++ r) (l.map text) :=
  pb_colons lineSkip k_colon rfl hl (fun a ha => seg_field (h.1 a ha)) (fun a ha => seg_last (h.2 a ha)) (break_lineEnd hf)

theorem pb_designators {l : List Str} {f r : Str} (hl : l ≠ []) (h : ∀ a ∈ l, IsDesignator a) (hf : IsBreak f) :
    P (.plus ((.str c!":") ⬝ Peg.Ese.designator)) (fields l) (f ++ r) (l.map desTree) :=
  pb_colons lineSkip k_colon rfl hl (fun a ha => seg_mono (seg_designator (h a ha)) ends_colon)
    (fun a ha => seg_mono (seg_designator (h a (List.mem_of_getLast? ha))) ends_line) (break_lineEnd hf)

theorem texts {l : List Str} {q : Rule} : (l.map fun v => Tree.node q v []).map Tree.asStr = l := by
  rw [List.map_map]
  exact List.map_id' l

theorem k_fields {l : List Str} (hl : l ≠ []) (r : Str) : K [] (fields l ++ r) := by
  cases l with
  | nil => exact absurd rfl hl
  | cons a l => exact k_colon _

theorem pb_sectorLine {l : Spec.Ese.SectorLine} {f r : Str} (hv : l.Valid) (hf : IsBreak f) :
    (∃ t, P Peg.Ese.sector_subsettings l.text (f ++ r) [t] ∧ parseSubsettings t = .ok (SectorLine.setting l)) ∧
      Start (l.text ++ (f ++ r)) := by
  cases l with
  | owner l =>
    obtain ⟨s, hs⟩ := pb_rule (q := .owner) (pb_key (w := c!"OWNER") (k_key (by decide)) (pb_fields (r := r) hv.1 hv.2 hf))
    refine ⟨⟨_, pb_alt_left hs, ?_⟩, ?_⟩
    · show Except.ok (SectorSubsetting.owner ((l.map text).map Tree.asStr)) = _
      rw [texts]; rfl
    · exact start_key (w := c!"OWNER") (by decide) _
  | altOwner name l =>
    have h1 := pb_seq (pb_of_seg (seg_field hv.1) (show Colon (fields l ++ (f ++ r)) from by
      cases l with
      | nil => exact absurd rfl hv.2.1
      | cons a l => exact ⟨_, rfl⟩) (k_fields hv.2.1 _)) (pb_fields (r := r) hv.2.1 hv.2.2 hf).1
    obtain ⟨s, hs⟩ := pb_rule (q := .altowner) (pb_key (w := c!"ALTOWNER:") (k_key (by decide)) h1)
    have fk : ∀ {q : Rule} {w : Str} {y : Expr Rule}, Apart2 w c!"ALTOWNER:" →
        Fails skip (.rule q .normal ((.str w) ⬝ y)) .nonAtomic (c!"ALTOWNER:" ++ (name ++ fields l) ++ (f ++ r)) := fun h =>
      fails_key (by rw [List.append_assoc]; exact not_prefix h)
    refine ⟨⟨_, pb_alt_right (fk (by decide)) (pb_alt_left hs), ?_⟩, ?_⟩
    · show Except.ok (SectorSubsetting.alternativeOwner name ((l.map text).map Tree.asStr)) = _
      rw [texts]; rfl
    · exact start_key (w := c!"ALTOWNER:") (by decide) _
  | border l =>
    obtain ⟨s, hs⟩ := pb_rule (q := .border) (pb_key (w := c!"BORDER") (k_key (by decide)) (pb_fields (r := r) hv.1 hv.2 hf))
    have fk : ∀ {q : Rule} {w : Str} {y : Expr Rule}, Apart2 w c!"BORDER" →
        Fails skip (.rule q .normal ((.str w) ⬝ y)) .nonAtomic (c!"BORDER" ++ fields l ++ (f ++ r)) := fun h =>
      fails_key (by rw [List.append_assoc]; exact not_prefix h)
    refine ⟨⟨_, pb_alt_right (fk (by decide)) (pb_alt_right (fk (by decide)) (pb_alt_left hs)), ?_⟩, ?_⟩
    · show Except.ok (SectorSubsetting.border ((l.map text).map Tree.asStr)) = _
      rw [texts]; rfl
    · exact start_key (w := c!"BORDER") (by decide) _
  | guest sct adep ades =>
    have h1 := pb_colon k_colon (seg_field hv.1) (pb_colon k_colon (seg_mono (seg_wildDesignator hv.2.1) ends_colon)
      (pb_last lineSkip (r := r) (seg_mono (seg_wildDesignator hv.2.2) ends_line) hf))
    obtain ⟨s, hs⟩ := pb_rule (q := .guest) (pb_key (w := c!"GUEST") (k_key (by decide)) (pb_key (w := c!":") k_colon h1))
    have fk : ∀ {q : Rule} {w : Str} {y : Expr Rule} {t : Str}, Apart2 w c!"GUEST" →
        Fails skip (.rule q .normal ((.str w) ⬝ y)) .nonAtomic (c!"GUEST" ++ t ++ (f ++ r)) := fun h =>
      fails_key (by rw [List.append_assoc]; exact not_prefix h)
    exact ⟨⟨_, pb_alt_right (fk (by decide)) (pb_alt_right (fk (by decide)) (pb_alt_right (fk (by decide))
      (pb_alt_left hs))), rfl⟩, start_key (w := c!"GUEST:") (by decide) _⟩
  | active icao runway =>
    have h1 := pb_colon k_colon (seg_mono (seg_designator hv.1) ends_colon)
      (pb_last lineSkip (r := r) (seg_mono (seg_designator hv.2) ends_line) hf)
    obtain ⟨s, hs⟩ := pb_rule (q := .active) (pb_key (w := c!"ACTIVE:") (k_key (by decide)) h1)
    have fk : ∀ {q : Rule} {w : Str} {y : Expr Rule} {t : Str}, Apart2 w c!"ACTIVE:" →
        Fails skip (.rule q .normal ((.str w) ⬝ y)) .nonAtomic (c!"ACTIVE:" ++ t ++ (f ++ r)) := fun h =>
      fails_key (by rw [List.append_assoc]; exact not_prefix h)
    exact ⟨⟨_, pb_alt_right (fk (by decide)) (pb_alt_right (fk (by decide)) (pb_alt_right (fk (by decide))
      (pb_alt_right (fk (by decide)) (pb_alt_left hs)))), rfl⟩, start_key (w := c!"ACTIVE:") (by decide) _⟩
  | depApt l =>
    obtain ⟨s, hs⟩ := pb_rule (q := .depapt) (pb_key (w := c!"DEPAPT") (k_key (by decide)) (pb_designators (r := r) hv.1 hv.2 hf))
    have fk : ∀ {q : Rule} {w : Str} {y : Expr Rule}, Apart2 w c!"DEPAPT" →
        Fails skip (.rule q .normal ((.str w) ⬝ y)) .nonAtomic (c!"DEPAPT" ++ fields l ++ (f ++ r)) := fun h =>
      fails_key (by rw [List.append_assoc]; exact not_prefix h)
    refine ⟨⟨_, pb_alt_right (fk (by decide)) (pb_alt_right (fk (by decide)) (pb_alt_right (fk (by decide))
      (pb_alt_right (fk (by decide)) (pb_alt_right (fk (by decide)) (pb_alt_left hs))))), ?_⟩, ?_⟩
    · show Except.ok (SectorSubsetting.departureAirports ((l.map desTree).map Tree.asStr)) = _
      rw [texts]; rfl
    · exact start_key (w := c!"DEPAPT") (by decide) _
  | arrApt l =>
    obtain ⟨s, hs⟩ := pb_rule (q := .arrapt) (pb_key (w := c!"ARRAPT") (k_key (by decide)) (pb_designators (r := r) hv.1 hv.2 hf))
    have fk : ∀ {q : Rule} {w : Str} {y : Expr Rule}, Apart2 w c!"ARRAPT" →
        Fails skip (.rule q .normal ((.str w) ⬝ y)) .nonAtomic (c!"ARRAPT" ++ fields l ++ (f ++ r)) := fun h =>
      fails_key (by rw [List.append_assoc]; exact not_prefix h)
    refine ⟨⟨_, pb_alt_right (fk (by decide)) (pb_alt_right (fk (by decide)) (pb_alt_right (fk (by decide))
      (pb_alt_right (fk (by decide)) (pb_alt_right (fk (by decide)) (pb_alt_right (fk (by decide)) hs))))), ?_⟩, ?_⟩
    · show Except.ok (SectorSubsetting.arrivalAirports ((l.map desTree).map Tree.asStr)) = _
      rw [texts]; rfl
    · exact start_key (w := c!"ARRAPT") (by decide) _

theorem fails_sectorLine {r : Str} (h : ItemStart r) : Fails skip (Peg.Ese.sector_subsettings ⬝ Base.NL) .nonAtomic r := by
  refine fails_seq_left (fails_alt rfl (fails_key (starts_not h (by decide) (by decide)))
    (fails_alt rfl (fails_key (starts_not h (by decide) (by decide)))
    (fails_alt rfl (fails_key (starts_not h (by decide) (by decide)))
    (fails_alt rfl (fails_key (starts_not h (by decide) (by decide)))
    (fails_alt rfl (fails_key (starts_not h (by decide) (by decide)))
    (fails_alt rfl (fails_key (starts_not h (by decide) (by decide)))
    (fails_key (starts_not h (by decide) (by decide)))))))))

theorem fails_borderLine {r : Str} (h : ItemStart r) :
    Fails skip ((Peg.Ese.display ∥ Peg.Ese.coord) ⬝ Base.NL) .nonAtomic r :=
  fails_seq_left (fails_alt rfl (fails_key (starts_not h (by decide) (by decide)))
    (fails_seq_left (fails_str.2 (starts_not h (by decide) (by decide)))))

theorem fails_displayLine {r : Str} (h : ItemStart r) : Fails skip (Peg.Ese.display ⬝ Base.NL) .nonAtomic r :=
  fails_seq_left (fails_key (starts_not h (by decide) (by decide)))

theorem fails_coordLine {r : Str} (h : ItemStart r) : Fails skip (Peg.Ese.coord ⬝ Base.NL) .nonAtomic r :=
  fails_seq_left (fails_seq_left (fails_str.2 (starts_not h (by decide) (by decide))))

end Verif.Proofs.Ese
