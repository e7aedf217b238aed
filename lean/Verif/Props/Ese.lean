import Verif.Proofs.EseFile
import Verif.Proofs.EsePanic
import Verif.Proofs.Asr
import Verif.Peg.Ended
import Verif.Props.EseAirspace
/-!
# Reading ESE files: theorems

C50, C51, C56.  The format, the meaning of a file and what is harmful are in `Verif/Spec/Ese.lean`.
-/

namespace Verif.Props
open Verif.Peg Verif.Spec Verif.Spec.Ese Verif.Dms Verif.Parse Verif.EseAirspace
open Verif.Parse.Ese (parse Ese SectionName Section assemble Position)

set_option linter.unusedSectionVars false

section
variable {F G : Type} [F64 F] [DmsArith F] [F64 G] [UnicodeTables]

/-! ## From sections to the meaning -/

theorem ese_last {l : List Sect} {num : Str → F} {numG : Str → G} {n : SectionName} (hn : n ≠ .unsupported) :
    (Map.ofList (l.map (Proofs.Ese.sectionOf num numG) ++ [(SectionName.unsupported, Section.unsupported)])).get? n =
      (l.filterMap fun s => if (Proofs.Ese.sectionOf num numG s).1 = n then some (Proofs.Ese.sectionOf num numG s).2 else none).getLast? := by
  rw [Parse.Asr.ofList_last, List.filterMap_append, List.filterMap_map]
  have : [(SectionName.unsupported, (Section.unsupported : Section F))].filterMap (fun e => if e.1 = n then some e.2 else none) = [] := by
    rw [List.filterMap_cons, if_neg (Ne.symm hn)]; rfl
  rw [this, List.append_nil]
  rfl

/-- Numbers can be read. -/
theorem ese_reads (G : Type) [F64 G] : ∃ num : Str → G, ∀ s, IsDecimal s → F64.ofText s = some (num s) := by
  have hz : IsDecimal c!"0" := ⟨[], c!"0", [], rfl, Or.inl rfl, by decide, Or.inl ⟨rfl, by decide⟩⟩
  obtain ⟨x0, hx0⟩ := F64.some_of_decimal (F := G) hz
  refine ⟨fun s => (F64.ofText s).getD x0, fun s hs => ?_⟩
  obtain ⟨v, hv⟩ := F64.some_of_decimal (F := G) hs
  show _ = some ((F64.ofText s).getD x0)
  rw [hv]; rfl

theorem filterMap_same {A B : Type} {l : List A} {f g : A → Option B} (h : ∀ a ∈ l, f a = g a) : l.filterMap f = l.filterMap g := by
  induction l with
  | nil => rfl
  | cons a l ih => rw [List.filterMap_cons, List.filterMap_cons, h a List.mem_cons_self, ih fun b hb => h b (List.mem_cons_of_mem _ hb)]

theorem filterMap_getLast_map {A B C : Type} (l : List A) (f : A → Option B) (g : A → Option C) (k : B → C)
    (h : ∀ a ∈ l, g a = (f a).map k) : (l.filterMap g).getLast? = ((l.filterMap f).getLast?).map k := by
  have : l.filterMap g = (l.filterMap f).map k := by
    rw [List.map_filterMap]
    exact filterMap_same h
  rw [this, List.getLast?_map]

theorem airspace_items (num : Str → F) (numG : Str → G) (items : List Item) :
    (∀ id, (airspace (items.map (Proofs.Ese.statementOf num numG))).1.get? id = sectorOf num items id) ∧
    (airspace (items.map (Proofs.Ese.statementOf num numG))).2 = items.filterMap Item.constraint? := by
  constructor
  · intro id
    rw [C40_sector]
    have e1 : sectorsNamed (items.map (Proofs.Ese.statementOf num numG)) id = items.filterMap (Item.sectorNamed id) := by
      unfold sectorsNamed
      rw [List.filterMap_map]
      refine filterMap_same fun i _ => ?_
      cases i with
      | cop c brk => cases hc : c.fir <;> simp [Proofs.Ese.statementOf, Item.sectorNamed, hc]
      | _ => rfl
    have e2 : ∀ name, linesNamed (items.map (Proofs.Ese.statementOf num numG)) name = items.filterMap (Item.lineNamed num name) := by
      intro name
      unfold linesNamed
      rw [List.filterMap_map]
      refine filterMap_same fun i _ => ?_
      cases i with
      | cop c brk => cases hc : c.fir <;> simp [Proofs.Ese.statementOf, Item.lineNamed, hc]
      | _ => rfl
    unfold sectorOf
    rw [e1]
    simp only [e2]
  · rw [C40_constraints]
    unfold constraintsOf
    rw [List.filterMap_map]
    refine filterMap_same fun i _ => ?_
    cases i with
    | cop c brk => cases hc : c.fir <;> simp [Proofs.Ese.statementOf, Item.constraint?, hc]
    | _ => rfl

/-- C51: a valid file whose numbers fit their types is read, and of the sections that occur more than once only
the last one counts: the positions are those of the last `[POSITIONS]` section, of equal identifiers the last one;
the sectors and agreements are those of the last `[AIRSPACE]` section, of equal ids the last one, with the border
lines of that section; the procedures are those of the last `[SIDSSTARS]` section. -/
theorem C51_ese_meaning (num : Str → F) (hnum : ∀ s, IsDecimal s → F64.ofText s = some (num s)) (f : File) (h : f.Valid) (hf : f.Fits) :
    ∃ e : Ese F, parse G f.text = .ok e ∧
      (∀ id, e.positions.get? id = ((f.positions.filter (·.identifier = id)).getLast?).map (PositionLine.value num)) ∧
      (∀ id, e.sectors.get? id = sectorOf num f.items id) ∧
      e.constraints = f.items.filterMap Item.constraint? ∧
      e.sidsStars = f.procedures.map ProcedureLine.value := by
  obtain ⟨numG, hnumG⟩ := ese_reads G
  obtain ⟨s, kids, h1, h2⟩ := Proofs.Ese.parse_sections num numG hnum hnumG h
  rw [Proofs.gated, if_pos hf] at h2
  refine ⟨assemble (Map.ofList (f.sections.map (Proofs.Ese.sectionOf num numG) ++ [(.unsupported, .unsupported)])), ?_, ?_, ?_, ?_, ?_⟩
  · show (run Peg.Ese.skip Peg.Ese.ese f.text).bind _ = _
    rw [h1]
    show (kids.mapM (Parse.Ese.parseSection G)).bind _ = _
    rw [h2]
    rfl
  all_goals unfold assemble
  all_goals simp only
  · intro id
    rw [ese_last (by decide), filterMap_getLast_map (k := fun l : List PositionLine =>
      (Section.positions (Map.ofList (l.map fun p => (p.identifier, p.value num))) : Section F))
      (f := fun | .positions _ l => some (l.map (·.1)) | _ => none) (h := by
        intro a _
        cases a <;> simp [Proofs.Ese.sectionOf, Function.comp_def])]
    unfold File.positions
    cases (f.sections.filterMap fun | .positions _ l => some (l.map (·.1)) | _ => none).getLast? with
    | none => rfl
    | some l =>
      show (Map.ofList (l.map fun p => (p.identifier, p.value num))).get? id = _
      rw [Parse.Asr.ofList_last, List.filterMap_map]
      rw [filterMap_getLast_map (k := PositionLine.value num) (f := fun p : PositionLine => if p.identifier = id then some p else none) (h := by
        intro a _
        by_cases hid : a.identifier = id <;> simp [hid])]
      congr 1
      rw [← List.filterMap_eq_filter]
      show _ = (List.filterMap _ l).getLast?
      congr 1
      refine filterMap_same fun p _ => ?_
      by_cases hid : p.identifier = id <;> simp [hid, Option.guard]
  · intro id
    rw [ese_last (by decide), filterMap_getLast_map (k := fun l : List Item =>
      (Section.sectors (airspace (l.map (Proofs.Ese.statementOf num numG))) : Section F))
      (f := fun | .airspace _ l => some l | _ => none) (h := by
        intro a _
        cases a <;> simp [Proofs.Ese.sectionOf])]
    unfold File.items
    cases (f.sections.filterMap fun | .airspace _ l => some l | _ => none).getLast? with
    | none => rfl
    | some l => exact (airspace_items num numG l).1 id
  · rw [ese_last (by decide), filterMap_getLast_map (k := fun l : List Item =>
      (Section.sectors (airspace (l.map (Proofs.Ese.statementOf num numG))) : Section F))
      (f := fun | .airspace _ l => some l | _ => none) (h := by
        intro a _
        cases a <;> simp [Proofs.Ese.sectionOf])]
    unfold File.items
    cases (f.sections.filterMap fun | .airspace _ l => some l | _ => none).getLast? with
    | none => rfl
    | some l => exact (airspace_items num numG l).2
  · rw [ese_last (by decide), filterMap_getLast_map (k := fun l : List ProcedureLine =>
      (Section.sidsStars (l.map ProcedureLine.value) : Section F))
      (f := fun | .sidsStars _ l => some (l.map (·.1)) | _ => none) (h := by
        intro a _
        cases a <;> simp [Proofs.Ese.sectionOf])]
    unfold File.procedures
    cases (f.sections.filterMap fun | .sidsStars _ l => some (l.map (·.1)) | _ => none).getLast? with
    | none => rfl
    | some l => rfl

/-- C50: a valid file with a number that does not fit its type panics the parser. -/
theorem C50_ese_panics (f : File) (h : f.Valid) (hf : ¬ f.Fits) : parse (F := F) G f.text = .error .panic := by
  obtain ⟨num, hnum⟩ := ese_reads F
  obtain ⟨numG, hnumG⟩ := ese_reads G
  obtain ⟨s, kids, h1, h2⟩ := Proofs.Ese.parse_sections num numG hnum hnumG h
  rw [Proofs.gated, if_neg hf] at h2
  show (run Peg.Ese.skip Peg.Ese.ese f.text).bind _ = _
  rw [h1]
  show (kids.mapM (Parse.Ese.parseSection G)).bind _ = _
  rw [h2]
  rfl

/-- C50: reading a text ends with an error or, unless it contains a harmful part, with a value. -/
theorem C50_ese_outcome (content : Str) :
    parse (F := F) G content = .error .parseError ∨ (∃ e, parse (F := F) G content = .ok e) ∨ ∃ s, s <:+: content ∧ Harmful s := by
  obtain ⟨num, hnum⟩ := ese_reads F
  rcases Proofs.Ese.parse_cases num hnum (G := G) content with h | h
  · exact Or.inl h
  · exact Or.inr h

/-- C50: reading a text panics only if it contains a harmful part. -/
theorem C50_ese_panics_only (content : Str) (h : parse (F := F) G content = .error .panic) :
    ∃ s, s <:+: content ∧ Harmful s := by
  rcases C50_ese_outcome (F := F) (G := G) content with h' | ⟨e, h'⟩ | h'
  · rw [h] at h'; cases h'
  · rw [h] at h'; cases h'
  · exact h'

/-! ## Positions -/

/-- C56, for positions with a squawk range: the position read has the squawk range and all visibility points of its
line.  Missing: positions without a squawk range, for which it is false (`C56_first_point_lost`). -/
theorem C56_points_partial (num : Str → F) (hnum : ∀ s, IsDecimal s → F64.ofText s = some (num s)) (f : File) (h : f.Valid) (hf : f.Fits)
    (id : Str) (p : PositionLine) (hp : (f.positions.filter (·.identifier = id)).getLast? = some p) (a b : Str) (hs : p.squawk = some (a, b)) :
    ∃ (e : Ese F) (pos : Position F), parse G f.text = .ok e ∧ e.positions.get? id = some pos ∧
      pos.squawkRange = some (number a, number b) ∧ pos.visibilityPoints = p.points.map (Coord.point num) := by
  obtain ⟨e, h1, h2, _⟩ := C51_ese_meaning (G := G) num hnum f h hf
  refine ⟨e, p.value num, h1, by rw [h2, hp]; rfl, ?_, ?_⟩
  · simp [PositionLine.value, hs]
  · simp [PositionLine.value, PositionLine.kept, hs]

/-- C56 is false: the first visibility point of a position without squawk range is lost. -/
theorem C56_first_point_lost (num : Str → F) (hnum : ∀ s, IsDecimal s → F64.ofText s = some (num s)) (f : File) (h : f.Valid) (hf : f.Fits)
    (id : Str) (p : PositionLine) (hp : (f.positions.filter (·.identifier = id)).getLast? = some p) (hs : p.squawk = none) :
    ∃ (e : Ese F) (pos : Position F), parse G f.text = .ok e ∧ e.positions.get? id = some pos ∧
      pos.squawkRange = none ∧ pos.visibilityPoints = (p.points.drop 1).map (Coord.point num) := by
  obtain ⟨e, h1, h2, _⟩ := C51_ese_meaning (G := G) num hnum f h hf
  refine ⟨e, p.value num, h1, by rw [h2, hp]; rfl, ?_, ?_⟩
  · simp [PositionLine.value, hs]
  · simp [PositionLine.value, PositionLine.kept, hs]

/-! ## The last line -/

/-- C59: a text that is read has a line end, and behind its last line end only blanks and possibly a comment.  So a file
whose last line is not ended is rejected as a whole. -/
theorem C59_ese_last_line (content : Str) (e : Ese F) (h : parse G content = .ok e) :
    ∃ a c m, content = a ++ c :: m ∧ IsNewline c ∧ (∀ d ∈ m, ¬ IsNewline d) ∧
      ((∀ d ∈ m, IsBlankChar d) ∨ ∃ sp body, m = sp ++ ';' :: body ∧ ∀ d ∈ sp, IsBlankChar d) := by
  rcases run_tok Peg.Ese.ese rfl (sk := Peg.Ese.skip) (skipBoth_ok rfl rfl) rfl rfl content with h' | ⟨kids, h', ho⟩
  · have h : (run Peg.Ese.skip Peg.Ese.ese content).bind _ = _ := h
    rw [h'] at h
    cases h
  · obtain ⟨a, c, m, e1, e2, e3, e4⟩ := (out_ended (marks := [c!";"])
      (fun m r hk => Proofs.Ese.lineSkip.rest (fun c hc => blankChar_iff.1 hc) (by simp [NoNl]; decide) hk) _ _ _ _ _).1 rfl ho
    refine ⟨a, c, m, e1, e2, e3, ?_⟩
    rcases e4 with h4 | ⟨sp, w, body, rfl, h4, hw⟩
    · exact Or.inl h4
    · rw [List.mem_singleton.1 hw]
      exact Or.inr ⟨sp, body, rfl, h4⟩

end

/-! ## Examples -/

section Examples
attribute [local instance] asciiTables
local instance eseTextF64 : F64 Str := ⟨some, fun _ _ => rfl⟩
local instance eseTextDms : DmsArith Str := ⟨fun d => d.sec⟩

def esePoint : Coord := ⟨⟨'N', c!"048", c!"21", c!"14.000"⟩, ⟨'E', c!"011", c!"47", c!"10.000"⟩⟩

def eseFile : File := ⟨c!"; a comment\n\n", [
  .positions c!"\n" [
    (⟨c!"EDDM_TWR", c!"Muenchen Tower", c!"118.705", c!"MT", c!"", c!"EDDM", c!"TWR", c!"-", c!"-", some (c!"0000", c!"0007"),
      [esePoint, esePoint]⟩, c!"\n")],
  .other c!"FREETEXT" c!"\n" [(c!"anything: at all", c!"\r\n")],
  .airspace c!"\n" [
    .sectorLine c!"1" c!"\n" [(.coord esePoint, c!"\n ; x\n"), (.display c!"A" c!"B" c!"C", c!"\n")],
    .sector c!"EDMM" c!"0" c!"9500" c!"\n" [(.owner [c!"MT", c!"MG"], c!"\n"), (.border [c!"1", c!"2"], c!"\n")],
    .cop ⟨false, none, none, some c!"ABAMI", none, some c!"26L", c!"A", c!"B", some c!"9000", none, c!"text"⟩ c!"\n"],
  .positions c!"\n\n" [
    (⟨c!"EDDM_GND", c!"Muenchen Ground", c!"121.775", c!"MG", c!"", c!"EDDM", c!"GND", c!"-", c!"-", none,
      [esePoint, esePoint]⟩, c!"\n")],
  .sidsStars c!"\n" [(⟨false, c!"EDDM", some c!"26L", c!"ABAMI1Q", [c!"ABAMI", c!"DM060"]⟩, c!"\n")]]⟩

theorem esePoint_valid : esePoint.Valid := by
  have hd : ∀ a b : Str, IsDigits b → (∀ c ∈ a, isAsciiDigit c = true) → IsDecimal (a ++ '.' :: b) := fun a b h h' =>
    ⟨[], a, '.' :: b, by simp, Or.inl rfl, h', Or.inr ⟨b, rfl, h⟩⟩
  exact ⟨⟨by decide, by decide, by decide, hd c!"14" c!"000" (by decide) (by decide)⟩,
    ⟨by decide, by decide, by decide, hd c!"10" c!"000" (by decide) (by decide)⟩⟩

theorem field_ex {s : Str} (h : (∀ c ∈ s, c ≠ ':' ∧ ¬ IsNewline c) ∧ ∀ c ∈ s.head?, ¬ IsBlankChar c ∧ c ≠ ';') : IsField s := h

theorem last_ex {s : Str} (h : (∀ c ∈ s, c ≠ ':' ∧ ¬ IsNewline c) ∧ ∀ c ∈ s.head?, ¬ IsBlankChar c ∧ c ≠ ';')
    (h' : ∀ c ∈ s.getLast?, ¬ IsBlankChar c) : IsLastField s := ⟨h, h'⟩

theorem des_ex {s : Str} (h : s ≠ [] ∧ ∀ c ∈ s, isAsciiUpper c = true ∨ isAsciiDigit c = true ∨ c = '-') : IsDesignator s := h

theorem fields_ex {l : List Str} (h : ∀ s ∈ l, (∀ c ∈ s, c ≠ ':' ∧ ¬ IsNewline c) ∧ ∀ c ∈ s.head?, ¬ IsBlankChar c ∧ c ≠ ';')
    (h' : ∀ s ∈ l.getLast?, ∀ c ∈ s.getLast?, ¬ IsBlankChar c) : AreFields l := ⟨h, fun f hf => ⟨h f (List.mem_of_getLast? hf), h' f hf⟩⟩

theorem brk_ex : IsBreak c!"\n" := ⟨'\n', [], rfl, Or.inl rfl, .nil⟩

theorem int_ex {s : Str} (h : IsDigits s) : IsInteger s := ⟨[], s, rfl, Or.inl rfl, h⟩

theorem dec_ex {a b : Str} (h : IsDigits b) (h' : ∀ c ∈ a, isAsciiDigit c = true) : IsDecimal (a ++ '.' :: b) :=
  ⟨[], a, '.' :: b, by simp, Or.inl rfl, h', Or.inr ⟨b, rfl, h⟩⟩

/-- The hypotheses of `C51_ese_meaning` are met by this file. -/
theorem eseFile_valid : eseFile.Valid := by
  refine ⟨.comment c!";" c!" a comment" '\n' _ (by simp) (by decide) (Or.inl rfl) (.newline _ _ (Or.inl rfl) .nil), by decide, ?_⟩
  intro s hs
  simp only [eseFile, List.mem_cons, List.not_mem_nil, or_false] at hs
  rcases hs with rfl | rfl | rfl | rfl | rfl
  · refine ⟨brk_ex, fun p hp => ?_⟩
    rw [List.mem_singleton.1 hp]
    refine ⟨⟨field_ex (by decide), field_ex (by decide), dec_ex (a := c!"118") (b := c!"705") (by decide) (by decide),
      field_ex (by decide), field_ex (by decide), field_ex (by decide), field_ex (by decide), field_ex (by decide), field_ex (by decide),
      fun c hc => ?_, int_ex (by decide), int_ex (by decide), by decide⟩, brk_ex⟩
    simp only [List.mem_cons, List.not_mem_nil, or_false, or_self] at hc
    rw [hc]
    exact esePoint_valid
  · refine ⟨⟨⟨'F', c!"REETEXT", rfl, by decide, by decide⟩, by decide, by decide, by decide⟩, brk_ex, fun p hp => ?_⟩
    rw [List.mem_singleton.1 hp]
    exact ⟨⟨by decide, ⟨'a', c!"nything: at all", rfl, by decide⟩, (by decide : ∀ c ∈ (c!"anything: at all").getLast?, ¬ IsBlankChar c)⟩,
      ⟨'\r', c!"\n", rfl, Or.inr rfl, .newline _ _ (Or.inl rfl) .nil⟩⟩
  · refine ⟨brk_ex, fun i hi => ?_⟩
    simp only [List.mem_cons, List.not_mem_nil, or_false] at hi
    rcases hi with rfl | rfl | rfl
    · refine ⟨last_ex (by decide) (by decide), brk_ex, fun l hl => ?_⟩
      simp only [List.mem_cons, List.not_mem_nil, or_false] at hl
      rcases hl with rfl | rfl
      · exact ⟨esePoint_valid, ⟨'\n', c!" ; x\n", rfl, Or.inl rfl, .blank _ _ (Or.inl rfl)
          (.comment c!";" c!" x" '\n' [] (by simp) (by decide) (Or.inl rfl) .nil)⟩⟩
      · exact ⟨fields_ex (by decide) (by decide), brk_ex⟩
    · refine ⟨field_ex (by decide), int_ex (by decide), int_ex (by decide), brk_ex, fun l hl => ?_⟩
      simp only [List.mem_cons, List.not_mem_nil, or_false] at hl
      rcases hl with rfl | rfl
      · exact ⟨⟨by decide, fields_ex (by decide) (by decide)⟩, brk_ex⟩
      · exact ⟨⟨by decide, fields_ex (by decide) (by decide)⟩, brk_ex⟩
    · exact ⟨⟨trivial, trivial, ⟨field_ex (by decide), by decide⟩, trivial, des_ex (by decide), field_ex (by decide), field_ex (by decide),
        int_ex (by decide), trivial, last_ex (by decide) (by decide)⟩, brk_ex⟩
  · refine ⟨⟨'\n', c!"\n", rfl, Or.inl rfl, .newline _ _ (Or.inl rfl) .nil⟩, fun p hp => ?_⟩
    rw [List.mem_singleton.1 hp]
    refine ⟨⟨field_ex (by decide), field_ex (by decide), dec_ex (a := c!"121") (b := c!"775") (by decide) (by decide),
      field_ex (by decide), field_ex (by decide), field_ex (by decide), field_ex (by decide), field_ex (by decide), field_ex (by decide),
      fun c hc => ?_, (by decide : 2 ≤ 3)⟩, brk_ex⟩
    simp only [List.mem_cons, List.not_mem_nil, or_false, or_self] at hc
    rw [hc]
    exact esePoint_valid
  · refine ⟨brk_ex, fun p hp => ?_⟩
    rw [List.mem_singleton.1 hp]
    refine ⟨⟨des_ex (by decide), fun r hr => ?_, field_ex (by decide), fun w hw => ?_⟩, brk_ex⟩
    · cases hr
      exact ⟨'2', '6', c!"L", rfl, by decide, by decide, Or.inr ⟨'L', by decide, rfl⟩⟩
    · simp only [List.mem_cons, List.not_mem_nil, or_false] at hw
      rcases hw with rfl | rfl <;> exact des_ex (by decide)

/-- What the theorem says about it: the positions of the first section are lost, the sector has the line that exists. -/
example : eseFile.Fits ∧ ∃ e : Ese Str, parse Str eseFile.text = .ok e ∧ (e.positions.get? c!"MT").isNone ∧
    (e.positions.get? c!"MG").map (·.visibilityPoints) = some [⟨c!"10.000", c!"14.000"⟩] ∧
    (e.sectors.get? c!"EDMM").map (fun s => (s.top, s.border, s.ownerPriority)) =
      some (9500, [[⟨c!"10.000", c!"14.000"⟩]], [c!"MT", c!"MG"]) ∧
    e.constraints.map (·.climbLevel) = [some 9000] ∧
    e.sidsStars = [.sid ⟨c!"ABAMI1Q", c!"EDDM", some c!"26L", [c!"ABAMI", c!"DM060"]⟩] := by
  refine ⟨by decide, ?_⟩
  obtain ⟨e, h, h1, h2, h3, h4⟩ := C51_ese_meaning (F := Str) (G := Str) id (fun _ _ => rfl) eseFile eseFile_valid (by decide)
  refine ⟨e, h, ?_, ?_, ?_, ?_, ?_⟩
  · rw [h1]; decide
  · rw [h1]; decide
  · rw [h2]; rfl
  · rw [h3]; decide
  · rw [h4]; decide

/-- A file that meets the hypotheses of `C50_ese_panics`. -/
def eseOverflow : File := ⟨[], [.airspace c!"\n" [.sector c!"X" c!"-1" c!"9500" c!"\n" []]]⟩

example : eseOverflow.Valid ∧ ¬ eseOverflow.Fits := by
  refine ⟨⟨.nil, by decide, fun s hs => ?_⟩, by decide⟩
  rw [List.mem_singleton.1 hs]
  refine ⟨brk_ex, fun i hi => ?_⟩
  rw [List.mem_singleton.1 hi]
  exact ⟨field_ex (by decide), ⟨c!"-", c!"1", rfl, Or.inr (Or.inl rfl), by decide⟩, int_ex (by decide), brk_ex, by simp⟩

/-- Harmful parts. -/
example : Harmful c!"COORD:N048.256.14.000:E011.00.00.000" :=
  have hd : (⟨'N', c!"048", c!"256", c!"14.000"⟩ : DmsText).Valid :=
    ⟨by decide, by decide, by decide, dec_ex (a := c!"14") (b := c!"000") (by decide) (by decide)⟩
  have he : (⟨'E', c!"011", c!"00", c!"00.000"⟩ : DmsText).Valid :=
    ⟨by decide, by decide, by decide, dec_ex (a := c!"00") (b := c!"000") (by decide) (by decide)⟩
  .coord [] c!"N048.256.14.000:E011.00.00.000" (by simp [AreBlanks])
    ⟨c!"N048.256.14.000", [], [], c!"E011.00.00.000", by simp [AreBlanks], by simp [AreBlanks], Or.inr ⟨_, hd, rfl⟩,
      Or.inr ⟨_, he, rfl⟩, Or.inl (Or.inr ⟨_, hd, by decide, rfl⟩), rfl⟩

example : Harmful c!"EDDM_TWR:Tower:118.500:MT:T:EDDM:TWR:-:-::48.5:11.25" :=
  have ha : IsDecimal c!"48.5" := dec_ex (a := c!"48") (b := c!"5") (by decide) (by decide)
  .point c!"EDDM_TWR:Tower:118.500:MT:T:EDDM:TWR:-:-::" c!"48.5:11.25" (by decide) (by decide)
    ⟨c!"48.5", [], [], c!"11.25", by simp [AreBlanks], by simp [AreBlanks], Or.inl ha,
      Or.inl (dec_ex (a := c!"11") (b := c!"25") (by decide) (by decide)), Or.inl (Or.inl ha), rfl⟩

def rejected {A : Type} : Run A → Bool
  | .error .parseError => true
  | _ => false

theorem rejected_iff {A : Type} {m : Run A} : rejected m = true ↔ m = .error .parseError := by
  cases m with
  | ok v => simp [rejected]
  | error e => cases e <;> simp [rejected]

/-- The hypothesis of `C59_ese_last_line` is met by a file; without its last line end it is rejected. -/
example : ∃ e, parse (F := Str) Str eseFile.text = .ok e := by
  obtain ⟨e, h, _⟩ := C51_ese_meaning (F := Str) (G := Str) id (fun _ _ => rfl) eseFile eseFile_valid (by decide)
  exact ⟨e, h⟩

example : parse (F := Str) Str eseFile.text.dropLast = .error .parseError := rejected_iff.1 (by decide +kernel)

/-- C56 is also false in another way: a file with a position without squawk range and with four visibility points is
rejected as a whole. -/
theorem C56_four_points_rejected : parse (F := Str) Str
    c!"[POSITIONS]\nA:B:118.705:C:D:E:F:-:-:::N048.21.14.000:E011.47.10.000:N048.21.14.000:E011.47.10.000:N048.21.14.000:E011.47.10.000:N048.21.14.000:E011.47.10.000\n"
      = .error .parseError :=
  rejected_iff.1 (by decide +kernel)

end Examples

end Verif.Props
