import Verif.Proofs.EseItems
/-!
# The statements of the section `[AIRSPACE]`: whole statements
-/

namespace Verif.Proofs.Ese
open Verif.Peg Verif.Spec Verif.Spec.Ese Verif.Dms Verif.Parse
open Verif.Peg.Ese (Rule skip)
open Verif.EseAirspace (Sector Statement)
open Verif.Constraints (Constraint)
open Verif.Parse.Ese (nextStr nextUnsigned parseCoordinate parseMsaw parseSectorLine parseCircleSectorLine CircleSectorLine
  SectorSubsetting parseSubsettings parseSector parseWildcardString parseWildcardU32 parseConstraint parseAirspace)

set_option linter.unusedSectionVars false

section
variable {F G : Type} [F64 F] [DmsArith F] [F64 G] (num : Str → F) (numG : Str → G)

/-- What is read from a statement. -/
def statementOf : Item → Statement (List (Point F)) (CircleSectorLine G)
  | .sectorLine id _ lines => .sectorLine id ((lines.filterMap (·.1.coord?)).map (Coord.point num))
  | .circle id centre radius _ _ => .circleSectorLine id ⟨centre, numG radius⟩
  | .display .. => .displaySectorline
  | .sector i bottom top _ lines =>
    let ls := lines.map (·.1)
    .sector ((ls.findSome? fun | .border l => some l | _ => none).getD [])
      { id := i
        bottom := number bottom
        top := number top
        border := []
        ownerPriority := (ls.findSome? fun | .owner l => some l | _ => none).getD []
        departureAirports := (ls.findSome? fun | .depApt l => some l | _ => none).getD []
        arrivalAirports := (ls.findSome? fun | .arrApt l => some l | _ => none).getD []
        runwayFilter := ls.filterMap fun | .active icao runway => some (icao, runway) | _ => none }
  | .cop c _ => if c.fir then .firCop c.value else .cop c.value
  | .msaw .. => .msaw

variable (hnum : ∀ s, IsDecimal s → F64.ofText s = some (num s)) (hnumG : ∀ s, IsDecimal s → F64.ofText s = some (numG s))

/-! ### SECTORLINE -/
include hnum in
theorem pb_sectorline {id brk : Str} {lines : List (BorderLine × Str)} {r : Str} (h1 : IsLastField id) (h2 : IsBreak brk)
    (h3 : ∀ l ∈ lines, l.1.Valid ∧ IsBreak l.2) (hr : ItemStart r) :
    ∃ t, P Peg.Ese.sectorline (Item.sectorLine id brk lines).text r [t] ∧
      parseAirspace (F := F) (G := G) t = gated (Item.sectorLine id brk lines).Fits (statementOf num numG (.sectorLine id brk lines)) := by
  obtain ⟨hre, hst⟩ := reps_of (C := Start) (l := lines) (txt := fun l => l.1.text ++ l.2)
    (fun (l : BorderLine × Str) hl r hr => blk_borderLine (l := l) num hnum (h3 l hl) hr) (itemStart hr)
  obtain ⟨ts, b, e⟩ := blk_star_read lineSkip.exact (uniform_eval lineSkip.uniform _ rfl _) hre (fails_borderLine hr) (k_start (itemStart hr))
  obtain ⟨s, hs⟩ := pb_rule (q := .sectorline) (pb_key (w := c!"SECTORLINE:") (k_key (by decide))
    (pb_line_then lineSkip (pb_last lineSkip (seg_last h1) h2) h2 hst b))
  refine ⟨_, hs, ?_⟩
  show ((List.partition (fun t : Tree Rule => t.asRule = .display) ts).2.mapM (parseCoordinate (F := F)) >>= _) >>= _ = _
  have e' : ts.map (readBorder (F := F)) = (lines.map (·.1)).map fun b => b.coord?.map (coordVal num) := by
    rw [e, List.map_map]; rfl
  rw [readBorders num hnum e', List.filterMap_map]
  refine Eq.trans (congrArg (· >>= _) (gated_ok rfl)) ?_
  exact gated_ok rfl

/-! ### CIRCLE_SECTORLINE -/
include hnumG in
theorem pb_circle [UnicodeTables] {id centre radius brk : Str} {l : List ((Str × Str × Str) × Str)} {r : Str} (h1 : IsField id)
    (h2 : IsFixName centre) (h3 : IsDecimal radius) (h4 : IsBreak brk)
    (h5 : ∀ d ∈ l, AreFields [d.1.1, d.1.2.1, d.1.2.2] ∧ IsBreak d.2) (hr : ItemStart r) :
    ∃ t, P Peg.Ese.circle_sectorline (Item.circle id centre radius brk l).text r [t] ∧
      parseAirspace (F := F) (G := G) t = .ok (statementOf num numG (.circle id centre radius brk l)) := by
  obtain ⟨hre, hst⟩ := reps_of (C := Start) (l := l) (r := r) (txt := fun d => displayText d.1.1 d.1.2.1 d.1.2.2 ++ d.2)
    (P := fun d r => ∃ t, Blk skip K (Peg.Ese.display ⬝ Base.NL) (displayText d.1.1 d.1.2.1 d.1.2.2 ++ d.2) r [t] ∧ () = ())
    (fun d hd r hr => by
      obtain ⟨hv, hf⟩ := h5 d hd
      obtain ⟨s, hs⟩ := pb_display (r := r) hv hf
      refine ⟨⟨_, (pb_line lineSkip hs hf hr).1, rfl⟩, ?_⟩
      rw [List.append_assoc]
      exact start_display) (itemStart hr)
  obtain ⟨ts, b, _⟩ := blk_star_read (read := fun _ => ()) (val := fun _ => ()) lineSkip.exact (uniform_eval lineSkip.uniform _ rfl _)
    hre (fails_displayLine hr) (k_start (itemStart hr))
  obtain ⟨s, hs⟩ := pb_rule (q := .circle_sectorline) (pb_key (w := c!"CIRCLE_SECTORLINE:") (k_key (by decide))
    (pb_colon k_colon (seg_field h1) (pb_colon k_colon (seg_mono (seg_fix h2) ends_colon)
      (pb_line_then lineSkip (pb_last lineSkip (seg_mono (seg_decimal h3) ends_line) h4) h4 hst b))))
  refine ⟨_, hs, ?_⟩
  show (unwrap (F64.ofText (F := G) radius) >>= _) >>= _ = _
  rw [hnumG _ h3]
  rfl

/-! ### DISPLAY_SECTORLINE -/
theorem pb_displaySectorline {a b c d brk r : Str} (h : AreFields [a, b, c, d]) (hf : IsBreak brk) (hr : ItemStart r) :
    ∃ t, P Peg.Ese.display_sectorline (Item.display a b c d brk).text r [t] ∧
      parseAirspace (F := F) (G := G) t = .ok (statementOf num numG (.display a b c d brk)) := by
  have b4 := pb_line lineSkip (pb_last lineSkip (r := r) (seg_last (h.2 d rfl)) hf) hf (itemStart hr)
  have b3 := pb_colon k_colon (seg_field (h.1 c (by simp))) b4
  have b2 := pb_colon k_colon (seg_field (h.1 b (by simp))) b3
  have b1 := pb_colon k_colon (seg_field (h.1 a (by simp))) b2
  have e : (Item.display a b c d brk).text = c!"DISPLAY_SECTORLINE:" ++ (a ++ ':' :: (b ++ ':' :: (c ++ ':' :: (d ++ brk)))) := by
    simp [Item.text, fields]
  rw [e]
  obtain ⟨s, hs⟩ := pb_rule (q := .display_sectorline) (pb_key (w := c!"DISPLAY_SECTORLINE:") (k_key (by decide)) b1)
  exact ⟨_, hs, rfl⟩

/-! ### SECTOR -/
theorem findSome_setting {B : Type} {f : SectorSubsetting → Option B} {g : Spec.Ese.SectorLine → Option B}
    (h : ∀ l, f (SectorLine.setting l) = g l) (ls : List Spec.Ese.SectorLine) :
    (ls.map SectorLine.setting).findSome? f = ls.findSome? g := by
  rw [List.findSome?_map]
  exact congrArg (fun k => ls.findSome? k) (funext h)

theorem filterMap_setting {B : Type} {f : SectorSubsetting → Option B} {g : Spec.Ese.SectorLine → Option B}
    (h : ∀ l, f (SectorLine.setting l) = g l) (ls : List Spec.Ese.SectorLine) :
    (ls.map SectorLine.setting).filterMap f = ls.filterMap g := by
  rw [List.filterMap_map]
  exact congrArg (fun k => ls.filterMap k) (funext h)

theorem pb_sector {id bottom top brk : Str} {lines : List (Spec.Ese.SectorLine × Str)} {r : Str} (h1 : IsField id)
    (h2 : IsInteger bottom) (h3 : IsInteger top) (h4 : IsBreak brk) (h5 : ∀ l ∈ lines, l.1.Valid ∧ IsBreak l.2) (hr : ItemStart r) :
    ∃ t, P Peg.Ese.sector (Item.sector id bottom top brk lines).text r [t] ∧
      parseAirspace (F := F) (G := G) t =
        gated (Item.sector id bottom top brk lines).Fits (statementOf num numG (.sector id bottom top brk lines)) := by
  obtain ⟨hre, hst⟩ := reps_of (C := Start) (l := lines) (r := r) (txt := fun l => l.1.text ++ l.2)
    (P := fun l r => ∃ t, Blk skip K (Peg.Ese.sector_subsettings ⬝ Base.NL) (l.1.text ++ l.2) r [t] ∧
      parseSubsettings t = .ok (SectorLine.setting l.1))
    (fun l hl r hr => by
      obtain ⟨hv, hf⟩ := h5 l hl
      obtain ⟨⟨t, ht, he⟩, hs⟩ := pb_sectorLine (r := r) hv hf
      exact ⟨⟨t, (pb_line lineSkip ht hf hr).1, he⟩, by simpa using hs⟩) (itemStart hr)
  obtain ⟨ts, b, e⟩ := blk_star_read lineSkip.exact (uniform_eval lineSkip.uniform _ rfl _) hre (fails_sectorLine hr) (k_start (itemStart hr))
  obtain ⟨s, hs⟩ := pb_rule (q := .sector) (pb_key (w := c!"SECTOR:") (k_key (by decide))
    (pb_colon k_colon (seg_field h1) (pb_colon k_colon (seg_mono (seg_integer h2) ends_colon)
      (pb_line_then lineSkip (pb_last lineSkip (seg_mono (seg_integer h3) ends_line) h4) h4 hst b))))
  refine ⟨_, hs, ?_⟩
  have hm : ts.mapM parseSubsettings = .ok ((lines.map (·.1)).map SectorLine.setting) := by
    rw [mapM_of_map (g := fun l : Spec.Ese.SectorLine × Str => gated True (SectorLine.setting l.1)) (e.trans rfl), mapM_gated, List.map_map]
    exact gated_true (by simp)
  show (nextUnsigned (2 ^ 32) (.node .integer bottom [] :: .node .integer top [] :: ts) >>= _) >>= _ = _
  rw [read_unsigned h2]
  refine Eq.trans (congrArg (· >>= _) (gated_bind (q := Spec.Ese.Fits (2 ^ 32) top)
    (w := match (statementOf (G := G) num numG (.sector id bottom top brk lines)) with
      | .sector b s => (b, s)
      | _ => ([], ⟨[], 0, 0, [], [], [], [], []⟩)) ?_)) ?_
  · show (nextUnsigned (2 ^ 32) (.node .integer top [] :: ts) >>= _) = _
    rw [read_unsigned h3]
    refine gated_ok ?_
    show (ts.mapM parseSubsettings >>= _) = _
    rw [hm]
    show Except.ok _ = Except.ok _
    congr 1
    simp only [statementOf]
    congr 1
    · rw [findSome_setting]; intro l; cases l <;> rfl
    · congr 1
      · rw [findSome_setting]; intro l; cases l <;> rfl
      · rw [findSome_setting]; intro l; cases l <;> rfl
      · rw [findSome_setting]; intro l; cases l <;> rfl
      · rw [filterMap_setting]; intro l; cases l <;> rfl
  · exact gated_ok rfl

/-! ### COPX -/
theorem read_wildString {q : Rule} (hq : q = .colon_delimited_text ∨ q = .designator) (o : Option Str) :
    parseWildcardString (wildTok q o) = .ok o := by
  cases o with
  | none => rfl
  | some v => rcases hq with rfl | rfl <;> rfl

theorem read_wildInteger {o : Option Str} (h : IsWildInteger o) :
    parseWildcardU32 (wildTok .integer o) = gated (FitsWild (2 ^ 32) o) (o.map number) := by
  cases o with
  | none => rfl
  | some v =>
    show (unwrap (parseUnsigned 10 (2 ^ 32) v) >>= _) = _
    rw [parseUnsigned_integer h, unwrap_gated]
    exact gated_ok rfl

def copTrees (c : CopLine) : List (Tree Rule) :=
  [wildTok .colon_delimited_text c.previousFix, wildTok .designator c.departureRunway, wildTok .colon_delimited_text c.fix,
    wildTok .colon_delimited_text c.subsequentFix, wildTok .designator c.arrivalRunway, text c.exitSector,
    text c.entrySector, wildTok .integer c.climb, wildTok .integer c.descent, text c.description]

theorem read_cop {c : CopLine} (h : c.Valid) (q : Rule) (s : Str) :
    parseConstraint (.node q s (copTrees c)) = gated (FitsWild (2 ^ 32) c.climb ∧ FitsWild (2 ^ 32) c.descent) c.value := by
  obtain ⟨h1, h2, h3, h4, h5, h6, h7, h8, h9, h10⟩ := h
  show (parseWildcardString (wildTok .colon_delimited_text c.previousFix) >>= _) = _
  rw [read_wildString (Or.inl rfl)]
  show (parseWildcardString (wildTok .designator c.departureRunway) >>= _) = _
  rw [read_wildString (Or.inr rfl)]
  show (parseWildcardString (wildTok .colon_delimited_text c.fix) >>= _) = _
  rw [read_wildString (Or.inl rfl)]
  show (parseWildcardString (wildTok .colon_delimited_text c.subsequentFix) >>= _) = _
  rw [read_wildString (Or.inl rfl)]
  show (parseWildcardString (wildTok .designator c.arrivalRunway) >>= _) = _
  rw [read_wildString (Or.inr rfl)]
  show (parseWildcardU32 (wildTok .integer c.climb) >>= _) = _
  rw [read_wildInteger h8]
  refine gated_bind ?_
  show (parseWildcardU32 (wildTok .integer c.descent) >>= _) = _
  rw [read_wildInteger h9]
  exact gated_ok rfl

abbrev copBody : Expr Rule :=
  Peg.Ese.prev ⬝ (.str c!":") ⬝ Peg.Ese.dep_rwy ⬝ (.str c!":") ⬝ Peg.Ese.cop_def ⬝ (.str c!":") ⬝ Peg.Ese.after ⬝ (.str c!":") ⬝
    Peg.Ese.arr_rwy ⬝ (.str c!":") ⬝ Peg.Ese.sctx ⬝ (.str c!":") ⬝ Peg.Ese.sctn ⬝ (.str c!":") ⬝ Peg.Ese.alt_clb ⬝ (.str c!":") ⬝
    Peg.Ese.alt_des ⬝ (.str c!":") ⬝ Peg.Ese.cop_description ⬝ Peg.Ese.NL

def copText (p : CopLine) : Str :=
  wild p.previousFix ++ ':' :: (wild p.departureRunway ++ ':' :: (wild p.fix ++ ':' :: (wild p.subsequentFix ++ ':' ::
    (wild p.arrivalRunway ++ ':' :: (p.exitSector ++ ':' :: (p.entrySector ++ ':' :: (wild p.climb ++ ':' ::
      (wild p.descent ++ ':' :: p.description))))))))

theorem pb_copBody {c : CopLine} {f r : Str} (h : c.Valid) (hf : IsBreak f) (hr : Start r) :
    P copBody (copText c ++ f) r (copTrees c) := by
  obtain ⟨h1, h2, h3, h4, h5, h6, h7, h8, h9, h10⟩ := h
  have := pb_colon k_colon (seg_wildField h1) (pb_colon k_colon (seg_mono (seg_wildDesignator h2) ends_colon)
    (pb_colon k_colon (seg_wildField h3) (pb_colon k_colon (seg_wildField h4)
    (pb_colon k_colon (seg_mono (seg_wildDesignator h5) ends_colon) (pb_colon k_colon (seg_field h6)
    (pb_colon k_colon (seg_field h7) (pb_colon k_colon (seg_mono (seg_wildInteger h8) ends_colon)
    (pb_colon k_colon (seg_mono (seg_wildInteger h9) ends_colon)
      (pb_line lineSkip (pb_last lineSkip (r := r) (seg_last h10) hf) hf hr)))))))))
  have e : copText c ++ f = wild c.previousFix ++ ':' :: (wild c.departureRunway ++ ':' :: (wild c.fix ++ ':' :: (wild c.subsequentFix ++ ':' ::
    (wild c.arrivalRunway ++ ':' :: (c.exitSector ++ ':' :: (c.entrySector ++ ':' :: (wild c.climb ++ ':' ::
      (wild c.descent ++ ':' :: (c.description ++ f))))))))) := by simp [copText]
  rw [e]
  exact this

theorem cop_text (c : CopLine) (f : Str) :
    (Item.cop c f).text = (if c.fir then c!"FIR_COPX:" else c!"COPX:") ++ (copText c ++ f) := by
  simp [Item.text, CopLine.text, copText]

theorem pb_cop {c : CopLine} {f r : Str} (hc : c.fir = false) (h : c.Valid) (hf : IsBreak f) (hr : ItemStart r) :
    ∃ t, P Peg.Ese.cop (Item.cop c f).text r [t] ∧
      parseAirspace (F := F) (G := G) t = gated (Item.cop c f).Fits (statementOf num numG (.cop c f)) := by
  obtain ⟨s, hs⟩ := pb_rule (q := .cop) (pb_key (w := c!"COPX:") (k_key (by decide)) (pb_copBody h hf (itemStart hr)))
  rw [cop_text, hc]
  refine ⟨_, hs, ?_⟩
  show (parseConstraint (.node .cop s (copTrees c)) >>= _) = _
  rw [read_cop h]
  refine gated_ok ?_
  simp only [statementOf, hc]
  rfl

theorem pb_firCop {c : CopLine} {f r : Str} (hc : c.fir = true) (h : c.Valid) (hf : IsBreak f) (hr : ItemStart r) :
    ∃ t, P Peg.Ese.fir_cop (Item.cop c f).text r [t] ∧
      parseAirspace (F := F) (G := G) t = gated (Item.cop c f).Fits (statementOf num numG (.cop c f)) := by
  obtain ⟨s, hs⟩ := pb_rule (q := .fir_cop) (pb_key (w := c!"FIR_COPX:") (k_key (by decide)) (pb_copBody h hf (itemStart hr)))
  rw [cop_text, hc]
  refine ⟨_, hs, ?_⟩
  show (parseConstraint (.node .fir_cop s (copTrees c)) >>= _) = _
  rw [read_cop h]
  refine gated_ok ?_
  simp only [statementOf, hc]
  rfl

/-! ### MSAW -/
include hnum in
theorem pb_msaw {id altitude brk : Str} {points : List (Coord × Str)} {r : Str} (h1 : IsField id)
    (h2 : IsInteger altitude) (h3 : IsBreak brk) (h4 : points ≠ []) (h5 : ∀ p ∈ points, p.1.Valid ∧ IsBreak p.2) (hr : ItemStart r) :
    ∃ t, P Peg.Ese.msaw (Item.msaw id altitude brk points).text r [t] ∧
      parseAirspace (F := F) (G := G) t =
        gated (Item.msaw id altitude brk points).Fits (statementOf num numG (.msaw id altitude brk points)) := by
  obtain ⟨hre, hst⟩ := reps_of (C := Start) (l := points) (r := r) (txt := fun p => (c!"COORD:" ++ p.1.text) ++ p.2)
    (P := fun p r => ∃ t, Blk skip K (Peg.Ese.coord ⬝ Base.NL) ((c!"COORD:" ++ p.1.text) ++ p.2) r [t] ∧
      parseCoordinate t = coordVal num p.1)
    (fun p hp r hr => by
      obtain ⟨hv, hf⟩ := h5 p hp
      refine ⟨⟨_, (pb_line lineSkip (pb_coordLine (r := r) hv hf) hf hr).1, read_coord num hnum hv⟩, ?_⟩
      exact start_key (w := c!"COORD:") (by decide) _) (itemStart hr)
  obtain ⟨ts, b, e⟩ := blk_plus_read lineSkip.exact (uniform_eval lineSkip.uniform _ rfl _) lineSkip.knil h4 hre (fails_coordLine hr)
  obtain ⟨s, hs⟩ := pb_rule (q := .msaw) (pb_key (w := c!"MSAW:") (k_key (by decide))
    (pb_colon k_colon (seg_field h1)
      (pb_line_then lineSkip (pb_last lineSkip (seg_mono (seg_integer h2) ends_line) h3) h3 hst b)))
  refine ⟨_, hs, ?_⟩
  have hm : ts.mapM parseCoordinate = gated (∀ p ∈ points, p.1.Fits) (points.map fun p => p.1.point num) := by
    rw [mapM_of_map e]
    exact mapM_gated _
  show (nextUnsigned (2 ^ 32) (.node .integer altitude [] :: ts) >>= _) >>= _ = _
  rw [read_unsigned h2]
  refine Eq.trans (congrArg (· >>= _) (gated_bind (q := ∀ p ∈ points, p.1.Fits)
    (w := (id, number altitude, points.map fun p => p.1.point num)) ?_)) ?_
  · show (ts.mapM parseCoordinate >>= _) = _
    rw [hm]
    exact gated_ok rfl
  · exact gated_ok rfl

/-! ### Any statement -/

abbrev itemExpr [UnicodeTables] : Expr Rule :=
  Peg.Ese.sectorline ∥ Peg.Ese.circle_sectorline ∥ Peg.Ese.display_sectorline ∥ Peg.Ese.sector ∥ Peg.Ese.cop ∥ Peg.Ese.fir_cop ∥ Peg.Ese.msaw

theorem fails_item [UnicodeTables] {r : Str} (h : Starts [c!"["] r) : Fails skip itemExpr .nonAtomic r :=
  fails_alt rfl (fails_key (starts_not h (by decide) (by decide)))
    (fails_alt rfl (fails_key (starts_not h (by decide) (by decide)))
    (fails_alt rfl (fails_key (starts_not h (by decide) (by decide)))
    (fails_alt rfl (fails_key (starts_not h (by decide) (by decide)))
    (fails_alt rfl (fails_key (starts_not h (by decide) (by decide)))
    (fails_alt rfl (fails_key (starts_not h (by decide) (by decide)))
    (fails_key (starts_not h (by decide) (by decide))))))))

include hnum hnumG in
theorem blk_item [UnicodeTables] {i : Item} {r : Str} (hv : i.Valid) (hr : ItemStart r) :
    (∃ t, Blk skip K itemExpr i.text r [t] ∧ parseAirspace (F := F) (G := G) t = gated i.Fits (statementOf num numG i)) ∧
      ItemStart (i.text ++ r) := by
  have st : ∀ {w t : Str}, w ∈ itemKeys → i.text = w ++ t → ItemStart (i.text ++ r) := fun {w t} hw e =>
    Or.inr ⟨w, hw, t ++ r, by rw [e, List.append_assoc]⟩
  have fk : ∀ {q : Rule} {k w t : Str} {y : Expr Rule}, i.text = w ++ t → Apart2 k w →
      Fails skip (.rule q .normal ((.str k) ⬝ y)) .nonAtomic (i.text ++ r) := fun e h =>
    fails_key (by rw [e, List.append_assoc]; exact not_prefix h)
  cases i with
  | sectorLine id brk lines =>
    obtain ⟨t, ht, e⟩ := pb_sectorline num numG hnum hv.1 hv.2.1 hv.2.2 hr
    exact ⟨⟨t, (pb_alt_left ht).1, e⟩, st (w := c!"SECTORLINE:") (by decide) rfl⟩
  | circle id centre radius brk l =>
    have fk := @fun {q k y} => @fk q k c!"CIRCLE_SECTORLINE:" _ y rfl
    obtain ⟨t, ht, e⟩ := pb_circle num numG hnumG hv.1 hv.2.1 hv.2.2.1 hv.2.2.2.1 hv.2.2.2.2 hr
    exact ⟨⟨t, (pb_alt_right (fk (by decide)) (pb_alt_left ht)).1, e.trans (gated_true trivial).symm⟩,
      st (w := c!"CIRCLE_SECTORLINE:") (by decide) rfl⟩
  | display a b c d brk =>
    have e0 : (Item.display a b c d brk).text = c!"DISPLAY_SECTORLINE:" ++ (a ++ fields [b, c, d] ++ brk) := by
      simp [Item.text, fields]
    have fk := @fun {q k y} => @fk q k c!"DISPLAY_SECTORLINE:" _ y e0
    obtain ⟨t, ht, e⟩ := pb_displaySectorline num numG hv.1 hv.2 hr
    exact ⟨⟨t, (pb_alt_right (fk (by decide)) (pb_alt_right (fk (by decide)) (pb_alt_left ht))).1, e.trans (gated_true trivial).symm⟩,
      st (w := c!"DISPLAY_SECTORLINE:") (by decide) e0⟩
  | sector id bottom top brk lines =>
    have fk := @fun {q k y} => @fk q k c!"SECTOR:" _ y rfl
    obtain ⟨t, ht, e⟩ := pb_sector num numG hv.1 hv.2.1 hv.2.2.1 hv.2.2.2.1 hv.2.2.2.2 hr
    exact ⟨⟨t, (pb_alt_right (fk (by decide)) (pb_alt_right (fk (by decide)) (pb_alt_right (fk (by decide)) (pb_alt_left ht)))).1, e⟩,
      st (w := c!"SECTOR:") (by decide) rfl⟩
  | cop c brk =>
    cases hc : c.fir with
    | false =>
      have e0 : (Item.cop c brk).text = c!"COPX:" ++ (copText c ++ brk) := by rw [cop_text, hc]; rfl
      have fk := @fun {q k y} => @fk q k c!"COPX:" _ y e0
      obtain ⟨t, ht, e⟩ := pb_cop num numG hc hv.1 hv.2 hr
      exact ⟨⟨t, (pb_alt_right (fk (by decide)) (pb_alt_right (fk (by decide)) (pb_alt_right (fk (by decide))
        (pb_alt_right (fk (by decide)) (pb_alt_left ht))))).1, e⟩, st (w := c!"COPX:") (by decide) e0⟩
    | true =>
      have e0 : (Item.cop c brk).text = c!"FIR_COPX:" ++ (copText c ++ brk) := by rw [cop_text, hc]; rfl
      have fk := @fun {q k y} => @fk q k c!"FIR_COPX:" _ y e0
      obtain ⟨t, ht, e⟩ := pb_firCop num numG hc hv.1 hv.2 hr
      exact ⟨⟨t, (pb_alt_right (fk (by decide)) (pb_alt_right (fk (by decide)) (pb_alt_right (fk (by decide))
        (pb_alt_right (fk (by decide)) (pb_alt_right (fk (by decide)) (pb_alt_left ht)))))).1, e⟩, st (w := c!"FIR_COPX:") (by decide) e0⟩
  | msaw id altitude brk points =>
    have fk := @fun {q k y} => @fk q k c!"MSAW:" _ y rfl
    obtain ⟨t, ht, e⟩ := pb_msaw num numG hnum hv.1 hv.2.1 hv.2.2.1 hv.2.2.2.1 hv.2.2.2.2 hr
    exact ⟨⟨t, (pb_alt_right (fk (by decide)) (pb_alt_right (fk (by decide)) (pb_alt_right (fk (by decide))
      (pb_alt_right (fk (by decide)) (pb_alt_right (fk (by decide)) (pb_alt_right (fk (by decide)) ht)))))).1, e⟩,
      st (w := c!"MSAW:") (by decide) rfl⟩
end

end Verif.Proofs.Ese
