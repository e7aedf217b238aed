import Verif.Proofs.SctSections
import Verif.Proofs.Asr
/-!
# The section with the general information of .sct files
-/

namespace Verif.Proofs.Sct
open Verif.Proofs Verif.Peg Verif.Spec Verif.Spec.Sct Verif.Dms Verif.Parse
open Verif.Spec.Ese (DmsText Fits number)
open Verif.Colours (Colour)
open Verif.Peg.Sct (Rule skip)
open Verif.Parse.Sct (parseColourDefinition storeColour InfoState infoStep infoLine parseInfoSection parseCoordinatePart Info Info.default zero)

set_option linter.unusedSectionVars false

/-! ## Lines -/

/-- A line and what follows. -/
theorem ln_step {x y : Expr Rule} {brk v tl t r : Str} {u1 u2 : List (Tree Rule)} (hx : S Stop x v u1)
    (hv : ∃ c u, v = c :: u ∧ isNewlineChar c = false) (hb : IsBreak brk) (ht : IsTail tl) (hle : AtLineEnd (t ++ r)) (hy : Blk skip K y t r u2) :
    Blk skip K (Base.NL ⬝ x ⬝ y) (brk ++ (v ++ tl) ++ t) r (u1 ++ u2) := by
  have p := pb_tail hx ht hle
  obtain ⟨c, u, rfl, hc⟩ := hv
  rw [List.append_assoc]
  refine blk_nlThen hb ?_ (blk_seq p.1 hy)
  rw [List.append_assoc]
  exact start_of_k p.2 ⟨c, u ++ tl, rfl, hc⟩

theorem next_colours {Q : Str → Prop} {l : List (Ln ColourDef)} {r : Str} (hl : ∀ a ∈ l, a.Valid ColourDef.Valid) (hr : Next Q r)
    (hq : ∀ t, Q ('#' :: t)) : Next Q (l.flatMap (Ln.text ColourDef.text) ++ r) := by
  cases l with
  | nil => exact hr
  | cons a l =>
    obtain ⟨u, e⟩ := colour_first a.body
    refine Or.inr ⟨a.brk, '#' :: (u ++ (a.tail ++ (l.flatMap (Ln.text ColourDef.text) ++ r))), ?_, (hl a List.mem_cons_self).1, start_cons (by decide), hq _⟩
    simp [Ln.text, e]

def readColour (t : Tree Rule) : Rule × Run (Option (Str × Colour)) := (t.asRule, parseColourDefinition t)
def colourVal (d : ColourDef) : Rule × Run (Option (Str × Colour)) := (.colour_definition, gated d.Fits (d.colour.map fun c => (d.name, c)))

/-- Definitions of colours on lines of their own. -/
theorem blk_colours {Q : Str → Prop} {l : List (Ln ColourDef)} {r : Str} (hl : ∀ a ∈ l, a.Valid ColourDef.Valid) (hr : Next Q r)
    (hq : ∀ t, Q t → HeadNot (· == '#') t) :
    ∃ ts, Blk skip K (.star (Base.NL ⬝ Peg.Sct.colour_definition)) (l.flatMap (Ln.text ColourDef.text)) r ts ∧
      ts.map readColour = l.map (fun a => colourVal a.body) := by
  refine blk_star_read lineSkip.exact (hu _ _ rfl) (blks_lines (f := readColour) (val := colourVal) (valid := ColourDef.Valid) (fun a tl r ha ht hr => ?_)
    (fun a _ => ?_) hl hr.lineEnd).1 (fails_next (by rfl) hr fun t ht => fails_colourDef (hq t ht)) (k_end hr.lineEnd)
  · obtain ⟨tr, p1, p2, p3⟩ := entry_colour ha ht hr
    exact ⟨tr, p1, by unfold readColour colourVal; rw [p2, p3]⟩
  · obtain ⟨u, e⟩ := colour_first a
    exact ⟨'#', u, e, by decide⟩

section
variable [UnicodeTables]

def isSectorChar (c : Char) : Bool := UnicodeTables.letter c || (isAsciiDigit c || (c == '\t' || inRange ' ' '~' c))

theorem inRange_iff {a b c : Char} : inRange a b c = true ↔ a ≤ c ∧ c ≤ b := by
  simp [inRange]
  exact Iff.rfl

theorem seg_sectorName {v : Str} (h : IsSectorName v) : S AtLineEnd Peg.Sct.sector_name v [.node .sector_name v []] := by
  have hl : LikeCls skip K ((.cls UnicodeTables.letter) ∥ (.cls isAsciiDigit) ∥ (.str ['\t']) ∥ (.cls (inRange ' ' '~'))) .atomic isSectorChar :=
    (likeCls_cls _ _).alt ((likeCls_cls _ _).alt ((likeCls_char '\t' _).alt (likeCls_cls _ _) (hu _ _ rfl)) (hu _ _ rfl)) (hu _ _ rfl)
  obtain ⟨h1, h2, h3, h4⟩ := h
  refine seg_atomic (fun r hr => (hl.plus (by decide)).2 ⟨h1, fun c hc => ?_, ?_, rfl⟩) fun r hr => k_plain (isStart_plain h2 h1 ?_)
  · unfold isSectorChar
    rcases h4 c hc with h | rfl | h
    · rw [h]; rfl
    · simp
    · rw [inRange_iff.2 h]; simp
  · intro c hc
    cases r with
    | nil => cases hc
    | cons d r =>
      cases hc
      unfold isSectorChar
      rcases newline_iff.1 (lineEnd_head hr) with rfl | rfl
      · rw [letter_not (by decide) (by decide) (by decide)]; decide
      · rw [letter_not (by decide) (by decide) (by decide)]; decide
  · rintro t - rfl
    exact absurd (lineEnd_head hr) (by decide)

theorem sectorName_first {v : Str} (h : IsSectorName v) : ∃ c u, v = c :: u ∧ isNewlineChar c = false ∧ c ≠ '#' := by
  obtain ⟨h1, h2, h3, h4⟩ := h
  cases v with
  | nil => exact absurd rfl h1
  | cons c u =>
    refine ⟨c, u, rfl, ?_, fun e => h3 (by rw [e]; rfl)⟩
    cases hn : isNewlineChar c with
    | false => rfl
    | true =>
      have hl : UnicodeTables.letter c = false := by
        rcases newline_iff.1 hn with rfl | rfl <;> exact letter_not (by decide) (by decide) (by decide)
      have := h4 c List.mem_cons_self
      rw [hl] at this
      rcases newline_iff.1 hn with rfl | rfl <;> exact absurd this (by decide)

end

theorem callsign_first {v : Str} (h : IsCallsign v) : ∃ c u, v = c :: u ∧ isNewlineChar c = false := by
  cases v with
  | nil => exact absurd rfl h.1
  | cons c u =>
    refine ⟨c, u, rfl, ?_⟩
    have hc : isCallChar c = true := by simpa [isCallChar] using h.2 c List.mem_cons_self
    exact (head_parts (head_of (by decide) hc)).2.1

theorem des_first {v : Str} (h : IsDesignator v) : ∃ c u, v = c :: u ∧ isNewlineChar c = false := by
  obtain ⟨c, t, e, hc⟩ := des_head h
  exact ⟨c, t, e, (head_parts (head_of (by decide) hc)).2.1⟩

theorem dms_first {d : DmsText} (h : d.Valid) : ∃ c u, d.text = c :: u ∧ isNewlineChar c = false :=
  ⟨_, _, rfl, (head_parts (hemi_head h.1)).2.1⟩

/-! ## Reading -/

section
variable {F : Type} [F64 F] [DmsArith F]

theorem info_colours : ∀ (ts : List (Tree Rule)) (l : List ColourDef) (s : InfoState F), ts.map readColour = l.map colourVal →
    ts.foldlM infoStep s = gated (∀ d ∈ l, d.Fits) { s with colours := addColours s.colours l }
  | [], [], s, _ => (gated_true (by simp)).symm
  | [], _ :: _, _, h => by simp at h
  | _ :: _, [], _, h => by simp at h
  | t :: ts, d :: l, s, h => by
    rw [List.map_cons, List.map_cons] at h
    obtain ⟨h1, h2⟩ := List.cons.inj h
    have e1 : t.asRule = .colour_definition := congrArg Prod.fst h1
    have e2 : parseColourDefinition t = gated d.Fits (d.colour.map fun c => (d.name, c)) := congrArg Prod.snd h1
    rw [List.foldlM_cons]
    have e3 : infoStep s t = gated d.Fits { s with colours := addColours s.colours [d] } := by
      unfold infoStep
      rw [if_pos e1]
      show (storeColour s.colours t).bind _ = _
      unfold storeColour
      show ((parseColourDefinition t).bind _).bind _ = _
      rw [e2]
      unfold gated addColours
      by_cases hd : d.Fits
      · rw [if_pos hd, if_pos hd]
        cases hc : d.colour with
        | none => simp [Except.bind, hc]
        | some c => simp [Except.bind, hc]
      · rw [if_neg hd, if_neg hd]
        rfl
    rw [e3]
    refine (gated_bind (q := ∀ d ∈ l, d.Fits) (w := { s with colours := addColours s.colours (d :: l) }) ?_).trans (gated_congr (by simp) rfl)
    rw [info_colours ts l _ h2]
    rfl

theorem foldlM_append' {S T : Type} (f : S → T → Run S) (a b : List T) (s : S) : (a ++ b).foldlM f s = (a.foldlM f s).bind fun s => b.foldlM f s :=
  List.foldlM_append

variable (num : Str → F) (hnum : ∀ s, IsDecimal s → F64.ofText s = some (num s))

include hnum in
theorem zero_eq : zero F = num c!"0.0" := by
  have := hnum c!"0.0" ⟨[], c!"0", c!".0", rfl, Or.inl rfl, by decide, Or.inr ⟨c!"0", rfl, by decide⟩⟩
  unfold zero Parse.Asr.lit
  simp only [List.cons_append, List.nil_append, this, Option.get_some]

/-- What the lines of the section mean to the parser. -/
def infoTrees (i : InfoText) : List (Tree Rule) :=
  [.node .sector_name i.name [], .node .sector_callsign i.callsign.body [], .node .designator i.airport.body [], dmsTree i.lat.body, dmsTree i.lng.body,
    .node .decimal i.milesLat.body [], .node .decimal i.milesLng.body [], .node .decimal i.variation.body []]

def scaleTrees : Option (Ln Str) → List (Tree Rule)
  | some l => [.node .decimal l.body []]
  | none => []

theorem fold_ok {s s' : InfoState F} {t : Tree Rule} {ts : List (Tree Rule)} {v : Run (InfoState F)} (h : infoStep s t = .ok s')
    (h2 : ts.foldlM infoStep s' = v) : (t :: ts).foldlM infoStep s = v := by
  rw [List.foldlM_cons, h]
  exact h2

theorem fold_gated {p q : Prop} [Decidable p] [Decidable q] {s s' w : InfoState F} {t : Tree Rule} {ts : List (Tree Rule)} (h : infoStep s t = gated p s')
    (h2 : ts.foldlM infoStep s' = gated q w) : (t :: ts).foldlM infoStep s = gated (p ∧ q) w := by
  rw [List.foldlM_cons, h]
  exact gated_bind h2

include hnum in
theorem step_lat {info : Info F} {y : DegMinSec F} {cs : Map Str Colour} {d : DmsText} (hd : d.Valid) : infoStep ⟨info, 3, y, cs⟩ (dmsTree d) =
    gated d.Fits ⟨info, 4, ⟨d.sign, digitsValue d.deg, digitsValue d.min, num d.sec⟩, cs⟩ := by
  show ((parseCoordinatePart (dmsTree d)).bind _).bind _ = _
  rw [read_dms num hnum hd]
  unfold gated
  by_cases hf : d.Fits
  · rw [if_pos hf, if_pos hf]; rfl
  · rw [if_neg hf, if_neg hf]; rfl

include hnum in
theorem step_lng {info : Info F} {y : DegMinSec F} {cs : Map Str Colour} {d : DmsText} (hd : d.Valid) : infoStep ⟨info, 4, y, cs⟩ (dmsTree d) =
    gated d.Fits ⟨{ info with centrePoint := fromDegMinSec y ⟨d.sign, digitsValue d.deg, digitsValue d.min, num d.sec⟩ }, 5, y, cs⟩ := by
  show ((parseCoordinatePart (dmsTree d)).bind _).bind _ = _
  rw [read_dms num hnum hd]
  unfold gated
  by_cases hf : d.Fits
  · rw [if_pos hf, if_pos hf]; rfl
  · rw [if_neg hf, if_neg hf]; rfl

include hnum in
theorem step_decimals {info : Info F} {y : DegMinSec F} {cs : Map Str Colour} {v : Str} (hv : IsDecimal v) :
    infoStep ⟨info, 5, y, cs⟩ (.node .decimal v []) = .ok ⟨{ info with milesPerDegLat := num v }, 6, y, cs⟩ ∧
    infoStep ⟨info, 6, y, cs⟩ (.node .decimal v []) = .ok ⟨{ info with milesPerDegLng := num v }, 7, y, cs⟩ ∧
    infoStep ⟨info, 7, y, cs⟩ (.node .decimal v []) = .ok ⟨{ info with magneticVariation := num v }, 8, y, cs⟩ ∧
    infoStep ⟨info, 8, y, cs⟩ (.node .decimal v []) = .ok ⟨{ info with scaleFactor := num v }, 9, y, cs⟩ := by
  refine ⟨?_, ?_, ?_, ?_⟩ <;>
  · show ((unwrap (F64.ofText v)).bind _).bind _ = _
    rw [hnum v hv]
    rfl

include hnum in
theorem info_lines [UnicodeTables] {i : InfoText} (h : i.Valid) (cs : Map Str Colour) :
    ∃ n y, (infoTrees i ++ scaleTrees i.scale).foldlM infoStep
      (⟨Info.default F, 0, ⟨.pos, 0, 0, zero F⟩, cs⟩ : InfoState F) =
      gated (i.lat.body.Fits ∧ i.lng.body.Fits) ⟨i.value num, n, y, cs⟩ := by
  have last : ∀ (info : Info F) (y : DegMinSec F), info.scaleFactor = zero F → ∃ n, (scaleTrees i.scale).foldlM infoStep ⟨info, 8, y, cs⟩ =
      .ok ⟨{ info with scaleFactor := (i.scale.map fun l => num l.body).getD (num c!"0.0") }, n, y, cs⟩ := by
    intro info y hz
    cases e : i.scale with
    | none =>
      refine ⟨8, ?_⟩
      rw [Option.map_none, Option.getD_none, ← zero_eq num hnum, ← hz]
      rfl
    | some l => exact ⟨9, fold_ok (step_decimals num hnum (h.scale l e).2.1).2.2.2 rfl⟩
  obtain ⟨n, e⟩ := last { InfoText.value num i with scaleFactor := zero F } ⟨i.lat.body.sign, digitsValue i.lat.body.deg, digitsValue i.lat.body.min, num i.lat.body.sec⟩ rfl
  refine ⟨n, ⟨i.lat.body.sign, digitsValue i.lat.body.deg, digitsValue i.lat.body.min, num i.lat.body.sec⟩, ?_⟩
  refine fold_ok (s' := ⟨{ Info.default F with name := i.name }, 1, _, cs⟩) rfl ?_
  refine fold_ok (s' := ⟨{ Info.default F with name := i.name, defaultCallsign := i.callsign.body }, 2, _, cs⟩) rfl ?_
  refine fold_ok (s' := ⟨{ Info.default F with name := i.name, defaultCallsign := i.callsign.body, defaultAirport := i.airport.body }, 3, _, cs⟩) rfl ?_
  refine fold_gated (step_lat num hnum h.lat.2.1) ?_
  refine (fold_gated (q := True) (step_lng num hnum h.lng.2.1) ?_).trans (gated_congr (by simp) rfl)
  rw [gated_true trivial]
  refine fold_ok (step_decimals num hnum h.milesLat.2.1).1 ?_
  refine fold_ok (step_decimals num hnum h.milesLng.2.1).2.1 ?_
  refine fold_ok (step_decimals num hnum h.variation.2.1).2.2.1 ?_
  exact e

include hnum in
theorem read_info [UnicodeTables] {i : InfoText} (h : i.Valid) {a b : List (Tree Rule)} (ha : a.map readColour = i.before.map (fun x => colourVal x.body))
    (hb : b.map readColour = i.after.map (fun x => colourVal x.body)) (s : Str) (cs : Map Str Colour) :
    parseInfoSection (.node .info_section s (a ++ ((infoTrees i ++ scaleTrees i.scale) ++ b))) cs = gated i.Fits (i.value num, addColours cs i.colours) := by
  show ((a ++ ((infoTrees i ++ scaleTrees i.scale) ++ b)).foldlM infoStep _).bind _ = _
  rw [foldlM_append', info_colours a (i.before.map (·.body)) _ (by rw [ha, List.map_map]; rfl)]
  obtain ⟨n, y, e⟩ := info_lines num hnum h (addColours cs (i.before.map (·.body)))
  have : (((infoTrees i ++ scaleTrees i.scale) ++ b).foldlM infoStep
      ({ info := Info.default F, i := 0, y := { sign := .pos, deg := 0, min := 0, sec := zero F }, colours := addColours cs (i.before.map (·.body)) } : InfoState F)) =
      gated ((i.lat.body.Fits ∧ i.lng.body.Fits) ∧ ∀ d ∈ i.after.map (·.body), d.Fits)
        { info := i.value num, i := n, y := y, colours := addColours cs i.colours } := by
    rw [foldlM_append', e]
    refine gated_bind ?_
    rw [info_colours b (i.after.map (·.body)) _ (by rw [hb, List.map_map]; rfl)]
    exact gated_congr Iff.rfl (by unfold InfoText.colours; rw [addColours_append])
  have step : ((gated (∀ d ∈ i.before.map (·.body), d.Fits)
      (⟨Info.default F, 0, ⟨.pos, 0, 0, zero F⟩, addColours cs (i.before.map (·.body))⟩ : InfoState F)).bind fun s =>
        List.foldlM infoStep s (infoTrees i ++ scaleTrees i.scale ++ b)) =
      gated ((∀ d ∈ i.before.map (·.body), d.Fits) ∧ (i.lat.body.Fits ∧ i.lng.body.Fits) ∧ ∀ d ∈ i.after.map (·.body), d.Fits)
        { info := i.value num, i := n, y := y, colours := addColours cs i.colours } := gated_bind this
  refine (congrArg (fun x : Run (InfoState F) => x.bind fun s => .ok (s.info, s.colours)) step).trans ?_
  refine (gated_ok (p := (∀ d ∈ i.before.map (·.body), d.Fits) ∧ (i.lat.body.Fits ∧ i.lng.body.Fits) ∧ ∀ d ∈ i.after.map (·.body), d.Fits)
    (v := ({ info := i.value num, i := n, y := y, colours := addColours cs i.colours } : InfoState F)) (f := fun s => Except.ok (s.info, s.colours))
    (w := (i.value num, addColours cs i.colours)) rfl).trans ?_
  refine gated_congr ?_ rfl
  unfold InfoText.Fits InfoText.colours
  simp only [List.mem_append]
  constructor
  · rintro ⟨h1, ⟨h2, h3⟩, h4⟩
    exact ⟨h2, h3, fun d hd => hd.elim (h1 d) (h4 d)⟩
  · rintro ⟨h2, h3, h4⟩
    exact ⟨fun d hd => h4 d (Or.inl hd), ⟨h2, h3⟩, fun d hd => h4 d (Or.inr hd)⟩

end

/-! ## The section -/

theorem blk_scale {o : Option (Ln Str)} {t r : Str} {u : List (Tree Rule)} {y : Expr Rule} (h : ∀ l, o = some l → l.Valid IsDecimal)
    (hn : Next (HeadNot isNumChar) (t ++ r)) (hy : Blk skip K y t r u) :
    Blk skip K ((.opt (Base.NL ⬝ Peg.Sct.decimal)) ⬝ y) (scaleText o ++ t) r (scaleTrees o ++ u) ∧ AtLineEnd (scaleText o ++ t ++ r) := by
  cases o with
  | none => exact ⟨blk_seq (t1 := []) (blk_opt_none (fails_next (by rfl) hn fun t ht => fails_decimal ht) (k_end hn.lineEnd)) hy, hn.lineEnd⟩
  | some l =>
    obtain ⟨h1, h2, h3⟩ := h l rfl
    have p := pb_tail (seg_decimal h2) h3 hn.lineEnd
    obtain ⟨c, v, e, hc⟩ := decimal_first h2
    refine ⟨blk_seq (blk_opt_some (blk_nlThen h1 (start_of_k p.2 ⟨c, v ++ l.tail, by rw [e]; rfl, hc⟩) p.1)) hy, ?_⟩
    show AtLineEnd ((l.brk ++ _) ++ t ++ r)
    rw [List.append_assoc, List.append_assoc]
    exact break_lineEnd h1

theorem lineEnd_ln {A : Type} {txt : A → Str} {valid : A → Prop} {l : Ln A} (h : l.Valid valid) (t r : Str) : AtLineEnd (l.text txt ++ t ++ r) := by
  unfold Ln.text
  rw [List.append_assoc, List.append_assoc]
  exact break_lineEnd h.1

theorem blk_info [UnicodeTables] {i : InfoText} {r : Str} (h : i.Valid) (hr : Next HeaderAt r) :
    ∃ s a b, Blk skip K Peg.Sct.info_section (c!"[INFO]" ++ i.text) r [.node .info_section s (a ++ ((infoTrees i ++ scaleTrees i.scale) ++ b))] ∧
      a.map readColour = i.before.map (fun x => colourVal x.body) ∧ b.map readColour = i.after.map (fun x => colourVal x.body) ∧
      ∃ u, i.text ++ r = i.tail ++ u ∧ AtLineEnd u := by
  obtain ⟨b, b1, b2⟩ := blk_colours h.after hr fun t ht => headerAt_head ht (by decide)
  have n1 : Next (HeadNot isNumChar) (i.after.flatMap (Ln.text ColourDef.text) ++ r) :=
    next_colours h.after (hr.mono fun t ht => headerAt_head ht (by decide)) fun t => headNot_cons.2 (by decide)
  obtain ⟨q0, l0⟩ := blk_scale h.scale n1 b1
  have q1 := ln_step (seg_decimal h.variation.2.1) (decimal_first h.variation.2.1) h.variation.1 h.variation.2.2 l0 q0
  have q2 := ln_step (seg_decimal h.milesLng.2.1) (decimal_first h.milesLng.2.1) h.milesLng.1 h.milesLng.2.2 (lineEnd_ln (txt := id) h.variation _ r) q1
  have q3 := ln_step (seg_decimal h.milesLat.2.1) (decimal_first h.milesLat.2.1) h.milesLat.1 h.milesLat.2.2 (lineEnd_ln (txt := id) h.milesLng _ r) q2
  have q4 := ln_step (seg_dms h.lng.2.1) (dms_first h.lng.2.1) h.lng.1 h.lng.2.2 (lineEnd_ln (txt := id) h.milesLat _ r) q3
  have q5 := ln_step (seg_dms h.lat.2.1) (dms_first h.lat.2.1) h.lat.1 h.lat.2.2 (lineEnd_ln (txt := DmsText.text) h.lng _ r) q4
  have q6 := ln_step (seg_designator h.airport.2.1) (des_first h.airport.2.1) h.airport.1 h.airport.2.2 (lineEnd_ln (txt := DmsText.text) h.lat _ r) q5
  have q7 := ln_step (seg_callsign h.callsign.2.1) (callsign_first h.callsign.2.1) h.callsign.1 h.callsign.2.2 (lineEnd_ln (txt := id) h.airport _ r) q6
  have l7 := lineEnd_ln (txt := id) h.callsign (i.airport.text id ++
    (i.lat.text DmsText.text ++ (i.lng.text DmsText.text ++ (i.milesLat.text id ++ (i.milesLng.text id ++ (i.variation.text id ++
    (scaleText i.scale ++ i.after.flatMap (Ln.text ColourDef.text)))))))) r
  obtain ⟨c, v, ev, hc, hx⟩ := sectorName_first h.name
  have p8 := pb_of_seg (seg_sectorName h.name) l7 (k_end l7)
  have hst : Start (i.name ++ (i.callsign.text id ++ (i.airport.text id ++
    (i.lat.text DmsText.text ++ (i.lng.text DmsText.text ++ (i.milesLat.text id ++ (i.milesLng.text id ++ (i.variation.text id ++
    (scaleText i.scale ++ i.after.flatMap (Ln.text ColourDef.text)))))))) ++ r)) := start_of_k p8.2 ⟨c, v, ev, hc⟩
  have q8 := blk_nlThen h.brk (by rw [List.append_assoc]; exact hst) (blk_seq p8.1 q7)
  have n9 : Next (HeadNot (· == '#')) ((i.brk ++ (i.name ++ (i.callsign.text id ++ (i.airport.text id ++
    (i.lat.text DmsText.text ++ (i.lng.text DmsText.text ++ (i.milesLat.text id ++ (i.milesLng.text id ++ (i.variation.text id ++
    (scaleText i.scale ++ i.after.flatMap (Ln.text ColourDef.text))))))))))) ++ r) := by
    refine Or.inr ⟨i.brk, _, by rw [List.append_assoc, List.append_assoc], h.brk, hst, ?_⟩
    rw [ev]
    exact headNot_cons.2 (by simpa using hx)
  obtain ⟨a, a1, a2⟩ := blk_colours h.before n9 fun t ht => ht
  have le := (next_colours (Q := fun _ => True) h.before (n9.mono fun _ _ => trivial) fun _ => trivial).lineEnd
  have q9 := blk_seq a1 q8
  have p10 := pb_tail (x := .str c!"[INFO]") (tl := i.tail) (seg_str (by decide)) h.tail.1 le
  obtain ⟨s, q⟩ := blk_rule (q := Rule.info_section) (blk_seq (by rw [List.append_assoc]; exact p10.1) q9)
  refine ⟨s, a, b, ?_, a2, b2, _, ?_, le⟩
  · have e1 : c!"[INFO]" ++ i.text = c!"[INFO]" ++ i.tail ++ (i.before.flatMap (Ln.text ColourDef.text) ++ (i.brk ++ (i.name ++ (i.callsign.text id ++
        (i.airport.text id ++ (i.lat.text DmsText.text ++ (i.lng.text DmsText.text ++ (i.milesLat.text id ++ (i.milesLng.text id ++
        (i.variation.text id ++ (scaleText i.scale ++ i.after.flatMap (Ln.text ColourDef.text)))))))))))) := by
      unfold InfoText.text
      rw [List.append_assoc]
    have e2 : a ++ ((infoTrees i ++ scaleTrees i.scale) ++ b) = [] ++ (a ++ ([Tree.node Rule.sector_name i.name []] ++
        ([Tree.node Rule.sector_callsign i.callsign.body []] ++ ([Tree.node Rule.designator i.airport.body []] ++ ([dmsTree i.lat.body] ++
        ([dmsTree i.lng.body] ++ ([Tree.node Rule.decimal i.milesLat.body []] ++ ([Tree.node Rule.decimal i.milesLng.body []] ++
        ([Tree.node Rule.decimal i.variation.body []] ++ (scaleTrees i.scale ++ b)))))))))) := by simp [infoTrees]
    rw [e1, e2]
    exact q
  · simp [InfoText.text]

end Verif.Proofs.Sct
