import Verif.Proofs.SctInfo
/-!
# Whole .sct files
-/

namespace Verif.Proofs.Sct
open Verif.Proofs Verif.Peg Verif.Spec Verif.Spec.Sct Verif.Dms Verif.Parse
open Verif.Spec.Ese (DmsText Fits number)
open Verif.Colours (Colour)
open Verif.Peg.Sct (Rule skip)
open Verif.Parse.Sct (parseColourDefinition storeColour parseInfoSection entries parseSection parseSections SectionName Section assemble zero)

set_option linter.unusedSectionVars false

/-! ## The alternatives -/

def ApartHdr (a b : Str) : Prop := ¬ a <+: b ∧ ¬ b <+: a

instance (a b : Str) : Decidable (ApartHdr a b) := inferInstanceAs (Decidable (_ ∧ _))

theorem not_prefix_hdr {k w t : Str} (h : ApartHdr k w) : ¬ k <+: w ++ t := fun hp => by
  rcases List.prefix_or_prefix_of_prefix hp (List.prefix_append w t) with h' | h'
  · exact h.1 h'
  · exact h.2 h'

theorem fails_hdr {q : Rule} {k w t r : Str} {y : Expr Rule} (h : ApartHdr k w) :
    Fails skip (.rule q .normal ((.str k) ⬝ y)) .nonAtomic (w ++ t ++ r) :=
  fails_rule (fails_seq_left (fails_str.2 (by rw [List.append_assoc]; exact not_prefix_hdr h)))

theorem fails_hdrs {q : Rule} {k k' w t r : Str} {y : Expr Rule} (h : ApartHdr k w) (h' : ApartHdr k' w) :
    Fails skip (.rule q .normal (((.str k) ∥ (.str k')) ⬝ y)) .nonAtomic (w ++ t ++ r) :=
  fails_rule (fails_seq_left ((fails_alt_iff (hu _ _ rfl)).2 ⟨fails_str.2 (by rw [List.append_assoc]; exact not_prefix_hdr h),
    fails_str.2 (by rw [List.append_assoc]; exact not_prefix_hdr h')⟩))

macro "choose_section" h:ident : tactic => `(tactic| repeat (first
  | exact blk_alt_left $h
  | refine blk_alt_right (fails_hdr (by decide)) ?_
  | refine blk_alt_right (fails_hdrs (by decide) (by decide)) ?_))

/-! ## A section -/

section
variable {A V : Type} {e : Expr Rule} {f : Tree Rule → Run (Option V)} {txt : A → Str} {valid : A → Prop} {fits : A → Prop} [DecidablePred fits]
    {value : A → V} {broken : Str → Prop} {needs : A → Prop} {Q : Str → Prop}

theorem section_of (L : Lists e f txt valid fits value broken needs Q) (q : Rule) {hx : Expr Rule} {hdr : Str} (hh : S Stop hx hdr []) {b : Block A} {r : Str}
    (h : b.Valid valid broken) (hr : Next HeaderAt r) (hn : ∀ brk a, b.lines.getLast? = some (.entry brk a) → needs a → r ≠ []) :
    (∃ r1 r2 s ts, r = r1 ++ r2 ∧ (r1 = [] ∨ (r2 = [] ∧ ¬ More r)) ∧
      Blk skip K (.rule q .normal (hx ⬝ .star (lineExpr e))) (hdr ++ (b.text txt ++ r1)) r2 [.node q s ts] ∧
      ∀ cs, entries f cs ts = gated (b.Fits fits) (b.entries.map value, addColours cs b.colours)) ∧
    ∃ u, b.text txt ++ r = b.tail ++ u ∧ AtLineEnd u := by
  obtain ⟨r1, r2, ts, rfl, h1, h2, h3, h4⟩ := L.block h.2 hr hn
  have p := pb_tail (tl := b.tail) hh h.1.1 h3
  have hb := blk_seq (t2 := b.lines.flatMap (Line.text txt) ++ r1) (by rw [List.append_assoc]; exact p.1) h2
  obtain ⟨s, hb⟩ := blk_rule (q := q) hb
  refine ⟨⟨r1, r2, s, ts, rfl, h1, ?_, h4⟩, _, ?_, h3⟩
  · have e : hdr ++ (b.text txt ++ r1) = hdr ++ b.tail ++ (b.lines.flatMap (Line.text txt) ++ r1) := by simp [Block.text]
    rw [e]
    exact hb
  · simp [Block.text]
end

section
variable {F : Type} [DmsArith F] (num : Str → F) [DecidableEq F]

/-- What a section contributes. -/
def secOut : Sect → SectionName × Section F
  | .info i => (.info, .info (i.value num))
  | .vors b => (.vors, .vors (b.entries.map (·.body.value num)))
  | .ndbs b => (.ndbs, .ndbs (b.entries.map (·.body.value num)))
  | .fixes b => (.fixes, .fixes (b.entries.map (·.body.value num)))
  | .airports b => (.airport, .airport (b.entries.map (·.body.value num)))
  | .runways b => (.runways, .runways (b.entries.map (·.value num)))
  | .drawings .sid b => (.sid, .sid (b.entries.map (·.value num)))
  | .drawings .star b => (.star, .star (b.entries.map (·.value num)))
  | .drawings .artccHigh b => (.artccHigh, .artccHigh (b.entries.map (·.value num)))
  | .drawings .artcc b => (.artcc, .artcc (b.entries.map (·.value num)))
  | .drawings .artccLow b => (.artccLow, .artccLow (b.entries.map (·.value num)))
  | .drawings .geo b => (.geo, .geo (b.entries.map (·.value num)))
  | .highAirways b => (.highAirway, .highAirways (b.entries.map (·.body.value num)))
  | .lowAirways b => (.lowAirway, .lowAirways (b.entries.map (·.body.value num)))
  | .regions _ b => (.regions, .regions (b.entries.map (·.value num)))
  | .labels b => (.labels, .labels (b.entries.map (·.body.value num)))
end

section
variable {F : Type} [F64 F] [DmsArith F] [DecidableEq F] [UnicodeTables] (num : Str → F) (hnum : ∀ s, IsDecimal s → F64.ofText s = some (num s))

/-- How a section is read. -/
def SecRead (s : Sect) (r : Str) : Prop :=
  (∃ r1 r2 t, r = r1 ++ r2 ∧ (r1 = [] ∨ (r2 = [] ∧ ¬ More r)) ∧ Blk skip K Peg.Sct.section_ (s.text ++ r1) r2 [t] ∧ t.asRule ≠ .colour_definition ∧
    ∀ cs, parseSection (F := F) t cs = gated s.Fits (secOut num s, addColours cs s.colours)) ∧
  ∃ tl u, s.body ++ r = tl ++ u ∧ IsHeaderTail tl ∧ AtLineEnd u

theorem secRead_of {s : Sect} {r r1 r2 : Str} {t : Tree Rule} (h1 : r = r1 ++ r2) (h2 : r1 = [] ∨ (r2 = [] ∧ ¬ More r))
    (h3 : Blk skip K Peg.Sct.section_ (s.header ++ (s.body ++ r1)) r2 [t]) (h4 : t.asRule ≠ .colour_definition)
    (h5 : ∀ cs, parseSection (F := F) t cs = gated s.Fits (secOut num s, addColours cs s.colours))
    (h6 : ∃ tl u, s.body ++ r = tl ++ u ∧ IsHeaderTail tl ∧ AtLineEnd u) : SecRead num s r := by
  refine ⟨⟨r1, r2, t, h1, h2, ?_, h4, h5⟩, h6⟩
  unfold Sect.text
  rw [List.append_assoc]
  exact h3

include hnum in
theorem blk_section {s : Sect} {r : Str} (h : s.Valid) (hr : Next HeaderAt r) (hn : s.NeedsEnd → r ≠ []) : SecRead num s r := by
  cases s with
  | info i =>
    obtain ⟨s, a, b, hb, ha, hb', u, e, hu'⟩ := blk_info (i := i) h hr
    refine secRead_of num (r1 := []) (r2 := r) rfl (Or.inl rfl) (t := .node .info_section s (a ++ ((infoTrees i ++ scaleTrees i.scale) ++ b))) ?_
      (fun h => Rule.noConfusion h) (fun cs => ?_) ⟨i.tail, u, e, InfoText.Valid.tail h, hu'⟩
    · rw [List.append_nil]
      exact blk_alt_left hb
    · show (parseInfoSection (F := F) _ cs).bind _ = _
      rw [read_info num hnum h ha hb' s cs]
      exact gated_ok rfl
  | vors b =>
    obtain ⟨⟨r1, r2, s, ts, e1, e2, hb, hp⟩, u, e3, hu'⟩ := section_of (lists_vor num hnum) .vor_section (hx := .str c!"[VOR]") (hdr := c!"[VOR]")
      (seg_str (by decide)) (b := b) h hr (fun _ _ _ h => h.elim)
    refine secRead_of num e1 e2 ?_ (t := .node .vor_section s ts) (fun h => Rule.noConfusion h) (fun cs => ?_) ⟨b.tail, u, e3, h.1, hu'⟩
    · show Blk skip K _ (c!"[VOR]" ++ _) _ _
      choose_section hb
    · show (entries _ cs ts).bind _ = _
      rw [hp cs]
      exact gated_ok rfl
  | ndbs b =>
    obtain ⟨⟨r1, r2, s, ts, e1, e2, hb, hp⟩, u, e3, hu'⟩ := section_of (lists_ndb num hnum) .ndb_section (hx := .str c!"[NDB]") (hdr := c!"[NDB]")
      (seg_str (by decide)) (b := b) h hr (fun _ _ _ h => h.elim)
    refine secRead_of num e1 e2 ?_ (t := .node .ndb_section s ts) (fun h => Rule.noConfusion h) (fun cs => ?_) ⟨b.tail, u, e3, h.1, hu'⟩
    · show Blk skip K _ (c!"[NDB]" ++ _) _ _
      choose_section hb
    · show (entries _ cs ts).bind _ = _
      rw [hp cs]
      exact gated_ok rfl
  | fixes b =>
    obtain ⟨⟨r1, r2, s, ts, e1, e2, hb, hp⟩, u, e3, hu'⟩ := section_of (lists_fixes num hnum) .fixes_section (hx := .str c!"[FIXES]") (hdr := c!"[FIXES]")
      (seg_str (by decide)) (b := b) h hr (fun _ _ _ h => h.elim)
    refine secRead_of num e1 e2 ?_ (t := .node .fixes_section s ts) (fun h => Rule.noConfusion h) (fun cs => ?_) ⟨b.tail, u, e3, h.1, hu'⟩
    · show Blk skip K _ (c!"[FIXES]" ++ _) _ _
      choose_section hb
    · show (entries _ cs ts).bind _ = _
      rw [hp cs]
      exact gated_ok rfl
  | airports b =>
    obtain ⟨⟨r1, r2, s, ts, e1, e2, hb, hp⟩, u, e3, hu'⟩ := section_of (lists_airports num hnum) .airport_section (hx := .str c!"[AIRPORT]") (hdr := c!"[AIRPORT]")
      (seg_str (by decide)) (b := b) h hr (fun _ _ _ h => h.elim)
    refine secRead_of num e1 e2 ?_ (t := .node .airport_section s ts) (fun h => Rule.noConfusion h) (fun cs => ?_) ⟨b.tail, u, e3, h.1, hu'⟩
    · show Blk skip K _ (c!"[AIRPORT]" ++ _) _ _
      choose_section hb
    · show (entries _ cs ts).bind _ = _
      rw [hp cs]
      exact gated_ok rfl
  | runways b =>
    obtain ⟨⟨r1, r2, s, ts, e1, e2, hb, hp⟩, u, e3, hu'⟩ := section_of (lists_runways num hnum) .runway_section (hx := .str c!"[RUNWAY]") (hdr := c!"[RUNWAY]")
      (seg_str (by decide)) (b := b) h hr (fun _ _ _ h => h.elim)
    refine secRead_of num e1 e2 ?_ (t := .node .runway_section s ts) (fun h => Rule.noConfusion h) (fun cs => ?_) ⟨b.tail, u, e3, h.1, hu'⟩
    · show Blk skip K _ (c!"[RUNWAY]" ++ _) _ _
      choose_section hb
    · show (entries _ cs ts).bind _ = _
      rw [hp cs]
      exact gated_ok rfl
  | drawings k b =>
    have hneed : ∀ brk a, b.lines.getLast? = some (.entry brk a) → a.more = [] → r ≠ [] := fun brk a h1 h2 => hn ⟨brk, a, h1, h2⟩
    cases k with
    | sid =>
      obtain ⟨⟨r1, r2, s, ts, e1, e2, hb, hp⟩, u, e3, hu'⟩ := section_of (lists_drawings num hnum) .sid_section (hx := .str c!"[SID]") (hdr := c!"[SID]")
        (seg_str (by decide)) (b := b) h hr hneed
      refine secRead_of num e1 e2 ?_ (t := .node .sid_section s ts) (fun h => Rule.noConfusion h) (fun cs => ?_) ⟨b.tail, u, e3, h.1, hu'⟩
      · show Blk skip K _ (c!"[SID]" ++ _) _ _
        choose_section hb
      · show (entries _ cs ts).bind _ = _
        rw [hp cs]
        exact gated_ok rfl
    | star =>
      obtain ⟨⟨r1, r2, s, ts, e1, e2, hb, hp⟩, u, e3, hu'⟩ := section_of (lists_drawings num hnum) .star_section (hx := .str c!"[STAR]") (hdr := c!"[STAR]")
        (seg_str (by decide)) (b := b) h hr hneed
      refine secRead_of num e1 e2 ?_ (t := .node .star_section s ts) (fun h => Rule.noConfusion h) (fun cs => ?_) ⟨b.tail, u, e3, h.1, hu'⟩
      · show Blk skip K _ (c!"[STAR]" ++ _) _ _
        choose_section hb
      · show (entries _ cs ts).bind _ = _
        rw [hp cs]
        exact gated_ok rfl
    | artccHigh =>
      obtain ⟨⟨r1, r2, s, ts, e1, e2, hb, hp⟩, u, e3, hu'⟩ := section_of (lists_drawings num hnum) .artcc_high_section (hx := .str c!"[ARTCC HIGH]")
        (hdr := c!"[ARTCC HIGH]") (seg_str (by decide)) (b := b) h hr hneed
      refine secRead_of num e1 e2 ?_ (t := .node .artcc_high_section s ts) (fun h => Rule.noConfusion h) (fun cs => ?_) ⟨b.tail, u, e3, h.1, hu'⟩
      · show Blk skip K _ (c!"[ARTCC HIGH]" ++ _) _ _
        choose_section hb
      · show (entries _ cs ts).bind _ = _
        rw [hp cs]
        exact gated_ok rfl
    | artcc =>
      obtain ⟨⟨r1, r2, s, ts, e1, e2, hb, hp⟩, u, e3, hu'⟩ := section_of (lists_drawings num hnum) .artcc_section (hx := .str c!"[ARTCC]")
        (hdr := c!"[ARTCC]") (seg_str (by decide)) (b := b) h hr hneed
      refine secRead_of num e1 e2 ?_ (t := .node .artcc_section s ts) (fun h => Rule.noConfusion h) (fun cs => ?_) ⟨b.tail, u, e3, h.1, hu'⟩
      · show Blk skip K _ (c!"[ARTCC]" ++ _) _ _
        choose_section hb
      · show (entries _ cs ts).bind _ = _
        rw [hp cs]
        exact gated_ok rfl
    | artccLow =>
      obtain ⟨⟨r1, r2, s, ts, e1, e2, hb, hp⟩, u, e3, hu'⟩ := section_of (lists_drawings num hnum) .artcc_low_section (hx := .str c!"[ARTCC LOW]")
        (hdr := c!"[ARTCC LOW]") (seg_str (by decide)) (b := b) h hr hneed
      refine secRead_of num e1 e2 ?_ (t := .node .artcc_low_section s ts) (fun h => Rule.noConfusion h) (fun cs => ?_) ⟨b.tail, u, e3, h.1, hu'⟩
      · show Blk skip K _ (c!"[ARTCC LOW]" ++ _) _ _
        choose_section hb
      · show (entries _ cs ts).bind _ = _
        rw [hp cs]
        exact gated_ok rfl
    | geo =>
      obtain ⟨⟨r1, r2, s, ts, e1, e2, hb, hp⟩, u, e3, hu'⟩ := section_of (lists_drawings num hnum) .geo_section (hx := .str c!"[GEO]")
        (hdr := c!"[GEO]") (seg_str (by decide)) (b := b) h hr hneed
      refine secRead_of num e1 e2 ?_ (t := .node .geo_section s ts) (fun h => Rule.noConfusion h) (fun cs => ?_) ⟨b.tail, u, e3, h.1, hu'⟩
      · show Blk skip K _ (c!"[GEO]" ++ _) _ _
        choose_section hb
      · show (entries _ cs ts).bind _ = _
        rw [hp cs]
        exact gated_ok rfl
  | highAirways b =>
    obtain ⟨⟨r1, r2, s, ts, e1, e2, hb, hp⟩, u, e3, hu'⟩ := section_of (lists_airways num hnum) .high_airway_section (hx := .str c!"[HIGH AIRWAY]")
      (hdr := c!"[HIGH AIRWAY]") (seg_str (by decide)) (b := b) h hr (fun _ _ _ h => h.elim)
    refine secRead_of num e1 e2 ?_ (t := .node .high_airway_section s ts) (fun h => Rule.noConfusion h) (fun cs => ?_) ⟨b.tail, u, e3, h.1, hu'⟩
    · show Blk skip K _ (c!"[HIGH AIRWAY]" ++ _) _ _
      choose_section hb
    · show (entries _ cs ts).bind _ = _
      rw [hp cs]
      exact gated_ok rfl
  | lowAirways b =>
    obtain ⟨⟨r1, r2, s, ts, e1, e2, hb, hp⟩, u, e3, hu'⟩ := section_of (lists_airways num hnum) .low_airway_section (hx := .str c!"[LOW AIRWAY]")
      (hdr := c!"[LOW AIRWAY]") (seg_str (by decide)) (b := b) h hr (fun _ _ _ h => h.elim)
    refine secRead_of num e1 e2 ?_ (t := .node .low_airway_section s ts) (fun h => Rule.noConfusion h) (fun cs => ?_) ⟨b.tail, u, e3, h.1, hu'⟩
    · show Blk skip K _ (c!"[LOW AIRWAY]" ++ _) _ _
      choose_section hb
    · show (entries _ cs ts).bind _ = _
      rw [hp cs]
      exact gated_ok rfl
  | regions c b =>
    cases c with
    | false =>
      obtain ⟨⟨r1, r2, s, ts, e1, e2, hb, hp⟩, u, e3, hu'⟩ := section_of (lists_regions num hnum) .region_section (hx := (.str c!"[Regions]") ∥ (.str c!"[REGIONS]"))
        (hdr := c!"[Regions]") (seg_alt_left (seg_str (by decide))) (b := b) h hr (fun _ _ _ h => h.elim)
      refine secRead_of num e1 e2 ?_ (t := .node .region_section s ts) (fun h => Rule.noConfusion h) (fun cs => ?_) ⟨b.tail, u, e3, h.1, hu'⟩
      · show Blk skip K _ (c!"[Regions]" ++ _) _ _
        choose_section hb
      · show (entries _ cs ts).bind _ = _
        rw [hp cs]
        exact gated_ok rfl
    | true =>
      obtain ⟨⟨r1, r2, s, ts, e1, e2, hb, hp⟩, u, e3, hu'⟩ := section_of (lists_regions num hnum) .region_section (hx := (.str c!"[Regions]") ∥ (.str c!"[REGIONS]"))
        (hdr := c!"[REGIONS]") (seg_alt_right (fun r _ => fails_str.2 (not_prefix_hdr (by decide))) (seg_str (by decide))) (b := b) h hr (fun _ _ _ h => h.elim)
      refine secRead_of num e1 e2 ?_ (t := .node .region_section s ts) (fun h => Rule.noConfusion h) (fun cs => ?_) ⟨b.tail, u, e3, h.1, hu'⟩
      · show Blk skip K _ (c!"[REGIONS]" ++ _) _ _
        choose_section hb
      · show (entries _ cs ts).bind _ = _
        rw [hp cs]
        exact gated_ok rfl
  | labels b =>
    obtain ⟨⟨r1, r2, s, ts, e1, e2, hb, hp⟩, u, e3, hu'⟩ := section_of (lists_labels num hnum) .labels_section (hx := .str c!"[LABELS]") (hdr := c!"[LABELS]")
      (seg_str (by decide)) (b := b) h hr (fun _ _ _ h => h.elim)
    refine secRead_of num e1 e2 ?_ (t := .node .labels_section s ts) (fun h => Rule.noConfusion h) (fun cs => ?_) ⟨b.tail, u, e3, h.1, hu'⟩
    · show Blk skip K _ (c!"[LABELS]" ++ _) _ _
      choose_section hb
    · show (entries _ cs ts).bind _ = _
      rw [hp cs]
      exact gated_ok rfl

theorem secRead_header {s : Sect} {r : Str} (h : SecRead num s r) : HeaderAt (s.text ++ r) ∧ s.text ++ r ≠ [] := by
  obtain ⟨_, tl, u, e, h1, h2⟩ := h
  refine ⟨Or.inr ⟨s, tl, u, ?_, h1, h2⟩, ?_⟩
  · rw [← e]; simp [Sect.text]
  · obtain ⟨t, e⟩ := header_bracket s
    simp [Sect.text, e]

/-! ## The sections of a file -/

theorem parseSections_colour {t : Tree Rule} (h : t.asRule = .colour_definition) (ts : List (Tree Rule)) (cs : Map Str Colour) :
    parseSections (F := F) cs (t :: ts) = (storeColour cs t).bind fun c => parseSections c ts := by
  conv => lhs; unfold parseSections
  rw [if_pos h]
  rfl

theorem parseSections_section {t : Tree Rule} (h : t.asRule ≠ .colour_definition) (ts : List (Tree Rule)) (cs : Map Str Colour) :
    parseSections (F := F) cs (t :: ts) = (parseSection t cs).bind fun p => (parseSections p.2 ts).bind fun q => .ok (p.1 :: q.1, q.2) := by
  conv => lhs; unfold parseSections
  rw [if_neg h]
  rfl

theorem parseSections_append : ∀ (a b : List (Tree Rule)) (cs : Map Str Colour), parseSections (F := F) cs (a ++ b) =
    (parseSections cs a).bind fun p => (parseSections p.2 b).bind fun q => .ok (p.1 ++ q.1, q.2)
  | [], b, cs => by
    show parseSections cs b = (parseSections cs b).bind fun q => .ok ([] ++ q.1, q.2)
    cases parseSections (F := F) cs b <;> rfl
  | t :: a, b, cs => by
    rw [List.cons_append]
    by_cases h : t.asRule = .colour_definition
    · rw [parseSections_colour h, parseSections_colour h]
      cases storeColour cs t with
      | error e => rfl
      | ok cs' => exact parseSections_append a b cs'
    · rw [parseSections_section h, parseSections_section h]
      cases parseSection (F := F) t cs with
      | error e => rfl
      | ok p =>
        show (parseSections p.2 (a ++ b)).bind _ = ((parseSections p.2 a).bind _).bind _
        rw [parseSections_append a b p.2]
        cases parseSections (F := F) p.2 a with
        | error e => rfl
        | ok q =>
          show ((parseSections q.2 b).bind _).bind _ = (parseSections q.2 b).bind _
          cases parseSections (F := F) q.2 b with
          | error e => rfl
          | ok w => rfl

/-- A text of lines with sections and colours, and what they are read as. -/
def Rest (t : Str) (R : Map Str Colour → Run (List (SectionName × Section F) × Map Str Colour)) : Prop :=
  ∃ r bs, (r = [] ∨ IsBreak r) ∧ Blks skip K (Base.NL ⬝ Peg.Sct.section_) bs r ∧ t = bs.flatMap (·.1) ++ r ∧
    ∀ cs, parseSections cs (bs.flatMap (·.2)) = R cs

theorem rest_cons {brk v x : Str} {t : Tree Rule} {R R' : Map Str Colour → Run (List (SectionName × Section F) × Map Str Colour)} (hb : IsBreak brk)
    (hs : Start (v ++ x)) (h1 : Blk skip K Peg.Sct.section_ v x [t]) (h2 : Rest x R)
    (h3 : ∀ ts, (∀ cs, parseSections cs ts = R cs) → ∀ cs, parseSections cs (t :: ts) = R' cs) : Rest (brk ++ (v ++ x)) R' := by
  obtain ⟨r, bs, hr, hbs, rfl, hp⟩ := h2
  refine ⟨r, (brk ++ v, [t]) :: bs, hr, ⟨blk_nlThen hb hs h1, hbs⟩, by simp, fun cs => ?_⟩
  rw [List.flatMap_cons]
  exact h3 _ hp cs

def secText (l : List (Str × Sect)) : Str := l.flatMap fun s => s.1 ++ s.2.text

def secsRead (l : List (Str × Sect)) (cs : Map Str Colour) : Run (List (SectionName × Section F) × Map Str Colour) :=
  gated (∀ p ∈ l, p.2.Fits) (l.map (fun p => secOut num p.2), addColours cs (l.flatMap (·.2.colours)))

theorem read_sec {s : Sect} {l : List (Str × Sect)} {brk : Str} {t : Tree Rule} (ht : t.asRule ≠ .colour_definition)
    (h : ∀ cs, parseSection (F := F) t cs = gated s.Fits (secOut num s, addColours cs s.colours)) {ts : List (Tree Rule)}
    (hts : ∀ cs, parseSections cs ts = secsRead num l cs) (cs : Map Str Colour) : parseSections cs (t :: ts) = secsRead num ((brk, s) :: l) cs := by
  unfold parseSections
  rw [if_neg ht]
  show (parseSection t cs).bind _ = _
  rw [h cs]
  refine (gated_bind (q := ∀ p ∈ l, p.2.Fits) (w := (secOut num s :: l.map (fun p => secOut num p.2), addColours cs (s.colours ++ l.flatMap (·.2.colours)))) ?_).trans
    (gated_congr (by simp) (by simp))
  show (parseSections (addColours cs s.colours) ts).bind _ = _
  rw [hts, addColours_append]
  exact gated_ok rfl

include hnum in
/-- A section without the line ends in front of it, and the rest of the file. -/
theorem first_section {s : Sect} {l : List (Str × Sect)} {last : Str} (h : s.Valid) (hn : l = [] → last = [] → ¬ s.NeedsEnd)
    (hl : Rest (secText l ++ last) (secsRead (F := F) num l) ∧ Next HeaderAt (secText l ++ last) ∧ (l ≠ [] → More (secText l ++ last))) :
    ∃ v x t, s.text ++ (secText l ++ last) = v ++ x ∧ Blk skip K Peg.Sct.section_ v x [t] ∧ Rest x (secsRead (F := F) num l) ∧ t.asRule ≠ .colour_definition ∧
      (∀ cs, parseSection (F := F) t cs = gated s.Fits (secOut num s, addColours cs s.colours)) ∧ HeaderAt (v ++ x) ∧ v ++ x ≠ [] := by
  obtain ⟨hre, hnx, hmo⟩ := hl
  have hneed : s.NeedsEnd → secText l ++ last ≠ [] := by
    intro hne e
    by_cases hl : l = []
    · subst hl
      exact hn rfl e hne
    · obtain ⟨brk, t, e', hb, _⟩ := hmo hl
      rw [e] at e'
      have := break_ne hb
      simp at e'
      exact this e'.1
  have hs := blk_section num hnum h hnx hneed
  have hh := secRead_header num hs
  obtain ⟨⟨r1, r2, t, e1, e2, h1, h2, h3⟩, _⟩ := hs
  refine ⟨s.text ++ r1, r2, t, by rw [e1]; simp, h1, ?_, h2, h3, ?_⟩
  · rcases e2 with rfl | ⟨rfl, hm⟩
    · rw [List.nil_append] at e1
      rw [← e1]
      exact hre
    · have : l = [] := Classical.byContradiction fun hx => hm (hmo hx)
      subst this
      exact ⟨[], [], Or.inl rfl, trivial, rfl, fun cs => (gated_true (by simp)).symm⟩
  · rw [List.append_assoc, ← e1]
    exact hh

include hnum in
theorem rest_sections {last : Str} (hlast : last = [] ∨ IsBreak last) : ∀ {l : List (Str × Sect)}, (∀ p ∈ l, IsBreak p.1 ∧ p.2.Valid) →
    (last = [] → ∀ p, l.getLast? = some p → ¬ p.2.NeedsEnd) →
    Rest (secText l ++ last) (secsRead (F := F) num l) ∧ Next HeaderAt (secText l ++ last) ∧ (l ≠ [] → More (secText l ++ last))
  | [], _, _ => by
    refine ⟨⟨last, [], hlast, trivial, rfl, fun cs => (gated_true (by simp)).symm⟩, ?_, fun h => absurd rfl h⟩
    rcases hlast with rfl | hb
    · exact Or.inl rfl
    · exact Or.inr ⟨last, [], by simp [secText], hb, start_nil, Or.inl rfl⟩
  | (brk, s) :: l, h, hn => by
    have ih := rest_sections hlast (l := l) (fun p hp => h p (List.mem_cons_of_mem _ hp)) fun e p hp => by
      cases l with
      | nil => cases hp
      | cons y l => exact hn e p (by rw [List.getLast?_cons_cons]; exact hp)
    obtain ⟨hb, hv⟩ := h _ List.mem_cons_self
    obtain ⟨v, x, t, e, h1, h2, h3, h4, h5, h6⟩ := first_section num hnum hv (fun el e => by subst el; exact hn e _ rfl) ih
    have et : secText ((brk, s) :: l) ++ last = brk ++ (v ++ x) := by
      rw [← e]
      simp [secText]
    rw [et]
    exact ⟨rest_cons hb (headerAt_start h5) h1 h2 fun ts hts cs => read_sec num h3 h4 hts cs, Or.inr ⟨brk, v ++ x, rfl, hb, headerAt_start h5, h5⟩,
      fun _ => ⟨brk, v ++ x, rfl, hb, headerAt_start h5, h5, h6⟩⟩

/-! ## Colours outside of sections -/

theorem fails_str_head {q : Rule} {k : Str} {y : Expr Rule} {r : Str} (h : r.head? ≠ k.head?) (hk : k ≠ []) :
    Fails skip (.rule q .normal ((.str k) ⬝ y)) .nonAtomic r := by
  refine fails_rule (fails_seq_left (fails_str.2 ?_))
  rintro ⟨t, rfl⟩
  cases k with
  | nil => exact hk rfl
  | cons c k => exact h rfl

/-- Sections start with a bracket. -/
theorem fails_sections {r : Str} (h : r.head? ≠ some '[') {y : Expr Rule} (hy : Fails skip y .nonAtomic r) (_hp : plain y = true) :
    Fails skip (Peg.Sct.info_section ∥ Peg.Sct.vor_section ∥ Peg.Sct.ndb_section ∥ Peg.Sct.fixes_section ∥ Peg.Sct.airport_section ∥ Peg.Sct.runway_section ∥
      Peg.Sct.sid_section ∥ Peg.Sct.star_section ∥ Peg.Sct.artcc_high_section ∥ Peg.Sct.artcc_section ∥ Peg.Sct.artcc_low_section ∥
      Peg.Sct.high_airway_section ∥ Peg.Sct.low_airway_section ∥ Peg.Sct.region_section ∥ Peg.Sct.labels_section ∥ Peg.Sct.geo_section ∥ y) .nonAtomic r := by
  repeat
    first
    | exact hy
    | refine (fails_alt_iff (hu _ _ rfl)).2 ⟨fails_str_head h (by simp), ?_⟩
    | refine (fails_alt_iff (hu _ _ rfl)).2 ⟨fails_rule (fails_seq_left ((fails_alt_iff (hu _ _ rfl)).2 ⟨fails_str.2 fun ⟨t, e⟩ => h (by rw [← e]; rfl),
        fails_str.2 fun ⟨t, e⟩ => h (by rw [← e]; rfl)⟩)), ?_⟩

theorem fails_section {r : Str} (h : HeadNot (fun c => c == '[' || c == '#') r) : Fails skip Peg.Sct.section_ .nonAtomic r := by
  refine fails_sections ?_ (fails_colourDef ?_) (by rfl)
  · intro e
    have := h '[' e
    exact absurd this (by decide)
  · intro c hc
    have := h c hc
    simp only [Bool.or_eq_false_iff] at this
    exact this.2

theorem blk_colourSection {d : ColourDef} {tl r : Str} (h : d.Valid) (ht : IsTail tl) (hr : AtLineEnd r) :
    ∃ t, P Peg.Sct.section_ (d.text ++ tl) r [t] ∧ t.asRule = .colour_definition ∧ parseColourDefinition t = gated d.Fits (d.colour.map fun c => (d.name, c)) := by
  obtain ⟨t, h1, h2, h3⟩ := entry_colour h ht hr
  refine ⟨t, ?_, h2, h3⟩
  have hb : d.text ++ tl ++ r ≠ [] ∧ (d.text ++ tl ++ r).head? ≠ some '[' := by
    obtain ⟨u, e⟩ := colour_first d
    rw [e]
    exact ⟨by simp, by simp⟩
  repeat
    first
    | exact h1
    | refine pb_alt_right (fails_str_head hb.2 (by simp)) ?_
    | refine pb_alt_right (fails_rule (fails_seq_left ((fails_alt_iff (hu _ _ rfl)).2 ⟨fails_str.2 fun ⟨t, e⟩ => hb.2 (by rw [← e]; rfl),
        fails_str.2 fun ⟨t, e⟩ => hb.2 (by rw [← e]; rfl)⟩))) ?_

/-- Reading colours and sections. -/
def allRead (o : List (Ln ColourDef)) (l : List (Str × Sect)) (cs : Map Str Colour) : Run (List (SectionName × Section F) × Map Str Colour) :=
  gated ((∀ x ∈ o, x.body.Fits) ∧ ∀ p ∈ l, p.2.Fits)
    (l.map (fun p => secOut num p.2), addColours cs (o.map (·.body) ++ l.flatMap (·.2.colours)))

theorem read_outer {a : Ln ColourDef} {o : List (Ln ColourDef)} {l : List (Str × Sect)} {t : Tree Rule} (ht : t.asRule = .colour_definition)
    (h : parseColourDefinition t = gated a.body.Fits (a.body.colour.map fun c => (a.body.name, c))) {ts : List (Tree Rule)}
    (hts : ∀ cs, parseSections cs ts = allRead (F := F) num o l cs) (cs : Map Str Colour) : parseSections cs (t :: ts) = allRead num (a :: o) l cs := by
  unfold parseSections
  rw [if_pos ht]
  show (storeColour cs t).bind _ = _
  have e : storeColour cs t = gated a.body.Fits (addColours cs [a.body]) := by
    unfold storeColour
    show (parseColourDefinition t).bind _ = _
    rw [h]
    unfold gated addColours
    by_cases hd : a.body.Fits
    · rw [if_pos hd, if_pos hd]
      cases hc : a.body.colour with
      | none => simp [Except.bind, hc]
      | some c => simp [Except.bind, hc]
    · rw [if_neg hd, if_neg hd]
      rfl
  rw [e]
  refine (gated_bind (q := (∀ x ∈ o, x.body.Fits) ∧ ∀ p ∈ l, p.2.Fits) (w := (l.map (fun p => secOut num p.2),
    addColours cs ([a.body] ++ (o.map (·.body) ++ l.flatMap (·.2.colours))))) ?_).trans
    (gated_congr (by simp [and_assoc]) (by simp))
  rw [hts, addColours_append]
  rfl

theorem rest_outer {r : Str} {l : List (Str × Sect)} (hr : Rest r (allRead (F := F) num [] l)) (hle : AtLineEnd r) : ∀ {o : List (Ln ColourDef)},
    (∀ x ∈ o, x.Valid ColourDef.Valid) →
    Rest (o.flatMap (Ln.text ColourDef.text) ++ r) (allRead (F := F) num o l) ∧ AtLineEnd (o.flatMap (Ln.text ColourDef.text) ++ r)
  | [], _ => ⟨hr, hle⟩
  | a :: o, h => by
    obtain ⟨i1, i2⟩ := rest_outer hr hle (o := o) fun x hx => h x (List.mem_cons_of_mem _ hx)
    obtain ⟨h1, h2, h3⟩ := h a List.mem_cons_self
    obtain ⟨t, p, q1, q2⟩ := blk_colourSection h2 h3 i2
    obtain ⟨u, e⟩ := colour_first a.body
    have et : (a :: o).flatMap (Ln.text ColourDef.text) ++ r = a.brk ++ (a.body.text ++ a.tail ++ (o.flatMap (Ln.text ColourDef.text) ++ r)) := by simp [Ln.text]
    rw [et]
    exact ⟨rest_cons h1 (start_of_k p.2 ⟨'#', u ++ a.tail, by rw [e]; rfl, by decide⟩) p.1 i1 fun ts hts cs => read_outer num q1 q2 hts cs, break_lineEnd h1⟩

/-! ## Files -/

theorem out_then {x y : Expr Rule} {t1 t2 : Str} {u1 u2 : List (Tree Rule)} (h1 : Blk skip K x t1 t2 u1) (h2 : Out skip K y .nonAtomic t2 [] u2) :
    Out skip K (x ⬝ y) .nonAtomic (t1 ++ t2) [] (u1 ++ u2) := by
  obtain ⟨s, m, rfl, o, k⟩ := h1
  exact ⟨s, m, t2, u1, u2, by simp, by simpa using k, by simpa using o, h2, rfl⟩

theorem out_rest {t : Str} {R : Map Str Colour → Run (List (SectionName × Section F) × Map Str Colour)} (h : Rest t R) :
    ∃ ts, Out skip K ((.star (Base.NL ⬝ Peg.Sct.section_)) ⬝ (.opt Base.NL) ⬝ (.eoi .EOI)) .nonAtomic t [] (ts ++ [Tree.node Rule.EOI [] []]) ∧
      ∀ cs, parseSections cs ts = R cs := by
  obtain ⟨r, bs, hr, hbs, rfl, hp⟩ := h
  refine ⟨_, ?_, hp⟩
  have hnx : Next (fun t => t = []) r := by
    rcases hr with rfl | hb
    · exact Or.inl rfl
    · exact Or.inr ⟨r, [], by simp, hb, start_nil, rfl⟩
  have hst := blk_star lineSkip.exact (hu _ _ rfl) hbs (fails_next (by rfl) hnx fun t ht => by subst ht; exact fails_section (headNot_nil _)) (k_end hnx.lineEnd)
  refine out_then hst ?_
  have eoi : Out skip K (.eoi Rule.EOI) .nonAtomic [] [] [Tree.node Rule.EOI [] []] := ⟨rfl, rfl, rfl⟩
  rcases hr with rfl | hb
  · exact out_then (t1 := []) (u1 := []) (blk_opt_none fails_NL_nil (k_plain plain_nil)) eoi
  · have := out_then (u1 := []) (blk_opt_some (blk_brk hb start_nil)) eoi
    simpa using this

theorem rest_allRead {t : Str} {l : List (Str × Sect)} (h : Rest t (secsRead (F := F) num l)) : Rest t (allRead (F := F) num [] l) := by
  obtain ⟨r, bs, h1, h2, h3, h4⟩ := h
  refine ⟨r, bs, h1, h2, h3, fun cs => ?_⟩
  rw [h4]
  exact gated_congr (by simp) (by simp)

include hnum in
theorem parse_sections {f : File} (h : f.Valid) :
    ∃ s kids, run skip Peg.Sct.sct f.text = .ok [.node .sct s kids] ∧ ∀ cs, parseSections (F := F) cs kids =
      gated f.Fits (f.sections.map (fun p => secOut num p.2) ++ [(.unsupported, .unsupported)], addColours cs f.colours) := by
  have key : ∃ m s ts, f.text = m ++ s ∧ K m s ∧
      Out skip K ((.opt Peg.Sct.section_) ⬝ (.star (Base.NL ⬝ Peg.Sct.section_)) ⬝ (.opt Base.NL) ⬝ (.eoi .EOI)) .nonAtomic s [] (ts ++ [Tree.node Rule.EOI [] []]) ∧
      ∀ cs, parseSections cs ts = allRead (F := F) num f.outer f.sections cs := by
    -- nothing on the first line
    have usual : (∀ b ∈ f.breaks, IsBreak b) → ∃ m s ts, f.text = m ++ s ∧ K m s ∧
        Out skip K ((.opt Peg.Sct.section_) ⬝ (.star (Base.NL ⬝ Peg.Sct.section_)) ⬝ (.opt Base.NL) ⬝ (.eoi .EOI)) .nonAtomic s [] (ts ++ [Tree.node Rule.EOI [] []]) ∧
        ∀ cs, parseSections cs ts = allRead (F := F) num f.outer f.sections cs := by
      intro hb
      obtain ⟨i1, i2, _⟩ := rest_sections num hnum (F := F) h.last (l := f.sections)
        (fun p hp => ⟨hb _ (List.mem_append_right _ (List.mem_map_of_mem hp)), h.sections p hp⟩) h.ended
      obtain ⟨j1, j2⟩ := rest_outer num (rest_allRead num i1) i2.lineEnd (o := f.outer)
        fun x hx => ⟨hb _ (List.mem_append_left _ (List.mem_map_of_mem hx)), h.outer x hx⟩
      obtain ⟨ts, o, hp⟩ := out_rest j1
      refine ⟨f.lead, _, ts, rfl, k_tail h.lead j2, ?_, hp⟩
      refine out_then (t1 := []) (u1 := []) (blk_opt_none (fails_section ?_) (k_end j2)) o
      intro c hc
      have := j2 c hc
      have : isNewlineChar c = true := by simpa using this
      rcases newline_iff.1 this with rfl | rfl <;> decide
    by_cases hb : ∀ b ∈ f.breaks, IsBreak b
    · exact usual hb
    · -- the first break is empty
      have hfirst : ∃ bs, f.breaks = [] :: bs ∧ (∀ b ∈ bs, IsBreak b) ∧ AreBlanks f.lead := by
        have h1 := h.first
        have h2 := h.breaks
        cases e : f.breaks with
        | nil => rw [e] at hb; exact absurd (by simp) hb
        | cons b bs =>
          rw [e] at h1 h2 hb
          rcases h1 b rfl with h3 | ⟨rfl, h3⟩
          · refine absurd ?_ hb
            intro x hx
            rcases List.mem_cons.1 hx with rfl | hx
            · exact h3
            · exact h2 x hx
          · exact ⟨bs, rfl, h2, h3⟩
      obtain ⟨bs, e, hbs, hlead⟩ := hfirst
      cases ho : f.outer with
      | nil =>
        cases hs : f.sections with
        | nil => simp [File.breaks, ho, hs] at e
        | cons p l =>
          have e' : p.1 = [] ∧ l.map (·.1) = bs := by simpa [File.breaks, ho, hs] using e
          have hv := h.sections
          have he := h.ended
          rw [hs] at hv he
          have ih := rest_sections num hnum (F := F) h.last (l := l)
            (fun q hq => ⟨hbs _ (by rw [← e'.2]; exact List.mem_map_of_mem hq), hv q (List.mem_cons_of_mem _ hq)⟩) fun e p hp => by
              cases l with
              | nil => cases hp
              | cons y l => exact he e p (by rw [List.getLast?_cons_cons]; exact hp)
          obtain ⟨v, x, t, e1, h1, h2, h3, h4, h5, h6⟩ := first_section num hnum (hv p List.mem_cons_self) (fun el e => by subst el; exact he e _ rfl) ih
          obtain ⟨ts, o, hp⟩ := out_rest h2
          refine ⟨f.lead, v ++ x, t :: ts, ?_, k_gap hlead (k_start (headerAt_start h5)), out_then (u1 := [t]) (blk_opt_some h1) o, fun cs => ?_⟩
          · rw [← e1]
            unfold File.text secText
            rw [ho, hs]
            simp [e'.1]
          · have := read_sec num (brk := p.1) h3 h4 hp cs
            rw [this]
            exact gated_congr (by simp) (by simp)
      | cons a o =>
        have e' : a.brk = [] ∧ o.map (·.brk) ++ f.sections.map (·.1) = bs := by simpa [File.breaks, ho] using e
        have hv := h.outer
        rw [ho] at hv
        obtain ⟨i1, i2, _⟩ := rest_sections num hnum (F := F) h.last (l := f.sections)
          (fun p hp => ⟨hbs _ (by rw [← e'.2]; exact List.mem_append_right _ (List.mem_map_of_mem hp)), h.sections p hp⟩) h.ended
        obtain ⟨j1, j2⟩ := rest_outer num (rest_allRead num i1) i2.lineEnd (o := o)
          fun x hx => ⟨hbs _ (by rw [← e'.2]; exact List.mem_append_left _ (List.mem_map_of_mem hx)), hv x (List.mem_cons_of_mem _ hx)⟩
        obtain ⟨h2, h3⟩ := hv a List.mem_cons_self
        obtain ⟨t, p, q1, q2⟩ := blk_colourSection h2 h3 j2
        obtain ⟨ts, o', hp⟩ := out_rest j1
        refine ⟨f.lead, _, t :: ts, ?_, k_gap hlead p.2, out_then (u1 := [t]) (blk_opt_some p.1) o', fun cs => read_outer num q1 q2 hp cs⟩
        unfold File.text secText
        rw [ho]
        simp [Ln.text, e'.1]
  obtain ⟨m, s, ts, e1, k1, o1, hp⟩ := key
  refine ⟨f.text, ts ++ [Tree.node Rule.EOI [] []], ?_, fun cs => ?_⟩
  · refine run_of_out lineSkip.uniform lineSkip.exact (by rfl) (by rfl) ⟨_, ?_, rfl⟩
    exact ⟨[], m, s, [], _, by simp [e1], by simpa using k1, ⟨rfl, rfl⟩, o1, rfl⟩
  · rw [parseSections_append, hp]
    exact gated_ok rfl

/-! ## The result -/

/-- The section of a name is the last one of the kind. -/
theorem get_kind {A : Type} (f : File) (k : SectionName) (pr : Sect → Option A) (g : A → Section F) (hk : k ≠ .unsupported)
    (h : ∀ s, (if (secOut num s).1 = k then some (secOut num s).2 else none) = (pr s).map g) :
    (Map.ofList (f.sections.map (fun p => secOut num p.2) ++ [(.unsupported, .unsupported)])).get? k = (f.lastOf pr).map g := by
  rw [Parse.Asr.ofList_last, List.filterMap_append, List.filterMap_map]
  have e : [((SectionName.unsupported, Section.unsupported) : SectionName × Section F)].filterMap (fun e => if e.1 = k then some e.2 else none) = [] := by
    simp [Ne.symm hk]
  rw [e, List.append_nil]
  unfold File.lastOf
  rw [← List.getLast?_map, List.map_filterMap]
  congr 2
  funext p
  exact h p.2

theorem entries_kind {A B : Type} (f : File) (k : SectionName) (pr : Sect → Option (Block A)) (v : A → B) (g : List B → Section F) (m : Option (Section F) → List B)
    (hk : k ≠ .unsupported) (h : ∀ s, (if (secOut num s).1 = k then some (secOut num s).2 else none) = (pr s).map fun b => g (b.entries.map v))
    (hm : ∀ l, m (some (g l)) = l) (h0 : m none = []) :
    m ((Map.ofList (f.sections.map (fun p => secOut num p.2) ++ [(.unsupported, .unsupported)])).get? k) = (f.entriesOf pr).map v := by
  rw [get_kind num f k pr _ hk h]
  unfold File.entriesOf
  cases f.lastOf pr with
  | none => exact h0
  | some b => exact hm _

macro "each_section" : tactic => `(tactic| (rintro (_ | _ | _ | _ | _ | _ | ⟨_ | _ | _ | _ | _ | _, _⟩ | _ | _ | _ | _) <;> rfl))

include hnum in
theorem assemble_value (f : File) (cs : Map Str Colour) :
    assemble (Map.ofList (f.sections.map (fun p => secOut num p.2) ++ [(.unsupported, .unsupported)])) cs = f.value num cs := by
  unfold assemble File.value
  congr 1
  · rw [get_kind num f .info (fun | .info i => some i | _ => none) (fun i : InfoText => Section.info (i.value num)) (by decide) (by each_section)]
    show _ = ((f.lastOf (fun | .info i => some i | _ => none)).map (·.value num)).getD (noInfo num)
    cases f.lastOf (fun | .info i => some i | _ => none) with
    | some i => rfl
    | none =>
      show Parse.Sct.Info.default F = noInfo num
      unfold Parse.Sct.Info.default noInfo
      rw [zero_eq num hnum]
  · exact entries_kind num f .airport (fun | .airports b => some b | _ => none) (·.body.value num) .airport (fun | some (.airport l) => l | _ => []) (by decide) (by each_section) (fun _ => rfl) rfl
  · exact entries_kind num f .fixes (fun | .fixes b => some b | _ => none) (·.body.value num) .fixes (fun | some (.fixes l) => l | _ => []) (by decide) (by each_section) (fun _ => rfl) rfl
  · exact entries_kind num f .ndbs (fun | .ndbs b => some b | _ => none) (·.body.value num) .ndbs (fun | some (.ndbs l) => l | _ => []) (by decide) (by each_section) (fun _ => rfl) rfl
  · exact entries_kind num f .vors (fun | .vors b => some b | _ => none) (·.body.value num) .vors (fun | some (.vors l) => l | _ => []) (by decide) (by each_section) (fun _ => rfl) rfl
  · exact entries_kind num f .runways (fun | .runways b => some b | _ => none) (·.value num) .runways (fun | some (.runways l) => l | _ => []) (by decide) (by each_section) (fun _ => rfl) rfl
  · exact entries_kind num f .sid (fun | .drawings .sid b => some b | _ => none) (·.value num) .sid (fun | some (.sid l) => l | _ => []) (by decide) (by each_section) (fun _ => rfl) rfl
  · exact entries_kind num f .star (fun | .drawings .star b => some b | _ => none) (·.value num) .star (fun | some (.star l) => l | _ => []) (by decide) (by each_section) (fun _ => rfl) rfl
  · exact entries_kind num f .artccHigh (fun | .drawings .artccHigh b => some b | _ => none) (·.value num) .artccHigh (fun | some (.artccHigh l) => l | _ => []) (by decide) (by each_section) (fun _ => rfl) rfl
  · exact entries_kind num f .artcc (fun | .drawings .artcc b => some b | _ => none) (·.value num) .artcc (fun | some (.artcc l) => l | _ => []) (by decide) (by each_section) (fun _ => rfl) rfl
  · exact entries_kind num f .artccLow (fun | .drawings .artccLow b => some b | _ => none) (·.value num) .artccLow (fun | some (.artccLow l) => l | _ => []) (by decide) (by each_section) (fun _ => rfl) rfl
  · exact entries_kind num f .highAirway (fun | .highAirways b => some b | _ => none) (·.body.value num) .highAirways (fun | some (.highAirways l) => l | _ => []) (by decide) (by each_section) (fun _ => rfl) rfl
  · exact entries_kind num f .lowAirway (fun | .lowAirways b => some b | _ => none) (·.body.value num) .lowAirways (fun | some (.lowAirways l) => l | _ => []) (by decide) (by each_section) (fun _ => rfl) rfl
  · exact entries_kind num f .regions (fun | .regions _ b => some b | _ => none) (·.value num) .regions (fun | some (.regions l) => l | _ => []) (by decide) (by each_section) (fun _ => rfl) rfl
  · exact entries_kind num f .labels (fun | .labels b => some b | _ => none) (·.body.value num) .labels (fun | some (.labels l) => l | _ => []) (by decide) (by each_section) (fun _ => rfl) rfl
  · exact entries_kind num f .geo (fun | .drawings .geo b => some b | _ => none) (·.value num) .geo (fun | some (.geo l) => l | _ => []) (by decide) (by each_section) (fun _ => rfl) rfl

theorem addColours_get (n : Str) : ∀ (ds : List ColourDef) (cs : Map Str Colour), (addColours cs ds).get? n =
    (match (ds.filterMap fun d => if d.name = n then d.colour else none).getLast? with
    | some c => some c
    | none => cs.get? n)
  | [], _ => rfl
  | d :: ds, cs => by
    show (addColours (addColours cs [d]) ds).get? n = _
    rw [addColours_get n ds, List.filterMap_cons]
    have e : (addColours cs [d]).get? n = match (if d.name = n then d.colour else none) with | some c => some c | none => cs.get? n := by
      unfold addColours
      cases hc : d.colour with
      | none => simp [hc]
      | some c =>
        by_cases h : d.name = n
        · subst h
          simp [hc]
        · simp [hc, h, Map.get?_insert_ne]
    rw [e]
    cases hd : (if d.name = n then d.colour else none) with
    | none => rfl
    | some c =>
      simp only []
      rw [List.getLast?_cons]
      cases (ds.filterMap fun d => if d.name = n then d.colour else none).getLast? <;> rfl

include hnum in
theorem parse_file {f : File} (h : f.Valid) : ∃ c : Map Str Colour, Parse.Sct.parse (F := F) f.text = gated f.Fits (f.value num c) ∧ ∀ n, c.get? n = f.colourOf n := by
  obtain ⟨s, kids, e, hk⟩ := parse_sections num hnum (F := F) h
  refine ⟨addColours [] f.colours, ?_, fun n => ?_⟩
  · unfold Parse.Sct.parse
    rw [e]
    show (parseSections [] kids).bind _ = _
    rw [hk]
    refine gated_ok ?_
    rw [← assemble_value num hnum]
    rfl
  · rw [addColours_get]
    unfold File.colourOf
    cases (f.colours.filterMap fun d => if d.name = n then d.colour else none).getLast? <;> rfl

end

end Verif.Proofs.Sct
