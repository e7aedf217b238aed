import Verif.Proofs.SctWriteBack
import Verif.Props.Lines
/-!
# Files that are read can be written
-/

namespace Verif.Proofs.SctWrite
open Verif.Dms Verif.Parse Verif.Spec Verif.Spec.Sct Verif.Spec.SctWrite
open Verif.Lines (addLine addColoured lineGroups newLine Group ColouredLine)
open Verif.Parse.Sct (Loc Airport Airway Fix Navaid Runway Region Label Drawing Info)

/-! ## Lines -/

section
variable {L : Type} [DecidableEq L]

/-- What holds for all points holds for all points of the lines. -/
theorem groups_points {Q : L → Prop} {C : Option Str → Prop} (lines : List (ColouredLine L)) (h : ∀ l ∈ lines, Q l.start ∧ Q l.stop ∧ C l.colour) :
    ∀ g ∈ lineGroups lines, C g.colour ∧ ∀ p ∈ g.lines, ∀ x ∈ p, Q x := by
  have add : ∀ (ls : List (List L)) (s : L × L), Q s.1 → Q s.2 → (∀ p ∈ ls, ∀ x ∈ p, Q x) → ∀ p ∈ addLine ls s, ∀ x ∈ p, Q x := by
    intro ls s h1 h2 hl p hp x hx
    rcases (Lines.points_addLine ls s x).1 ⟨p, hp, hx⟩ with ⟨q, hq, hxq⟩ | rfl | rfl
    · exact hl q hq x hxq
    · exact h1
    · exact h2
  have : ∀ acc : List (Group L), (∀ g ∈ acc, C g.colour ∧ ∀ p ∈ g.lines, ∀ x ∈ p, Q x) →
      ∀ g ∈ lines.foldl addColoured acc, C g.colour ∧ ∀ p ∈ g.lines, ∀ x ∈ p, Q x := by
    induction lines with
    | nil => exact fun acc ha => ha
    | cons l lines ih =>
      intro acc ha
      obtain ⟨h1, h2, h3⟩ := h l List.mem_cons_self
      refine ih (fun l' hl' => h l' (List.mem_cons_of_mem _ hl')) _ fun g hg => ?_
      rcases Lines.addColoured_cases acc l with ⟨p, ls, e, e'⟩ | ⟨_, e'⟩
      · rw [e'] at hg
        rcases List.mem_append.1 hg with hg | hg
        · exact ha g (by rw [e]; exact List.mem_append_left _ hg)
        · rw [List.mem_singleton.1 hg]
          exact ⟨h3, add ls _ h1 h2 (ha ⟨l.colour, ls⟩ (by rw [e]; simp)).2⟩
      · rw [e'] at hg
        rcases List.mem_append.1 hg with hg | hg
        · exact ha g hg
        · rw [List.mem_singleton.1 hg]
          exact ⟨h3, add [] _ h1 h2 (by simp)⟩
  exact this [] (by simp)

/-- If no line joins a point with itself all lines have two points. -/
theorem groups_two (lines : List (ColouredLine L)) (h : ∀ l ∈ lines, l.start ≠ l.stop) : ∀ g ∈ lineGroups lines, ∀ p ∈ g.lines, 2 ≤ p.length := by
  have add : ∀ (ls : List (List L)) (s : L × L), s.1 ≠ s.2 → (∀ p ∈ ls, 2 ≤ p.length) → ∀ p ∈ addLine ls s, 2 ≤ p.length := by
    intro ls s hs hl p hp
    rcases Lines.addLine_cases ls s with ⟨q, ps, rfl, h2⟩ | ⟨_, h2⟩
    · rw [h2, if_pos hs] at hp
      rcases List.mem_append.1 hp with hp | hp
      · exact hl p (List.mem_append_left _ hp)
      · rw [List.mem_singleton.1 hp]
        simp
    · rw [h2] at hp
      rcases List.mem_append.1 hp with hp | hp
      · exact hl p hp
      · rw [List.mem_singleton.1 hp]
        unfold newLine
        rw [if_neg hs]
        simp
  have : ∀ acc : List (Group L), (∀ g ∈ acc, ∀ p ∈ g.lines, 2 ≤ p.length) → ∀ g ∈ lines.foldl addColoured acc, ∀ p ∈ g.lines, 2 ≤ p.length := by
    induction lines with
    | nil => exact fun acc ha => ha
    | cons l lines ih =>
      intro acc ha
      refine ih (fun l' hl' => h l' (List.mem_cons_of_mem _ hl')) _ fun g hg => ?_
      rcases Lines.addColoured_cases acc l with ⟨p, ls, e, e'⟩ | ⟨_, e'⟩
      · rw [e'] at hg
        rcases List.mem_append.1 hg with hg | hg
        · exact ha g (by rw [e]; exact List.mem_append_left _ hg)
        · rw [List.mem_singleton.1 hg]
          exact add ls _ (h l List.mem_cons_self) (ha ⟨l.colour, ls⟩ (by rw [e]; simp))
      · rw [e'] at hg
        rcases List.mem_append.1 hg with hg | hg
        · exact ha g hg
        · rw [List.mem_singleton.1 hg]
          exact add [] _ (h l List.mem_cons_self) (by simp)
  exact this [] (by simp)

/-- The lines start with the first line. -/
def StartsWith (a b : L) (gs : List (Group L)) : Prop := ∃ c r ls gs', gs = ⟨c, (a :: b :: r) :: ls⟩ :: gs'

theorem startsWith_add {a b : L} {gs : List (Group L)} (h : StartsWith a b gs) (l : ColouredLine L) : StartsWith a b (addColoured gs l) := by
  obtain ⟨c, r, ls, gs', rfl⟩ := h
  rcases Lines.addColoured_cases (⟨c, (a :: b :: r) :: ls⟩ :: gs') l with ⟨p, ls', e, e'⟩ | ⟨_, e'⟩
  · rw [e']
    cases p with
    | cons x p =>
      injection e with e1 e2
      exact ⟨c, r, ls, p ++ [⟨l.colour, addLine ls' (l.start, l.stop)⟩], by rw [← e1]; rfl⟩
    | nil =>
      injection e with e1 e2
      injection e1 with e3 e4
      subst e4
      rcases Lines.addLine_cases ((a :: b :: r) :: ls) (l.start, l.stop) with ⟨q, ps, eq, h2⟩ | ⟨_, h2⟩
      · rw [h2]
        cases q with
        | cons x q =>
          injection eq with e5 e6
          split
          · exact ⟨l.colour, r, q ++ [ps ++ [l.start] ++ [l.stop]], [], by rw [← e5]; rfl⟩
          · exact ⟨l.colour, r, q ++ [ps ++ [l.start]], [], by rw [← e5]; rfl⟩
        | nil =>
          injection eq with e5 e6
          split
          · exact ⟨l.colour, r ++ [l.stop], [], [], by
              show [_] = [_]
              rw [show (ps ++ [l.start] ++ [l.stop] : List L) = (a :: b :: r) ++ [l.stop] by rw [e5]]
              rfl⟩
          · exact ⟨l.colour, r, [], [], by
              show [_] = [_]
              rw [show (ps ++ [l.start] : List L) = (a :: b :: r) by rw [e5]]
              rfl⟩
      · rw [h2]
        exact ⟨l.colour, r, ls ++ [newLine l.start l.stop], [], rfl⟩
  · rw [e']
    exact ⟨c, r, ls, gs' ++ _, rfl⟩

theorem groups_first (l : ColouredLine L) (lines : List (ColouredLine L)) (h : l.start ≠ l.stop) :
    StartsWith l.start l.stop (lineGroups (l :: lines)) := by
  have : ∀ (lines : List (ColouredLine L)) gs, StartsWith l.start l.stop gs → StartsWith l.start l.stop (lines.foldl addColoured gs) := by
    intro lines
    induction lines with
    | nil => exact fun _ h => h
    | cons x lines ih => exact fun gs h => ih _ (startsWith_add h x)
  refine this lines _ ?_
  show StartsWith l.start l.stop (addColoured [] l)
  refine ⟨l.colour, [], [], [], ?_⟩
  show [(⟨l.colour, [newLine l.start l.stop]⟩ : Group L)] = _
  unfold newLine
  rw [if_neg h]
end

/-! ## Entries -/

section
variable {F : Type} [DmsArith F] [DecidableEq F] (num : Str → F)

omit [DmsArith F] in
theorem merged_groups (lines : List (ColouredLine (Loc F))) (name : Str) : Merged (⟨name, lineGroups lines⟩ : Drawing F) := by
  obtain ⟨h1, h2⟩ := Lines.C33_groups lines
  refine ⟨fun g hg l hl => ((h2 g hg).2.1 l hl).2, fun g hg a b hn he => ?_, h1⟩
  obtain ⟨p, q, e⟩ := hn
  have ha := ((h2 g hg).2.1 a (by rw [e]; simp)).1
  obtain ⟨x, hx⟩ : ∃ x, a.getLast? = some x := ⟨_, List.getLast?_eq_some_getLast ha⟩
  exact (h2 g hg).2.2 a b x ⟨p, q, e⟩ hx (by rw [← he, hx])

omit [DecidableEq F] in
theorem locValue {l : LocText} (h : l.Valid) : IsLoc (l.value num : Loc F) := by
  cases l with
  | coord c => trivial
  | fix n g => exact h.1

theorem drawing_read {d : DrawingText} (h : d.Valid) (hs : ∀ l ∈ d.lines, (l.start.value num : Loc F) ≠ l.stop.value num)
    (ha : ∀ c, d.first.start = .coord c → IsTelling d.name) : IsDrawing (d.value num : Drawing F) := by
  have hl : ∀ l ∈ d.lines, l.Valid := by
    intro l hl
    rcases List.mem_cons.1 hl with rfl | hl
    · exact h.first
    · obtain ⟨x, hx, rfl⟩ := List.mem_map.1 hl
      exact (h.more x hx).2.1
  have hp := groups_points (Q := IsLoc) (C := fun o => ∀ c, o = some c → IsColourName c) (d.lines.map fun l => (l.value num : ColouredLine (Loc F))) (by
    intro x hx
    obtain ⟨l, hlm, rfl⟩ := List.mem_map.1 hx
    obtain ⟨h1, _, h2, h3⟩ := hl l hlm
    refine ⟨locValue num h1, locValue num h2, fun c hc => ?_⟩
    cases hcol : l.colour with
    | none => simp [LineText.value, hcol] at hc
    | some p =>
      obtain ⟨g, c'⟩ := p
      have : c' = c := by simpa [LineText.value, hcol] using hc
      exact this ▸ (h3 g c' hcol).2)
  have hne : ∀ x ∈ (d.lines.map fun l => (l.value num : ColouredLine (Loc F))), x.start ≠ x.stop := by
    intro x hx
    obtain ⟨l, hlm, rfl⟩ := List.mem_map.1 hx
    exact hs l hlm
  have h2 := groups_two _ hne
  have hf : StartsWith (d.first.start.value num) (d.first.stop.value num) ((d.value num : Drawing F)).lineGroups :=
    (groups_first (d.first.value num) ((d.more.map fun l => l.body).map fun l : LineText => (l.value num : ColouredLine (Loc F)))
      (hs d.first List.mem_cons_self) :)
  have first : ∀ a b, firstTwo (d.value num : Drawing F) = some (a, b) → a = d.first.start.value num ∧ b = d.first.stop.value num := by
    intro a b e
    obtain ⟨c, r, ls, gs, e'⟩ := hf
    unfold firstTwo at e
    rw [e'] at e
    injection e with e
    injection e with e1 e2
    exact ⟨e1.symm, e2.symm⟩
  have ending : ∀ c, d.name.getLast? = some c → ¬ IsBlank c := by
    intro c hc hb
    have hc : d.name.getLast? = some c := hc
    obtain ⟨p, hp⟩ := List.getLast?_eq_some_iff.1 hc
    cases p with
    | nil =>
      have := h.start.1 c (by rw [hp]; rfl)
      exact this hb
    | cons x p =>
      refine h.whole (x :: p) [c] hp (by simp) (by simp) ⟨[c] ++ d.gap, d.first, d.blanks, ⟨by simp, ?_⟩, h.first, h.uniform, h.blanks, ?_⟩
      · intro y hy
        rcases List.mem_append.1 hy with hy | hy
        · rw [List.mem_singleton.1 hy]; exact hb
        · exact h.gap.2 y hy
      · rw [List.append_assoc]; rfl
  refine ⟨h.nonempty, h.chars, h.start, h.noColour, ending, ?_, ?_, ?_, ?_⟩
  · obtain ⟨c, r, ls, gs, e'⟩ := hf
    rw [e']
    simp
  · intro g hg
    obtain ⟨h3, h4⟩ := hp g hg
    exact ⟨((Lines.C33_groups _).2 g hg).1, h2 g hg, h4, h3⟩
  · intro a b e
    obtain ⟨rfl, rfl⟩ := first a b e
    have := h.uniform
    unfold LineText.Uniform at this
    cases hs1 : d.first.start <;> cases hs2 : d.first.stop <;> rw [hs1, hs2] at this <;> first | trivial | cases this
  · intro a b e
    obtain ⟨rfl, rfl⟩ := first a b e
    have hne := hs d.first List.mem_cons_self
    have coord : ∀ p, (d.first.start.value num : Loc F) = .coordinate p → ∃ c, d.first.start = .coord c := by
      intro p hp
      cases hst : d.first.start with
      | coord c => exact ⟨c, rfl⟩
      | fix m g => rw [hst] at hp; cases hp
    have fix : ∀ {l : LocText} {m}, (l.value num : Loc F) = .fix m → ∃ g, l = .fix m g := by
      intro l m hp
      cases l with
      | coord c => cases hp
      | fix k g => cases hp; exact ⟨g, rfl⟩
    refine ⟨fun m n h1 h2 => ?_, fun p hp => ?_, fun m h1 h2 => absurd (h1.trans h2.symm) hne⟩
    · obtain ⟨gm, h1⟩ := fix h1
      obtain ⟨gn, h2⟩ := fix h2
      exact apart_fixes h.noLine ending h.gap h.first h1 h2
    · obtain ⟨c, hc⟩ := coord p hp
      exact ha c hc

/-- What holds for the entries of all sections holds for those of the last one of a kind. -/
theorem entries_of {A : Type} {f : File} {p : Sect → Option (Block A)} {Q : A → Prop}
    (h : ∀ s ∈ f.sections, ∀ b, p s.2 = some b → ∀ brk a, Line.entry brk a ∈ b.lines → Q a) : ∀ a ∈ f.entriesOf p, Q a := by
  intro a ha
  unfold File.entriesOf at ha
  cases hl : f.lastOf p with
  | none => rw [hl] at ha; simp at ha
  | some b =>
    rw [hl] at ha
    have hb : b ∈ f.sections.filterMap fun s => p s.2 := List.mem_of_getLast? hl
    obtain ⟨s, hs, he⟩ := List.mem_filterMap.1 hb
    have ha : a ∈ b.entries := ha
    obtain ⟨l, hl, he'⟩ := List.mem_filterMap.1 ha
    cases l with
    | entry brk x =>
      injection he' with he'
      exact h s hs b he brk a (he' ▸ hl)
    | colour => cases he'
    | broken => cases he'

theorem blk_valid {A : Type} {valid : A → Prop} {broken : Str → Prop} {b : Block A} (h : b.Valid valid broken) {brk : Str} {a : A}
    (hm : Line.entry brk a ∈ b.lines) : valid a := (h.2 _ hm).2

theorem number_lt {s : Str} (h : Ese.Fits (2 ^ 32) s) : Ese.number s < 2 ^ 32 := by
  have := h.2
  unfold Ese.number
  omega

/-- The definitions of colours in a valid file. -/
theorem colours_valid [UnicodeTables] {f : File} (h : f.Valid) : ∀ d ∈ f.colours, d.Valid := by
  have blk : ∀ {A : Type} {valid : A → Prop} {broken : Str → Prop} {b : Block A}, b.Valid valid broken → ∀ d ∈ b.colours, d.Valid := by
    intro A valid broken b hb d hd
    obtain ⟨l, hl, he⟩ := List.mem_filterMap.1 hd
    have := hb.2 l hl
    cases l with
    | colour brk x t =>
      injection he with he
      exact he ▸ this.2.1
    | entry => cases he
    | broken => cases he
  intro d hd
  rcases List.mem_append.1 hd with hd | hd
  · obtain ⟨l, hl, rfl⟩ := List.mem_map.1 hd
    exact (h.outer l hl).1
  · obtain ⟨s, hs, hd⟩ := List.mem_flatMap.1 hd
    have hv := h.sections s hs
    obtain ⟨brk, s⟩ := s
    cases s with
    | info i =>
      rcases List.mem_append.1 hd with hd | hd
      · obtain ⟨l, hl, rfl⟩ := List.mem_map.1 hd
        exact (hv.before l hl).2.1
      · obtain ⟨l, hl, rfl⟩ := List.mem_map.1 hd
        exact (hv.after l hl).2.1
    | _ => exact blk hv d hd

theorem colour_names [UnicodeTables] {f : File} (h : f.Valid) {colours : Map Str Colours.Colour} (hn : colours.keys.Nodup)
    (hc : ∀ n, colours.get? n = f.colourOf n) : ∀ e ∈ colours, IsColourName e.1 := by
  rintro ⟨n, c⟩ he
  have := Map.get?_of_mem hn he
  rw [hc] at this
  obtain ⟨d, hd, e⟩ := List.mem_filterMap.1 (List.mem_of_getLast? this)
  split at e
  · next hname =>
    rw [← hname]
    exact (colours_valid h d hd).2.1
  · cases e

/-- All colours that are read are opaque. -/
theorem colour_opaque {f : File} (n : Str) : (f.colourOf n).map (fun c => { c with a := 255 }) = f.colourOf n := by
  cases hc : f.colourOf n with
  | none => rfl
  | some c =>
    obtain ⟨d, hd, e⟩ := List.mem_filterMap.1 (List.mem_of_getLast? hc)
    split at e
    · unfold ColourDef.colour at e
      simp only at e
      split at e
      · injection e with e
        rw [← e]
        rfl
      · cases e
    · cases e

/-- A file that is read can be written if it has information and no line joins a point with itself, and the names of drawings can be
told from the coordinates behind them. -/
theorem read_writable [UnicodeTables] {f : File} (h : f.Valid) (hf : f.Fits) (hi : ∃ s ∈ f.sections, ∃ i, s.2 = .info i)
    (hd : ∀ s ∈ f.sections, ∀ k b, s.2 = .drawings k b → ∀ brk d, Line.entry brk d ∈ b.lines →
      (∀ c, d.first.start = .coord c → IsTelling d.name) ∧ ∀ l ∈ d.lines, (l.start.value num : Loc F) ≠ l.stop.value num)
    {colours : Map Str Colours.Colour} (hn : colours.keys.Nodup) (hc : ∀ e ∈ colours, IsColourName e.1) :
    Writable (f.value num colours : Parse.Sct.Sct F) ∧ ∀ d ∈ SctWrite.drawings (f.value num colours : Parse.Sct.Sct F), Merged d := by
  have hv := h.sections
  have hdr : ∀ k p, (∀ s b, p s = some b → s = .drawings k b) → ∀ d ∈ (f.entriesOf p).map (fun d => (d.value num : Drawing F)), IsDrawing d := by
    intro k p hp d hdm
    obtain ⟨x, hx, rfl⟩ := List.mem_map.1 hdm
    refine entries_of (Q := fun x => IsDrawing (x.value num : Drawing F)) (fun s hs b hb brk a ha => ?_) x hx
    have e := hp _ _ hb
    obtain ⟨h1, h2⟩ := hd s hs k b e brk a ha
    have hvs := hv s hs
    rw [e] at hvs
    exact drawing_read num (blk_valid hvs ha) h2 h1
  have info : ∃ i : InfoText, i.Valid ∧ (f.value num colours : Parse.Sct.Sct F).info = i.value num := by
    obtain ⟨s, hs, i, e⟩ := hi
    have hm : i ∈ f.sections.filterMap fun s => (fun | Sect.info i => some i | _ => none : Sect → Option InfoText) s.2 :=
      List.mem_filterMap.2 ⟨s, hs, by rw [e]⟩
    obtain ⟨j, hj⟩ : ∃ j, (f.sections.filterMap fun s => (fun | Sect.info i => some i | _ => none : Sect → Option InfoText) s.2).getLast? = some j :=
      ⟨_, List.getLast?_eq_some_getLast (List.ne_nil_of_mem hm)⟩
    refine ⟨j, ?_, ?_⟩
    · obtain ⟨s', hs', e'⟩ := List.mem_filterMap.1 (List.mem_of_getLast? hj)
      have := hv s' hs'
      cases hs2 : s'.2 with
      | info i' =>
        rw [hs2] at e' this
        injection e' with e'
        exact e' ▸ this
      | _ => rw [hs2] at e'; cases e'
    · exact congrArg (fun o : Option InfoText => (o.map fun i => (i.value num : Info F)).getD (noInfo num)) hj
  obtain ⟨i, hiv, ei⟩ := info
  constructor
  · refine ⟨?_, ?_, ?_, hn, hc, ?_, ?_, ?_, ?_, ?_, hdr .sid _ ?_, hdr .star _ ?_, hdr .artccHigh _ ?_, hdr .artcc _ ?_, hdr .artccLow _ ?_,
      hdr .geo _ ?_, ?_, ?_, ?_, ?_⟩
    · rw [ei]; exact hiv.name
    · rw [ei]; exact hiv.callsign.2.1
    · rw [ei]; exact hiv.airport.2.1
    · intro n hnm
      obtain ⟨x, hx, rfl⟩ := List.mem_map.1 hnm
      refine entries_of (Q := fun x : Tailed NavaidText => IsDesignator (x.body.value num : Navaid F).designator ∧ IsDecimal (x.body.value num : Navaid F).frequency) (fun s hs b hb brk a ha => ?_) x hx
      have hvs := hv s hs
      cases hs2 : s.2 with
      | vors b' =>
        rw [hs2] at hb hvs
        injection hb with hb
        obtain ⟨⟨h1, _, h2, _⟩, _⟩ := blk_valid hvs (hb ▸ ha)
        exact ⟨h1, h2⟩
      | _ => rw [hs2] at hb; cases hb
    · intro n hnm
      obtain ⟨x, hx, rfl⟩ := List.mem_map.1 hnm
      refine entries_of (Q := fun x : Tailed NavaidText => IsDesignator (x.body.value num : Navaid F).designator ∧ IsDecimal (x.body.value num : Navaid F).frequency) (fun s hs b hb brk a ha => ?_) x hx
      have hvs := hv s hs
      cases hs2 : s.2 with
      | ndbs b' =>
        rw [hs2] at hb hvs
        injection hb with hb
        obtain ⟨⟨h1, _, h2, _⟩, _⟩ := blk_valid hvs (hb ▸ ha)
        exact ⟨h1, h2⟩
      | _ => rw [hs2] at hb; cases hb
    · intro n hnm
      obtain ⟨x, hx, rfl⟩ := List.mem_map.1 hnm
      refine entries_of (Q := fun x : Tailed FixText => IsFixName (x.body.value num : Fix F).designator ∧ IsStart (x.body.value num : Fix F).designator) (fun s hs b hb brk a ha => ?_) x hx
      have hvs := hv s hs
      cases hs2 : s.2 with
      | fixes b' =>
        rw [hs2] at hb hvs
        injection hb with hb
        obtain ⟨⟨h1, h2, _⟩, _⟩ := blk_valid hvs (hb ▸ ha)
        exact ⟨h1, h2⟩
      | _ => rw [hs2] at hb; cases hb
    · intro n hnm
      obtain ⟨x, hx, rfl⟩ := List.mem_map.1 hnm
      refine entries_of (Q := fun x : Tailed AirportText => IsDesignator (x.body.value num : Airport F).designator ∧ ∃ c ∈ c!"ABCDEFG", (x.body.value num : Airport F).ctrAirspace = [c]) (fun s hs b hb brk a ha => ?_) x hx
      have hvs := hv s hs
      cases hs2 : s.2 with
      | airports b' =>
        rw [hs2] at hb hvs
        injection hb with hb
        obtain ⟨⟨h1, _, _, _, _, h2⟩, _⟩ := blk_valid hvs (hb ▸ ha)
        exact ⟨h1, _, h2, rfl⟩
      | _ => rw [hs2] at hb; cases hb
    · intro n hnm
      obtain ⟨x, hx, rfl⟩ := List.mem_map.1 hnm
      refine entries_of (Q := fun x : RunwayText => IsRunway (x.value num : Runway F).designators.1 ∧ IsRunway (x.value num : Runway F).designators.2 ∧
        (x.value num : Runway F).headings.1 < 2 ^ 32 ∧ (x.value num : Runway F).headings.2 < 2 ^ 32 ∧ IsDesignator (x.value num : Runway F).aerodrome) (fun s hs b hb brk a ha => ?_) x hx
      have hvs := hv s hs
      have hfs := hf.2 s hs
      cases hs2 : s.2 with
      | runways b' =>
        rw [hs2] at hb hvs hfs
        injection hb with hb
        obtain ⟨h1, _, h2, _, _, _, _, _, _, _, _, _, h3, _⟩ := blk_valid hvs (hb ▸ ha)
        obtain ⟨f1, f2, _⟩ := hfs _ (hb ▸ ha)
        exact ⟨h1, h2, number_lt f1, number_lt f2, h3⟩
      | _ => rw [hs2] at hb; cases hb
    all_goals first
      | (intro s b hb; split at hb <;> cases hb; rfl)
      | skip
    · intro n hnm
      obtain ⟨x, hx, rfl⟩ := List.mem_map.1 hnm
      refine entries_of (Q := fun x : Tailed AirwayText => IsFixName (x.body.value num : Airway F).designator ∧ IsStart (x.body.value num : Airway F).designator ∧
        IsLoc (x.body.value num : Airway F).start ∧ IsLoc (x.body.value num : Airway F).stop) (fun s hs b hb brk a ha => ?_) x hx
      have hvs := hv s hs
      cases hs2 : s.2 with
      | highAirways b' =>
        rw [hs2] at hb hvs
        injection hb with hb
        obtain ⟨⟨h1, h2, _, h3, _, h4⟩, _⟩ := blk_valid hvs (hb ▸ ha)
        exact ⟨h1, h2, locValue num h3, locValue num h4⟩
      | _ => rw [hs2] at hb; cases hb
    · intro n hnm
      obtain ⟨x, hx, rfl⟩ := List.mem_map.1 hnm
      refine entries_of (Q := fun x : Tailed AirwayText => IsFixName (x.body.value num : Airway F).designator ∧ IsStart (x.body.value num : Airway F).designator ∧
        IsLoc (x.body.value num : Airway F).start ∧ IsLoc (x.body.value num : Airway F).stop) (fun s hs b hb brk a ha => ?_) x hx
      have hvs := hv s hs
      cases hs2 : s.2 with
      | lowAirways b' =>
        rw [hs2] at hb hvs
        injection hb with hb
        obtain ⟨⟨h1, h2, _, h3, _, h4⟩, _⟩ := blk_valid hvs (hb ▸ ha)
        exact ⟨h1, h2, locValue num h3, locValue num h4⟩
      | _ => rw [hs2] at hb; cases hb
    · intro n hnm
      obtain ⟨x, hx, rfl⟩ := List.mem_map.1 hnm
      refine entries_of (Q := fun x : RegionText => ((x.value num : Region F).name ≠ [] ∧ IsStart (x.value num : Region F).name ∧
        (∀ c ∈ (x.value num : Region F).name, ¬ IsNewline c ∧ c ≠ '\t' ∧ c ≠ '[') ∧ ∀ c, (x.value num : Region F).name.getLast? = some c → ¬ IsBlankChar c) ∧
        IsColourName (x.value num : Region F).colourName ∧ (x.value num : Region F).polygon ≠ []) (fun s hs b hb brk a ha => ?_) x hx
      have hvs := hv s hs
      cases hs2 : s.2 with
      | regions c b' =>
        rw [hs2] at hb hvs
        injection hb with hb
        obtain ⟨_, h1, _, _, h2, _⟩ := blk_valid hvs (hb ▸ ha)
        exact ⟨h1, h2, by simp [RegionText.value, RegionText.points]⟩
      | _ => rw [hs2] at hb; cases hb
    · intro n hnm
      obtain ⟨x, hx, rfl⟩ := List.mem_map.1 hnm
      refine entries_of (Q := fun x : Tailed LabelText => (IsStart (x.body.value num : Label F).name ∧ ∀ c ∈ (x.body.value num : Label F).name, ¬ IsNewline c ∧ c ≠ '"') ∧
        (∃ p, (x.body.value num : Label F).coordinate = .coordinate p) ∧ IsColourName (x.body.value num : Label F).colourName) (fun s hs b hb brk a ha => ?_) x hx
      have hvs := hv s hs
      cases hs2 : s.2 with
      | labels b' =>
        rw [hs2] at hb hvs
        injection hb with hb
        obtain ⟨⟨h1, _, _, _, h2⟩, _⟩ := blk_valid hvs (hb ▸ ha)
        exact ⟨h1, ⟨_, rfl⟩, h2⟩
      | _ => rw [hs2] at hb; cases hb
  · intro d hdm
    have key : ∀ p, d ∈ (f.entriesOf p).map (fun d : DrawingText => (d.value num : Drawing F)) → Merged d := by
      intro p hx
      obtain ⟨x, _, rfl⟩ := List.mem_map.1 hx
      exact merged_groups _ _
    simp only [SctWrite.drawings, List.mem_append] at hdm
    rcases hdm with ((((hdm | hdm) | hdm) | hdm) | hdm) | hdm <;> exact key _ hdm
end

end Verif.Proofs.SctWrite
