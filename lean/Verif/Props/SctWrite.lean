import Verif.Proofs.SctWriteRead
import Verif.Proofs.Double
import Verif.Props.Sct
/-!
# Writing .sct files: theorems

C66 to C69.  Which files can be written is in `Verif/Spec/SctWrite.lean`, which coordinates are kept in `Verif/Spec/SctDouble.lean`.
-/

namespace Verif.Props
open Verif.Dms Verif.Parse Verif.Spec Verif.Spec.Sct Verif.Spec.SctWrite Verif.Model.SctWrite
open Verif.Model (Rounding Double)
open Verif.Colours (Colour)

/-- Coordinates are printed as degrees, minutes and seconds; `display` prints the other numbers. -/
def sctPrinter (R : Rounding) (display : R.Num → Str) : Printer R.Num := ⟨fun lat x => R.fmt x lat, display⟩

section
variable [UnicodeTables] (R : Rounding) (display : R.Num → Str)

omit [UnicodeTables] in
theorem sctPrinter_texts : Proofs.SctWrite.Texts (sctPrinter R display) R.dmsText := ⟨R.dmsText_valid, R.dmsText_fits, R.dmsText_text⟩

/-- The file that is read from a written one. -/
theorem sct_written {s : Parse.Sct.Sct R.Num} (h : Writable s)
    (hn : ∀ x ∈ numbers s, IsDecimal (display x) ∧ R.ofText (display x) = x) :
    ∃ colours : Map Str Colour,
      Parse.Sct.parse (write (sctPrinter R display) s) =
        .ok (Proofs.SctWrite.result (sctPrinter R display) (Proofs.SctWrite.back R.dmsText R.ofText) s colours) ∧
      colours.keys.Nodup ∧ ∀ n, colours.get? n = (s.colours.get? n).map fun c => { c with a := 255 } := by
  obtain ⟨f, h1, h2, h3, h4, h5⟩ := Proofs.SctWrite.written (sctPrinter_texts R display) R.ofText h hn
  obtain ⟨colours, e1, e2⟩ := C51_sct_meaning (F := R.Num) R.ofText (fun _ _ => rfl) f h1 h2
  rw [h3, h4] at e1
  exact ⟨colours, e1, Proofs.SctWrite.parse_nodup e1, fun n => by rw [e2, h5]⟩

/-- C66: a file whose texts can be written, whose drawings cannot be merged further and whose coordinates are whole thousandths of a
second is the same after it is written and read, up to the order of its entries and the transparency of its colours.  Writing it again gives
the same text. -/
theorem C66_sct_round_trip (s : Parse.Sct.Sct R.Num) (h : Writable s) (hm : ∀ d ∈ SctWrite.drawings s, Merged d)
    (hp : ∀ p ∈ points s, Whole R p.x ∧ Whole R p.y) (hn : ∀ x ∈ numbers s, IsDecimal (display x) ∧ R.ofText (display x) = x) :
    ∃ t : Parse.Sct.Sct R.Num, Parse.Sct.parse (write (sctPrinter R display) s) = .ok t ∧ Same s t ∧
      write (sctPrinter R display) t = write (sctPrinter R display) s := by
  obtain ⟨colours, h1, h2, h3⟩ := sct_written R display h hn
  have hx : ∀ p ∈ points s, rePoint (Proofs.SctWrite.back R.dmsText R.ofText) p = p := by
    intro p hpm
    obtain ⟨a, b⟩ := hp p hpm
    show Point.mk ((R.dmsText false p.x).value R.ofText) ((R.dmsText true p.y).value R.ofText) = p
    rw [R.value_whole false a, R.value_whole true b]
  rw [Proofs.SctWrite.result_fixed h hm hx] at h1
  refine ⟨_, h1, ⟨rfl, h3, ?_, ?_, ?_, ?_, ?_, ?_, ?_, ?_, ?_, ?_, ?_, ?_, ?_, ?_, ?_⟩, Proofs.SctWrite.write_sorted h.distinct h2 h3⟩
  all_goals exact sortBy_perm _ _

/-- C66: what is read from a written file is ordered by name. -/
theorem C66_sct_order (s : Parse.Sct.Sct R.Num) (h : Writable s)
    (hn : ∀ x ∈ numbers s, IsDecimal (display x) ∧ R.ofText (display x) = x) :
    ∃ t : Parse.Sct.Sct R.Num, Parse.Sct.parse (write (sctPrinter R display) s) = .ok t ∧ SortedBy (·.aerodrome) t.runways ∧ SortedBy (·.name) t.sids ∧
      SortedBy (·.name) t.stars ∧ SortedBy (·.name) t.artccsHigh ∧ SortedBy (·.name) t.artccs ∧ SortedBy (·.name) t.artccsLow ∧
      SortedBy (·.name) t.geo ∧ SortedBy (·.name) t.regions ∧ SortedBy (·.name) t.labels ∧ SortedBy (·.designator) t.highAirways ∧
      SortedBy (·.designator) t.lowAirways := by
  obtain ⟨colours, h1, _⟩ := sct_written R display h hn
  have key : ∀ {A : Type} (f : A → A) (k : A → Str) (_ : ∀ a, k (f a) = k a) (l : List A), SortedBy k ((sortBy k l).map f) := by
    intro A f k hk l
    have := map_sortBy f k l
    have e : (fun a => k (f a)) = k := funext hk
    rw [e] at this
    rw [this]
    exact sortBy_sorted k _
  let re := Proofs.SctWrite.back R.dmsText R.ofText
  have drawing := fun l => key (reDrawing re) (·.name) (fun _ => rfl) l
  have airway := fun l => key (reAirway re) (·.designator) (fun _ => rfl) l
  exact ⟨_, h1, key (reRunway re) (·.aerodrome) (fun _ => rfl) _, drawing _, drawing _, drawing _, drawing _, drawing _, drawing _,
    key (reRegion re) (·.name) (fun _ => rfl) _, key (reLabel re) (·.name) (fun _ => rfl) _, airway _, airway _⟩

/-- C67: a file with other coordinates can be read after it is written, too, and what is read is the file with coordinates that differ by
half a thousandth of a second at most, apart from rounding. -/
theorem C67_sct_near (s : Parse.Sct.Sct R.Num) (h : Writable s) (hn : ∀ x ∈ numbers s, IsDecimal (display x) ∧ R.ofText (display x) = x) :
    ∃ re : Bool → R.Num → R.Num,
      (∀ lat (x : R.Num), 0 ≤ Double.mag x → Double.mag x ≤ 255 → |value (re lat x) - value x| ≤ (1 / 2000) / 3600 + 1 / 10 ^ 9) ∧
      ∃ t : Parse.Sct.Sct R.Num, Parse.Sct.parse (write (sctPrinter R display) s) = .ok t ∧ Same (remap re s) t := by
  obtain ⟨colours, h1, _, h3⟩ := sct_written R display h hn
  refine ⟨Proofs.SctWrite.back R.dmsText R.ofText, fun lat x h0 hx => ?_, _, h1, ⟨rfl, h3, ?_, ?_, ?_, ?_, ?_, ?_, ?_, ?_, ?_, ?_, ?_, ?_, ?_, ?_, ?_⟩⟩
  · have := R.value_near lat x h0 hx
    norm_num at this ⊢
    exact this
  all_goals exact (sortBy_perm _ _).map _

/-- C69, in part: a valid file is read, and what is read can be written and read again, and is the same then.  Missing: files without `[INFO]` or with lines
from a point to itself, for which it is false (`C69_no_info`, `C69_dot_lost`), files with drawings
between coordinates whose names start with an angle or with a word twice, for some of which it is false, too (`C69_name_lost`), and with fractions of thousandths of a second, for which see C67. -/
theorem C69_read_write_partial (f : File) (h : f.Valid) (hf : f.Fits) (hi : ∃ s ∈ f.sections, ∃ i, s.2 = .info i)
    (hd : ∀ s ∈ f.sections, ∀ k b, s.2 = .drawings k b → ∀ brk d, Line.entry brk d ∈ b.lines →
      (∀ c, d.first.start = .coord c → IsTelling d.name) ∧ ∀ l ∈ d.lines, l.start.value R.ofText ≠ l.stop.value R.ofText) :
    ∃ s : Parse.Sct.Sct R.Num, Parse.Sct.parse f.text = .ok s ∧
      ((∀ p ∈ points s, Whole R p.x ∧ Whole R p.y) → (∀ x ∈ numbers s, IsDecimal (display x) ∧ R.ofText (display x) = x) →
        ∃ t : Parse.Sct.Sct R.Num, Parse.Sct.parse (write (sctPrinter R display) s) = .ok t ∧ Same s t ∧ ∀ n, t.colours.get? n = s.colours.get? n) := by
  obtain ⟨colours, h1, h2⟩ := C51_sct_meaning (F := R.Num) R.ofText (fun _ _ => rfl) f h hf
  have hn := Proofs.SctWrite.parse_nodup h1
  have hn : colours.keys.Nodup := hn
  obtain ⟨hw, hm⟩ := Proofs.SctWrite.read_writable R.ofText h hf hi hd hn (Proofs.SctWrite.colour_names h hn h2)
  refine ⟨_, h1, fun hp hx => ?_⟩
  obtain ⟨t, e1, e2, _⟩ := C66_sct_round_trip R display _ hw hm hp hx
  refine ⟨t, e1, e2, fun n => ?_⟩
  rw [e2.colours]
  show (colours.get? n).map _ = colours.get? n
  rw [h2, Proofs.SctWrite.colour_opaque]

end

/-- C68: the text depends neither on the order in which the colours are visited nor on that of radio aids, fixes and airports. -/
theorem C68_sct_text_order {F : Type} (P : Printer F) (s t : Parse.Sct.Sct F) (hs : s.colours.keys.Nodup) (ht : t.colours.keys.Nodup)
    (hc : ∀ n, s.colours.get? n = t.colours.get? n) (hv : s.vors.Perm t.vors) (hn : s.ndbs.Perm t.ndbs) (hf : s.fixes.Perm t.fixes)
    (ha : s.airports.Perm t.airports)
    (e : { t with colours := s.colours, vors := s.vors, ndbs := s.ndbs, fixes := s.fixes, airports := s.airports } = s) :
    write P s = write P t := by
  have n1 : s.colours.Nodup := Proofs.SctWrite.nodup_of_keys (f := fun e : Str × Colour => e.1) hs
  have n2 : t.colours.Nodup := Proofs.SctWrite.nodup_of_keys (f := fun e : Str × Colour => e.1) ht
  have hp : s.colours.Perm t.colours := by
    refine (List.perm_ext_iff_of_nodup n1 n2).2 ?_
    rintro ⟨k, c⟩
    rw [Map.mem_iff_get? hs, Map.mem_iff_get? ht, hc]
  have e1 := sortBy_of_perm (hp.map colour)
  have e2 := sortBy_of_perm (hv.map (navaid P))
  have e3 := sortBy_of_perm (hn.map (navaid P))
  have e4 := sortBy_of_perm (hf.map (fix P))
  have e5 := sortBy_of_perm (ha.map (airport P))
  have : write P s = write P { t with colours := s.colours, vors := s.vors, ndbs := s.ndbs, fixes := s.fixes, airports := s.airports } := by rw [e]
  rw [this]
  unfold write
  simp only [vors, ndbs, fixes, airports, e1, e2, e3, e4, e5]

/-! ## Examples -/

section Examples
attribute [local instance] asciiTables

/-- Thousandths with a sign. -/
def showMilli (x : exactRounding.Num) : Str :=
  let d : Double := x
  (if d.neg then c!"-" else []) ++ (showNat (exactRounding.milli d.mag / 1000) ++ '.' :: Spec.Dms.three (exactRounding.milli d.mag % 1000))

def wAngle (sign : Sign) (deg min milli : Nat) : exactRounding.Num := exactRounding.fromDms sign deg min (exactRounding.rnd (milli / 1000))
def wNumber (s : Str) : exactRounding.Num := exactRounding.ofText s
def wPoint (milli : Nat) : Point exactRounding.Num := ⟨wAngle .neg 11 47 milli, wAngle .pos 48 21 14000⟩

def wFile : Parse.Sct.Sct exactRounding.Num where
  info := ⟨c!"EDMM 2401", c!"EDMM_CTR", c!"EDDM", wPoint 0, wNumber c!"60.5", wNumber c!"39.25", wNumber c!"-3.5", wNumber c!"1.0"⟩
  colours := [(c!"red", ⟨255, 0, 0, 100⟩), (c!"blue", ⟨0, 0, 255, 255⟩)]
  airports := []
  fixes := [⟨c!"AB/C", wPoint 7⟩]
  ndbs := []
  vors := [⟨c!"OTT", c!"112.300", wPoint 1⟩, ⟨c!"MUN", c!"112.300", wPoint 59999⟩]
  runways := []
  sids := []
  stars := []
  artccsHigh := []
  artccs := []
  artccsLow := []
  highAirways := [⟨c!"L1", .fix c!"MUN", .coordinate (wPoint 3)⟩]
  lowAirways := []
  regions := [⟨c!"sea", c!"blue", [wPoint 1, wPoint 2]⟩]
  labels := []
  geo := [⟨c!"coast line", [⟨some c!"red", [[.coordinate (wPoint 1), .coordinate (wPoint 2), .fix c!"MUN"]]⟩, ⟨none, [[.coordinate (wPoint 1), .coordinate (wPoint 2)]]⟩]⟩]

theorem wPoint_whole (k : Nat) (h : k ≤ 59999) : Whole exactRounding (wPoint k).x ∧ Whole exactRounding (wPoint k).y :=
  ⟨⟨.neg, 11, 47, k, by decide, by decide, h, by omega, rfl⟩, ⟨.pos, 48, 21, 14000, by decide, by decide, by decide, by simp, rfl⟩⟩

theorem wFile_numbers : ∀ x ∈ numbers wFile, IsDecimal (showMilli x) ∧ exactRounding.ofText (showMilli x) = x := by
  intro x hx
  simp only [numbers, List.mem_cons, List.not_mem_nil, or_false] at hx
  rcases hx with rfl | rfl | rfl | rfl
  · exact ⟨⟨[], c!"60", c!".500", by decide +kernel, Or.inl rfl, by decide, Or.inr ⟨c!"500", rfl, by decide⟩⟩, by decide +kernel⟩
  · exact ⟨⟨[], c!"39", c!".250", by decide +kernel, Or.inl rfl, by decide, Or.inr ⟨c!"250", rfl, by decide⟩⟩, by decide +kernel⟩
  · exact ⟨⟨c!"-", c!"3", c!".500", by decide +kernel, by simp [IsSign], by decide, Or.inr ⟨c!"500", rfl, by decide⟩⟩, by decide +kernel⟩
  · exact ⟨⟨[], c!"1", c!".000", by decide +kernel, Or.inl rfl, by decide, Or.inr ⟨c!"000", rfl, by decide⟩⟩, by decide +kernel⟩

theorem wFile_points : ∀ p ∈ points wFile, Whole exactRounding p.x ∧ Whole exactRounding p.y := by
  intro p hp
  simp only [points, wFile, SctWrite.drawings, locPoints, List.map_cons, List.map_nil, List.flatMap_cons, List.flatMap_nil, List.cons_append, List.nil_append,
    List.append_nil, List.mem_cons, List.not_mem_nil, or_false] at hp
  rcases hp with rfl | rfl | rfl | rfl | rfl | rfl | rfl | rfl | rfl | rfl | rfl
  all_goals exact wPoint_whole _ (by decide)

/-- A name that starts with another letter. -/
theorem wTelling {c : Char} {r : Str} (h1 : c ∉ c!"NSWEnswe") (h2 : isAsciiUpper c = false) (h3 : isAsciiDigit c = false) : IsTelling (c :: r) where
  noAngle d r hd e := by
    injection e with e _
    exact h1 (e ▸ hd.1)
  noTwice n g r hn hg e := by
    obtain ⟨hn0, hn1⟩ := hn
    cases n with
    | nil => exact hn0 rfl
    | cons d n =>
      injection e with e _
      subst e
      rcases hn1 c List.mem_cons_self with h | h
      · rw [h2] at h; cases h
      · rw [h3] at h; cases h

theorem wFile_writable : Writable wFile where
  name := ⟨by decide, by decide, by decide, by decide⟩
  callsign := ⟨by decide, by decide⟩
  airport := ⟨by decide, by decide⟩
  distinct := by decide
  colours := by
    intro e he
    simp only [wFile, List.mem_cons, List.not_mem_nil, or_false] at he
    rcases he with rfl | rfl <;> exact ⟨by decide, by decide⟩
  vors := by
    intro e he
    simp only [wFile, List.mem_cons, List.not_mem_nil, or_false] at he
    rcases he with rfl | rfl <;> exact ⟨⟨by decide, by decide⟩, dec_ex (a := c!"112") (b := c!"300") (by decide) (by decide)⟩
  ndbs := by simp [wFile]
  fixes := by
    intro e he
    rw [List.mem_singleton.1 he]
    exact ⟨⟨by decide, by decide⟩, by decide⟩
  airports := by simp [wFile]
  runways := by simp [wFile]
  sids := by simp [wFile]
  stars := by simp [wFile]
  artccsHigh := by simp [wFile]
  artccs := by simp [wFile]
  artccsLow := by simp [wFile]
  geo := by
    intro d hd
    rw [List.mem_singleton.1 hd]
    refine ⟨by decide, by decide, by decide, by decide, by decide, by decide, ?_, ?_, ?_⟩
    · intro g hg
      simp only [List.mem_cons, List.not_mem_nil, or_false] at hg
      rcases hg with rfl | rfl
      · refine ⟨by simp, by simp, ?_, ?_⟩
        · intro l hl p hp
          rw [List.mem_singleton.1 hl] at hp
          simp only [List.mem_cons, List.not_mem_nil, or_false] at hp
          rcases hp with rfl | rfl | rfl
          · trivial
          · trivial
          · exact ⟨by decide, by decide⟩
        · intro c hc
          cases hc
          exact ⟨by decide, by decide⟩
      · refine ⟨by simp, by simp, ?_, by simp⟩
        intro l hl p hp
        rw [List.mem_singleton.1 hl] at hp
        simp only [List.mem_cons, List.not_mem_nil, or_false] at hp
        rcases hp with rfl | rfl <;> trivial
    · intro a b h
      cases h
      trivial
    · intro a b h
      cases h
      exact ⟨fun m n h => by simp at h, fun _ _ => wTelling (c := 'c') (by decide) (by decide) (by decide), fun m h => by simp at h⟩
  highAirways := by
    intro e he
    rw [List.mem_singleton.1 he]
    exact ⟨⟨by decide, by decide⟩, by decide, ⟨by decide, by decide⟩, trivial⟩
  lowAirways := by simp [wFile]
  regions := by
    intro e he
    rw [List.mem_singleton.1 he]
    exact ⟨⟨by decide, by decide, by decide, by decide⟩, ⟨by decide, by decide⟩, by decide⟩
  labels := by simp [wFile]

theorem wFile_merged : ∀ d ∈ SctWrite.drawings wFile, Merged d := by
  have next : ∀ {A : Type} {l : List A} {a b : A}, Next l a b → (a, b) ∈ l.zip l.tail := by
    rintro A l a b ⟨p, q, rfl⟩
    induction p with
    | nil => exact List.mem_cons_self
    | cons x p ih =>
      cases p with
      | nil => exact List.mem_cons_of_mem _ ih
      | cons y p => exact List.mem_cons_of_mem _ ih
  intro d hd
  rw [show SctWrite.drawings wFile = wFile.geo from rfl] at hd
  rw [List.mem_singleton.1 hd]
  have e1 : ∀ g ∈ (wFile.geo.flatMap (·.lineGroups)), ∀ l ∈ g.lines, ∀ x ∈ l.zip l.tail, x.1 ≠ x.2 := by decide +kernel
  have e2 : ∀ g ∈ (wFile.geo.flatMap (·.lineGroups)), ∀ x ∈ g.lines.zip g.lines.tail, x.1.getLast? ≠ x.2.head? := by decide +kernel
  have e3 : ∀ x ∈ (wFile.geo.flatMap (·.lineGroups)).zip (wFile.geo.flatMap (·.lineGroups)).tail, x.1.colour ≠ x.2.colour := by decide +kernel
  exact ⟨fun g hg l hl a b h => e1 g hg l hl _ (next h), fun g hg a b h => e2 g hg _ (next h), fun a b h => e3 _ (next h)⟩

/-- The hypotheses of the theorems are met by this file; its entries are in another order when it is read back. -/
example : ∃ t : Parse.Sct.Sct exactRounding.Num, Parse.Sct.parse (write (sctPrinter exactRounding showMilli) wFile) = .ok t ∧ Same wFile t ∧
    write (sctPrinter exactRounding showMilli) t = write (sctPrinter exactRounding showMilli) wFile :=
  C66_sct_round_trip exactRounding showMilli wFile wFile_writable wFile_merged wFile_points wFile_numbers

theorem wRead {p : CoordText} (h : p = sctPoint ∨ p = sctPoint2) :
    Whole exactRounding (p.point exactRounding.ofText).x ∧ Whole exactRounding (p.point exactRounding.ofText).y := by
  rcases h with rfl | rfl
  · have e1 : (sctPoint.point exactRounding.ofText).x = wAngle .pos 11 47 10000 := by decide +kernel
    have e2 : (sctPoint.point exactRounding.ofText).y = wAngle .pos 48 21 14000 := by decide +kernel
    exact ⟨⟨.pos, 11, 47, 10000, by decide, by decide, by decide, by simp, e1⟩, ⟨.pos, 48, 21, 14000, by decide, by decide, by decide, by simp, e2⟩⟩
  · have e1 : (sctPoint2.point exactRounding.ofText).x = wAngle .pos 11 47 10000 := by decide +kernel
    have e2 : (sctPoint2.point exactRounding.ofText).y = wAngle .pos 48 21 15000 := by decide +kernel
    exact ⟨⟨.pos, 11, 47, 10000, by decide, by decide, by decide, by simp, e1⟩, ⟨.pos, 48, 21, 15000, by decide, by decide, by decide, by simp, e2⟩⟩

/-- The hypotheses of `C69_read_write_partial` are met by the file of `C51_sct_meaning`. -/
example : ∃ s t : Parse.Sct.Sct exactRounding.Num, Parse.Sct.parse sctFile.text = .ok s ∧
    Parse.Sct.parse (write (sctPrinter exactRounding showMilli) s) = .ok t ∧ Same s t ∧ ∀ n, t.colours.get? n = s.colours.get? n := by
  have key := C69_read_write_partial exactRounding showMilli sctFile sctFile_valid (by decide) ⟨_, List.mem_cons_self, _, rfl⟩ ?_
  · obtain ⟨s, h1, h2⟩ := key
    obtain ⟨c, h3, _⟩ := C51_sct_meaning (F := exactRounding.Num) exactRounding.ofText (fun _ _ => rfl) sctFile sctFile_valid (by decide)
    have e : s = sctFile.value exactRounding.ofText c := by
      rw [h1] at h3
      injection h3
    have h4 := h2 ?_ ?_
    · exact ⟨s, h4.choose, h1, h4.choose_spec⟩
    · subst e
      intro p hp
      have : p = sctPoint.point exactRounding.ofText ∨ p = sctPoint2.point exactRounding.ofText := by
        have all : ∀ p ∈ points (sctFile.value exactRounding.ofText []), p = sctPoint.point exactRounding.ofText ∨ p = sctPoint2.point exactRounding.ofText := by
          decide +kernel
        exact all p hp
      rcases this with rfl | rfl
      · exact wRead (Or.inl rfl)
      · exact wRead (Or.inr rfl)
    · subst e
      intro x hx
      have e : numbers (sctFile.value exactRounding.ofText c) = [wNumber c!"60.5", wNumber c!"39.5", wNumber c!"-3.5", wNumber c!"0.0"] := by
        have : numbers (sctFile.value exactRounding.ofText []) = [wNumber c!"60.5", wNumber c!"39.5", wNumber c!"-3.5", wNumber c!"0.0"] := by rfl
        exact this
      rw [e] at hx
      simp only [List.mem_cons, List.not_mem_nil, or_false] at hx
      rcases hx with rfl | rfl | rfl | rfl
      · exact ⟨⟨[], c!"60", c!".500", by decide +kernel, Or.inl rfl, by decide, Or.inr ⟨c!"500", rfl, by decide⟩⟩, by decide +kernel⟩
      · exact ⟨⟨[], c!"39", c!".500", by decide +kernel, Or.inl rfl, by decide, Or.inr ⟨c!"500", rfl, by decide⟩⟩, by decide +kernel⟩
      · exact ⟨⟨c!"-", c!"3", c!".500", by decide +kernel, by simp [IsSign], by decide, Or.inr ⟨c!"500", rfl, by decide⟩⟩, by decide +kernel⟩
      · exact ⟨⟨[], c!"0", c!".000", by decide +kernel, Or.inl rfl, by decide, Or.inr ⟨c!"000", rfl, by decide⟩⟩, by decide +kernel⟩
  intro s hs k b e brk d hd
  simp only [sctFile, List.mem_cons, List.not_mem_nil, or_false] at hs
  rcases hs with rfl | rfl | rfl | rfl
  · cases e
  · cases e
  · cases e
    cases List.mem_singleton.1 hd
    refine ⟨fun _ _ => wTelling (by decide) (by decide) (by decide), ?_⟩
    · intro l hl
      have : l = sctLine := by
        simp only [DrawingText.lines, List.map_cons, List.map_nil, List.mem_cons, List.not_mem_nil, or_false, or_self] at hl
        exact hl
      subst this
      decide +kernel
  · cases e

/-! ## What is lost -/

/-- Reading, writing and reading. -/
def sctAgain (content : Str) : Run (Run (Parse.Sct.Sct exactRounding.Num)) :=
  (Parse.Sct.parse content).map fun t => Parse.Sct.parse (write (sctPrinter exactRounding showMilli) t)

def againRejected : Run (Run (Parse.Sct.Sct exactRounding.Num)) → Bool
  | .ok (.error .parseError) => true
  | _ => false

def wInfo : Str := c!"[INFO]\nX\nY\nZ\nN048.00.00.000\nE011.00.00.000\n1\n1\n1\n1\n"

/-- C69 is false: a line from a point to the same point is read, but it is not written, and the rest of the drawing cannot be read. -/
theorem C69_dot_lost : againRejected (sctAgain (wInfo ++ c!"[GEO]\nX N048.00.00.000 E011.00.00.000 N048.00.00.000 E011.00.00.000\n")) = true := by
  decide +kernel

/-- C69 is false: a file without information is read, but what is written cannot be read. -/
theorem C69_no_info : againRejected (sctAgain c!"[VOR]\nMUN 112.300 N048.00.00.000 E011.00.00.000\n") = true := by
  decide +kernel

/-- C69 is false: the name `B B N048` is taken for a line of the drawing in front of it after it is written, since the degrees are written with three
digits then, so what is written cannot be read. -/
theorem C69_name_lost : againRejected (sctAgain (wInfo ++ c!"[GEO]\nB B N048 N48.0.0.0 E11.0.0.0 N49.0.0.0 E12.0.0.0\nA N48.0.0.0 E11.0.0.0 N49.0.0.0 E12.0.0.0\n")) = true := by
  decide +kernel

end Examples

end Verif.Props
