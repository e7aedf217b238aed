import Verif.Peg.Seg
import Verif.Peg.Safe
import Verif.Proofs.Gated
import Verif.Spec.Sct
import Verif.Tokens.Sct
/-!
# The tokens of .sct files
-/

namespace Verif.Proofs.Sct
open Verif.Proofs Verif.Peg Verif.Spec Verif.Spec.Sct Verif.Dms Verif.Parse
open Verif.Spec.Ese (DmsText Fits number)
open Verif.Peg.Sct (Rule skip)
open Verif.Parse.Sct (nextStr nextUnsigned parseCoordinatePart parseCoordinate)

set_option linter.unusedSectionVars false

/-- What the skip of this grammar consumes. -/
abbrev K : Str → Str → Prop := Blank [Peg.Sct.WHITESPACE, Peg.Sct.COMMENT]

def isBlank (c : Char) : Bool := c == ' ' || (c == '\t' || c == '﻿')

theorem blank_iff' {c : Char} : isBlank c = true ↔ IsBlank c := by
  simp [isBlank, IsBlank, IsBlankChar, or_assoc]

theorem apart : Apart isBlank commentMarks := by
  refine ⟨?_, ?_⟩
  · intro c h
    rcases newline_iff.1 h with rfl | rfl <;> decide
  · intro w hw
    simp only [commentMarks, List.mem_cons, List.not_mem_nil, or_false] at hw
    rcases hw with rfl | rfl
    · exact ⟨';', [], rfl, by decide, by decide⟩
    · exact ⟨'/', ['/'], rfl, by decide, by decide⟩

theorem likeWs {sk : St → Res Rule} {K : Str → Str → Prop} (hu : Uniform sk) (a : Atom) : LikeCls sk K Peg.Sct.WHITESPACE a isBlank :=
  ((likeCls_char ' ' _).alt ((likeCls_char '\t' _).alt (likeCls_char '﻿' _) (uniform_eval hu _ rfl _)) (uniform_eval hu _ rfl _)).quiet

theorem like_ws : LikeCls noSkip NoGap Peg.Sct.WHITESPACE .atomic isBlank := likeWs uniform_noSkip _

theorem like_comment : LikeComment Peg.Sct.COMMENT commentMarks := likeComment_std

theorem lineSkip : LineSkip skip K isBlank commentMarks where
  ok := skipBoth_ok rfl rfl
  exact := skipBoth_exact rfl rfl rfl rfl (disjoint_of like_ws like_comment apart rfl)
  uniform := uniform_skipBoth rfl rfl
  iff := blank_iff like_ws like_comment apart
  apart := apart
  blank := fun c h => by rcases blankChar_iff.1 h with rfl | rfl <;> decide

abbrev S := Seg skip K
abbrev P := Pb skip K
abbrev Start := LineStart isBlank commentMarks

theorem k_noNl {m r : Str} (h : K m r) : NoNl m := lineSkip.noNl (by simp [NoNl]; decide) h

theorem not_end {c : Char} {t : Str} (h : isNewlineChar c = false) : ¬ AtLineEnd (c :: t) := fun h' => by
  have := headNot_cons.1 h'
  rw [h] at this
  cases this

theorem k_blanks {m : Str} {c : Char} {t : Str} (h : K m (c :: t)) (hc : isNewlineChar c = false) : Spec.Sct.AreBlanks m :=
  fun d hd => blank_iff'.1 (lineSkip.blanks h (not_end hc) d hd)

theorem blanks_before {m n r : Str} (h : K m (n ++ r)) (hn : ∃ c t, n = c :: t ∧ isNewlineChar c = false) : Spec.Sct.AreBlanks m := by
  obtain ⟨c, t, rfl, hc⟩ := hn
  exact k_blanks h hc

/-! ## Numbers -/

theorem read_unsigned {q : Rule} {s : Str} {ts : List (Tree Rule)} {bound : Nat} (h : IsInteger s) :
    nextUnsigned bound (.node q s [] :: ts) = gated (Fits bound s) (number s, ts) := by
  show (unwrap (parseUnsigned 10 bound s)).bind _ = _
  rw [parseUnsigned_integer h, unwrap_gated]
  exact gated_ok rfl

theorem read_digits {q : Rule} {s : Str} {ts : List (Tree Rule)} {bound : Nat} (h : IsDigits s) :
    nextUnsigned bound (.node q s [] :: ts) = gated (digitsValue s < bound) (digitsValue s, ts) := by
  show (unwrap (parseUnsigned 10 bound s)).bind _ = _
  rw [parseUnsigned_digits h, unwrap_gated]
  exact gated_ok rfl

theorem not_newline_digit {c : Char} (hc : isAsciiDigit c = true) : isNewlineChar c = false := by
  cases hn : isNewlineChar c with
  | false => rfl
  | true => rcases newline_iff.1 hn with rfl | rfl <;> exact absurd hc (by decide)

theorem integer_head {n : Str} (h : IsInteger n) : ∃ c t, n = c :: t ∧ isNewlineChar c = false := by
  obtain ⟨sg, ds, rfl, h1, h2⟩ := h
  rcases h1 with rfl | rfl | rfl
  · cases ds with
    | nil => exact absurd rfl h2.1
    | cons c t => exact ⟨c, t, rfl, not_newline_digit (h2.2 c List.mem_cons_self)⟩
  · exact ⟨'-', ds, rfl, by decide⟩
  · exact ⟨'+', ds, rfl, by decide⟩

theorem out_posInteger {s r : Str} {ts : List (Tree Rule)} (h : Out skip K Peg.Sct.pos_integer .nonAtomic s r ts) :
    IsPosInteger s ∧ ts = [.node .pos_integer s []] := by
  obtain ⟨kids, ho, rfl⟩ := h
  have := out_pos_integer (by decide) ho
  rw [this.1]
  exact ⟨this.2, rfl⟩

theorem out_decimal_rule {s r : Str} {ts : List (Tree Rule)} (h : Out skip K Peg.Sct.decimal .nonAtomic s r ts) :
    IsDecimal s ∧ ts = [.node .decimal s []] := by
  obtain ⟨kids, ho, rfl⟩ := h
  have := out_decimal (by decide) ho
  rw [this.1]
  exact ⟨this.2, rfl⟩

/-! ## Coordinates -/

def dmsTree (d : DmsText) : Tree Rule :=
  .node .sct_coord_part d.text [.node .hemi [d.hemi] [], .node .deg d.deg [], .node .min d.min [], .node .sec d.sec []]

theorem out_dms {a : Atom} {s r : Str} {ts : List (Tree Rule)} (h : Out skip K Peg.Sct.sct_coord_part a s r ts) :
    ∃ d : DmsText, d.Valid ∧ s = d.text ∧ ts = [dmsTree d] := by
  obtain ⟨ks, ho, rfl⟩ := h
  have ho : Out skip K _ .compound _ _ _ := ho
  obtain ⟨s1, s2, t1, t2, rfl, rfl, h1, h2⟩ := (out_seq_atomic (by decide)).1 ho
  obtain ⟨s3, s4, t3, t4, rfl, rfl, h3, h4⟩ := (out_seq_atomic (by decide)).1 h2
  obtain ⟨s5, s6, t5, t6, rfl, rfl, ⟨rfl, rfl⟩, h6⟩ := (out_seq_atomic (by decide)).1 h4
  obtain ⟨s7, s8, t7, t8, rfl, rfl, h7, h8⟩ := (out_seq_atomic (by decide)).1 h6
  obtain ⟨s9, s10, t9, t10, rfl, rfl, ⟨rfl, rfl⟩, h10⟩ := (out_seq_atomic (by decide)).1 h8
  obtain ⟨k1, h1, rfl⟩ := h1
  obtain ⟨k3, h3, rfl⟩ := h3
  obtain ⟨k7, h7, rfl⟩ := h7
  obtain ⟨k10, ⟨k11, h10, e⟩, rfl⟩ := h10
  have hh : (∃ c ∈ c!"NSWEnswe", s1 = [c]) ∧ k1 = [] := by
    rcases h1 with ⟨rfl, rfl⟩ | ⟨⟨rfl, rfl⟩ | ⟨⟨rfl, rfl⟩ | ⟨⟨rfl, rfl⟩ | ⟨⟨rfl, rfl⟩ | ⟨⟨rfl, rfl⟩ | ⟨⟨rfl, rfl⟩ |
      ⟨⟨rfl, rfl⟩, _⟩, _⟩, _⟩, _⟩, _⟩, _⟩, _⟩
    all_goals exact ⟨⟨_, by decide, rfl⟩, rfl⟩
  obtain ⟨⟨c, hc, rfl⟩, rfl⟩ := hh
  have e3 := out_digits (by decide) h3
  have e7 := out_digits (by decide) h7
  have e10 := out_decimal (by decide) h10
  refine ⟨⟨c, s3, s7, s10⟩, ⟨hc, e3.2, e7.2, e10.2⟩, by simp [DmsText.text], ?_⟩
  rw [e3.1, e7.1, e, e10.1]
  simp [emits, inside, dmsTree, DmsText.text]

theorem out_ws {a : Atom} (ha : a ≠ .nonAtomic) {s r : Str} {ts : List (Tree Rule)}
    (h : Out skip K (.plus Peg.Sct.WHITESPACE) a s r ts) : IsGap s ∧ ts = [] := by
  have := ((likeWs lineSkip.uniform a).plus ha).1 h
  exact ⟨⟨this.1, fun c hc => blank_iff'.1 (this.2.1 c hc)⟩, this.2.2.2⟩

theorem out_coord {a : Atom} {s r : Str} {ts : List (Tree Rule)} (h : Out skip K Peg.Sct.sct_coordinate a s r ts) :
    ∃ (d : DmsText) (g : Str) (d' : DmsText), d.Valid ∧ IsGap g ∧ d'.Valid ∧ s = d.text ++ (g ++ d'.text) ∧
      ts = [.node .sct_coordinate s [dmsTree d, dmsTree d']] := by
  obtain ⟨ks, ho, rfl⟩ := h
  have ho : Out skip K _ .compound _ _ _ := ho
  obtain ⟨s1, s2, t1, t2, rfl, rfl, h1, h2⟩ := (out_seq_atomic (by decide)).1 ho
  obtain ⟨s3, s4, t3, t4, rfl, rfl, h3, h4⟩ := (out_seq_atomic (by decide)).1 h2
  obtain ⟨d, hd, rfl, rfl⟩ := out_dms h1
  obtain ⟨d', hd', rfl, rfl⟩ := out_dms h4
  obtain ⟨hg, rfl⟩ := out_ws (by decide) h3
  exact ⟨d, s3, d', hd, hg, hd', rfl, by simp [emits]⟩

section
variable {F : Type} [F64 F] (num : Str → F) (hnum : ∀ s, IsDecimal s → F64.ofText s = some (num s))
include hnum

theorem read_dms {d : DmsText} (h : d.Valid) :
    parseCoordinatePart (dmsTree d) = gated d.Fits ⟨d.sign, digitsValue d.deg, digitsValue d.min, num d.sec⟩ := by
  obtain ⟨h1, h2, h3, h4⟩ := h
  show (Sign.ofHemi [d.hemi]).bind _ = _
  have hs : Sign.ofHemi [d.hemi] = .ok d.sign := by
    unfold DmsText.sign
    revert h1
    generalize d.hemi = c
    intro h1
    simp only [List.mem_cons, List.not_mem_nil, or_false] at h1
    rcases h1 with rfl | rfl | rfl | rfl | rfl | rfl | rfl | rfl <;> rfl
  rw [hs]
  show (nextUnsigned (2 ^ 16) (.node .deg d.deg [] :: _)).bind _ = _
  rw [read_digits h2]
  refine gated_bind ?_
  show (nextUnsigned (2 ^ 8) (.node .min d.min [] :: _)).bind _ = _
  rw [read_digits h3]
  refine gated_ok ?_
  show (unwrap (F64.ofText d.sec)).bind _ = _
  rw [hnum _ h4]
  rfl

variable [DmsArith F]

theorem read_coord {d d' : DmsText} {s : Str} (h : d.Valid) (h' : d'.Valid) :
    parseCoordinate (.node .sct_coordinate s [dmsTree d, dmsTree d']) =
      gated (d.Fits ∧ d'.Fits) ({ x := d'.value num, y := d.value num } : Point F) := by
  show (parseCoordinatePart (dmsTree d)).bind _ = _
  rw [read_dms num hnum h]
  refine gated_bind ?_
  show (parseCoordinatePart (dmsTree d')).bind _ = _
  rw [read_dms num hnum h']
  exact gated_ok rfl
end

end Verif.Proofs.Sct
