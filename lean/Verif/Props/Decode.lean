import Verif.Proofs.Decode
import Verif.Base.Lit
/-!
# Reading bytes as text: theorems

C48.  UTF-8, windows-1252 and the byte order marks are specified in `Verif/Spec/Decode.lean`.
-/

namespace Verif.Props
open Verif.Decode Verif.Spec.Decode

/-- C48: the UTF-8 encoding of a text is read as this text, whatever it is. -/
theorem C48_utf8 (lossy : List Byte → Str) (s : Str) : readToString lossy (s.flatMap encode) = s := by
  unfold readToString
  rw [fromUtf8_iff.2 rfl]

theorem starts_of_prefix {bytes p : List Byte} (h : ∀ b ∈ boms, ¬ b <+: bytes) (hp : p ∈ boms) (l : List Byte) : bytes ≠ p ++ l :=
  fun e => h p hp ⟨l, e.symm⟩

/-- C48, for bytes without a byte order mark: bytes that are not UTF-8 are read one by one as windows-1252.
Missing: bytes that start with a byte order mark, for which it is false (`C48_bom`). -/
theorem C48_windows_partial (lossy : List Byte → Str) (bytes : List Byte) (h : ¬ IsUtf8 bytes) (hb : ∀ b ∈ boms, ¬ b <+: bytes) :
    readToString lossy bytes = bytes.map windows := by
  unfold readToString
  cases e : fromUtf8 bytes with
  | some s => exact absurd ⟨s, fromUtf8_iff.1 e⟩ h
  | none =>
    simp only
    unfold decodeWindows
    split
    · rename_i l
      exact absurd rfl (starts_of_prefix hb (p := [0xEF, 0xBB, 0xBF]) (by simp [boms]) l)
    · rename_i l
      exact absurd rfl (starts_of_prefix hb (p := [0xFE, 0xFF]) (by simp [boms]) l)
    · rename_i l
      exact absurd rfl (starts_of_prefix hb (p := [0xFF, 0xFE]) (by simp [boms]) l)
    · rfl

/-- C48 is false: with a byte order mark of UTF-16 the bytes `C4 01` become one character, and the mark is lost. -/
theorem C48_bom (lossy : List Byte → Str) : ¬ IsUtf8 [0xFF, 0xFE, 0xC4, 0x01] ∧ readToString lossy [0xFF, 0xFE, 0xC4, 0x01] = ['Ǆ'] ∧
    [(0xFF : Byte), 0xFE, 0xC4, 0x01].map windows = ['ÿ', 'þ', 'Ä', '\x01'] := by
  refine ⟨?_, ?_, by decide⟩
  · rintro ⟨s, h⟩
    have := fromUtf8_iff.2 h
    exact absurd this (by rw [show fromUtf8 [0xFF, 0xFE, 0xC4, 0x01] = none by decide]; simp)
  · have : fromUtf8 [0xFF, 0xFE, 0xC4, 0x01] = none := by decide
    unfold readToString
    rw [this]
    show fromUtf16 [0x01 * 256 + 0xC4] = ['Ǆ']
    decide

/-- Text with characters of one, two and three bytes. -/
example : readToString (fun _ => []) (c!"Zürich €".flatMap encode) = c!"Zürich €" ∧ (c!"Zürich €".flatMap encode).length = 11 :=
  ⟨C48_utf8 _ _, by decide⟩

/-- Bytes that meet the hypotheses of `C48_windows_partial`: `Zürich €` in windows-1252. -/
example : ¬ IsUtf8 [0x5A, 0xFC, 0x72, 0x69, 0x63, 0x68, 0x20, 0x80] ∧ (∀ b ∈ boms, ¬ b <+: ([0x5A, 0xFC, 0x72, 0x69, 0x63, 0x68, 0x20, 0x80] : List Byte)) ∧
    ([0x5A, 0xFC, 0x72, 0x69, 0x63, 0x68, 0x20, 0x80] : List Byte).map windows = c!"Zürich €" := by
  refine ⟨?_, by decide, by decide⟩
  rintro ⟨s, h⟩
  have := fromUtf8_iff.2 h
  exact absurd this (by rw [show fromUtf8 [0x5A, 0xFC, 0x72, 0x69, 0x63, 0x68, 0x20, 0x80] = none by decide]; simp)

end Verif.Props
