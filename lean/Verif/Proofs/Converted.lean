import Verif.Spec.Converted
import Verif.Proofs.Decode
import Verif.Props.Decode
import Verif.Props.LineEnds
/-!
# Files whose line ends have been converted: lemmas
-/

namespace Verif.Proofs.Converted
open Verif.Spec Verif.Spec.Decode Verif.Decode Verif.Proofs.LineEnds Verif.Props

/-! ## Symmetry -/

theorem sameLines_symm {s t : Str} (h : SameLines s t) : SameLines t s := by
  induction h with
  | nil => exact .nil
  | char c h1 h2 _ ih => exact .char c h1 h2 ih
  | lineEnd he hf _ ih => exact .lineEnd hf he ih

theorem sameLineBytes_symm {s t : List Byte} (h : SameLineBytes s t) : SameLineBytes t s := by
  induction h with
  | nil => exact .nil
  | byte b h1 h2 _ ih => exact .byte b h1 h2 ih
  | lineEnd he hf _ ih => exact .lineEnd hf he ih

/-! ## Decoding -/

theorem bytes_cons {b : Byte} {s u t : List Byte} (h : SameLineBytes u t) (hu : u = b :: s) (h1 : b ≠ 0x0D) (h2 : b ≠ 0x0A) :
    ∃ t', t = b :: t' ∧ SameLineBytes s t' := by
  cases h with
  | nil => cases hu
  | byte b' _ _ h => cases hu; exact ⟨_, rfl, h⟩
  | lineEnd he hf h => rcases he with rfl | rfl <;> cases hu <;> contradiction

theorem bytes_nil {u t : List Byte} (h : SameLineBytes u t) (hu : u = []) : t = [] := by
  cases h with
  | nil => rfl
  | byte b' _ _ h => cases hu
  | lineEnd he hf h => rcases he with rfl | rfl <;> cases hu

theorem bytes_lf {s u t : List Byte} (h : SameLineBytes u t) (hu : u = 0x0A :: s) :
    ∃ f t', t = f ++ t' ∧ IsLineEndBytes f ∧ SameLineBytes s t' := by
  cases h with
  | nil => cases hu
  | byte b' _ h2 h => cases hu; exact absurd rfl h2
  | lineEnd he hf h =>
    rcases he with rfl | rfl
    · cases hu; exact ⟨_, _, rfl, hf, h⟩
    · exact absurd (List.cons.inj hu).1 (by decide)

theorem bytes_cr {s u t : List Byte} (h : SameLineBytes u t) (hu : u = 0x0D :: s) :
    ∃ s' f t', s = 0x0A :: s' ∧ t = f ++ t' ∧ IsLineEndBytes f ∧ SameLineBytes s' t' := by
  cases h with
  | nil => cases hu
  | byte b' h1 _ h => cases hu; exact absurd rfl h1
  | lineEnd he hf h =>
    rcases he with rfl | rfl
    · exact absurd (List.cons.inj hu).1 (by decide)
    · cases hu; exact ⟨_, _, _, rfl, rfl, hf, h⟩

theorem encode_bytes {c : Char} (h1 : c ≠ '\r') (h2 : c ≠ '\n') : ∀ b ∈ encode c, b ≠ 0x0D ∧ b ≠ 0x0A := by
  have hlt : c.toNat < 0x110000 := by rcases char_cases c with h | h <;> omega
  have n1 : c.toNat ≠ 13 := fun e => h1 (by rw [← Verif.Decode.ofNat_toNat c, e])
  have n2 : c.toNat ≠ 10 := fun e => h2 (by rw [← Verif.Decode.ofNat_toNat c, e])
  have key : ∀ n : Nat, n < 256 → n ≠ 13 → n ≠ 10 → Fin.ofNat 256 n ≠ 0x0D ∧ Fin.ofNat 256 n ≠ 0x0A := by
    intro n hn a b
    refine ⟨fun e => ?_, fun e => ?_⟩
    · have := congrArg Fin.val e
      rw [val_ofNat hn] at this
      exact a this
    · have := congrArg Fin.val e
      rw [val_ofNat hn] at this
      exact b this
  unfold encode
  dsimp only
  intro b hb
  split at hb
  · rw [List.mem_singleton.1 hb]; exact key _ (by omega) n1 n2
  · split at hb
    · simp only [List.mem_cons, List.not_mem_nil, or_false] at hb
      rcases hb with rfl | rfl <;> exact key _ (by omega) (by omega) (by omega)
    · split at hb <;>
      · simp only [List.mem_cons, List.not_mem_nil, or_false] at hb
        rcases hb with rfl | rfl | rfl | rfl <;> exact key _ (by omega) (by omega) (by omega)

theorem bytes_append {l s u t : List Byte} (h : SameLineBytes u t) (hu : u = l ++ s) (hl : ∀ b ∈ l, b ≠ 0x0D ∧ b ≠ 0x0A) :
    ∃ t', t = l ++ t' ∧ SameLineBytes s t' := by
  induction l generalizing u t with
  | nil => exact ⟨t, rfl, by rw [← show u = s from hu]; exact h⟩
  | cons b l ih =>
    obtain ⟨t', rfl, h'⟩ := bytes_cons h hu (hl b (by simp)).1 (hl b (by simp)).2
    obtain ⟨t'', rfl, h''⟩ := ih h' rfl fun b hb => hl b (by simp [hb])
    exact ⟨t'', rfl, h''⟩

theorem utf8_lf {s : Str} {l : List Byte} (h : s.flatMap encode = 0x0A :: l) : ∃ s', s = '\n' :: s' ∧ l = s'.flatMap encode := by
  cases s with
  | nil => cases h
  | cons c s =>
    rw [List.flatMap_cons] at h
    have hn := next_encode c (s.flatMap encode)
    rw [h] at hn
    have : next (0x0A :: l) = some ('\n', l) := rfl
    rw [this] at hn
    cases hn
    exact ⟨s, rfl, rfl⟩

theorem lineEnd_text {f : List Byte} (h : IsLineEndBytes f) : ∃ e : Str, IsLineEnd e ∧ f = e.flatMap encode := by
  rcases h with rfl | rfl
  · exact ⟨['\n'], Or.inl rfl, by decide⟩
  · exact ⟨['\r', '\n'], Or.inr rfl, by decide⟩

theorem utf8_same : ∀ (n : Nat) (s : Str), s.length ≤ n → ∀ {b : List Byte}, SameLineBytes (s.flatMap encode) b →
    ∃ s', b = s'.flatMap encode ∧ SameLines s s'
  | n, [], _, b, h => ⟨[], bytes_nil h rfl, .nil⟩
  | n + 1, c :: s, hn', b, h => by
    rw [List.flatMap_cons] at h
    have hn : s.length ≤ n := by simpa using hn'
    rcases Classical.em (c = '\n') with rfl | h2
    · obtain ⟨f, t', rfl, hf, h'⟩ := bytes_lf h (s := s.flatMap encode) (by rw [show encode '\n' = [0x0A] by decide]; rfl)
      obtain ⟨s', rfl, hs⟩ := utf8_same n s hn h'
      obtain ⟨e, he, rfl⟩ := lineEnd_text hf
      exact ⟨e ++ s', by rw [List.flatMap_append], SameLines.lineEnd (e := ['\n']) (Or.inl rfl) he hs⟩
    · rcases Classical.em (c = '\r') with rfl | h1
      · obtain ⟨l, f, t', hl, rfl, hf, h'⟩ := bytes_cr h (s := s.flatMap encode) (by rw [show encode '\r' = [0x0D] by decide]; rfl)
        obtain ⟨s2, rfl, rfl⟩ := utf8_lf hl
        obtain ⟨s', rfl, hs⟩ := utf8_same n s2 (by simp at hn; omega) h'
        obtain ⟨e, he, rfl⟩ := lineEnd_text hf
        exact ⟨e ++ s', by rw [List.flatMap_append], SameLines.lineEnd (e := ['\r', '\n']) (Or.inr rfl) he hs⟩
      · obtain ⟨t', rfl, h'⟩ := bytes_append h rfl (encode_bytes h1 h2)
        obtain ⟨s', rfl, hs⟩ := utf8_same n s hn h'
        exact ⟨c :: s', rfl, .char c h1 h2 hs⟩
  | 0, c :: s, hn, b, h => by simp at hn

theorem windows_lines : ∀ b : Byte, (b ≠ 0x0D → windows b ≠ '\r') ∧ (b ≠ 0x0A → windows b ≠ '\n') := by decide +kernel

theorem windows_same {b b' : List Byte} (h : SameLineBytes b b') : SameLines (b.map windows) (b'.map windows) := by
  induction h with
  | nil => exact .nil
  | byte b h1 h2 _ ih => exact .char _ ((windows_lines b).1 h1) ((windows_lines b).2 h2) ih
  | lineEnd he hf _ ih =>
    have key : ∀ {e : List Byte}, IsLineEndBytes e → IsLineEnd (e.map windows) := by
      rintro e (rfl | rfl)
      · exact Or.inl (by decide)
      · exact Or.inr (by decide)
    rw [List.map_append, List.map_append]
    exact .lineEnd (key he) (key hf) ih

theorem utf8_iff {b b' : List Byte} (h : SameLineBytes b b') : IsUtf8 b → IsUtf8 b' := by
  rintro ⟨s, rfl⟩
  obtain ⟨s', rfl, _⟩ := utf8_same _ s (Nat.le_refl _) h
  exact ⟨s', rfl⟩

theorem bom_same {b b' : List Byte} (h : SameLineBytes b b') (hb : ∀ m ∈ boms, ¬ m <+: b) : ∀ m ∈ boms, ¬ m <+: b' := by
  rintro m hm ⟨l, rfl⟩
  have hl : ∀ x ∈ m, x ≠ (0x0D : Byte) ∧ x ≠ 0x0A := by
    simp only [boms, List.mem_cons, List.not_mem_nil, or_false] at hm
    rcases hm with rfl | rfl | rfl <;> simp <;> decide
  obtain ⟨t', rfl, _⟩ := bytes_append (sameLineBytes_symm h) rfl hl
  exact hb m hm ⟨_, rfl⟩

theorem isPlain_same {b b' : List Byte} (h : SameLineBytes b b') : IsPlain b → IsPlain b'
  | .inl hu => .inl (utf8_iff h hu)
  | .inr hb => .inr (bom_same h hb)

theorem read_same (lossy : List Byte → Str) {b b' : List Byte} (h : SameLineBytes b b') (hp : IsPlain b) :
    SameLines (readToString lossy b) (readToString lossy b') := by
  rcases Classical.em (IsUtf8 b) with ⟨s, rfl⟩ | hu
  · obtain ⟨s', rfl, hs⟩ := utf8_same _ s (Nat.le_refl _) h
    rw [C48_utf8, C48_utf8]
    exact hs
  · have hb := hp.resolve_left hu
    rw [C48_windows_partial lossy b hu hb, C48_windows_partial lossy b' (fun x => hu (utf8_iff (sameLineBytes_symm h) x)) (bom_same h hb)]
    exact windows_same h

end Verif.Proofs.Converted
