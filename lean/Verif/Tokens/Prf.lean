import Verif.Grammar.Prf
import Verif.Peg.Kids
/-!
# Tokens of the grammar `Prf`

Generated by `tools/tokens.py`.
-/

namespace Verif.Peg.Prf

variable {K : Str → Str → Prop} {ts : List (Tree Rule)}

@[kids_simp] theorem kids_category [UnicodeTables] : Kids skip K category .nonAtomic ts ↔
    ∃ t, Tok skip K category .nonAtomic t ∧ ts = [t] := Iff.rfl

@[kids_simp] theorem kids_category' [UnicodeTables] : Kids skip K category .compound ts ↔
    ∃ t, Tok skip K category .compound t ∧ ts = [t] := Iff.rfl

@[kids_simp] theorem kids_key [UnicodeTables] : Kids skip K key .nonAtomic ts ↔
    ∃ t, Tok skip K key .nonAtomic t ∧ ts = [t] := Iff.rfl

@[kids_simp] theorem kids_key' [UnicodeTables] : Kids skip K key .compound ts ↔
    ∃ t, Tok skip K key .compound t ∧ ts = [t] := Iff.rfl

@[kids_simp] theorem kids_value : Kids skip K value .nonAtomic ts ↔
    ∃ t, Tok skip K value .nonAtomic t ∧ ts = [t] := Iff.rfl

@[kids_simp] theorem kids_value' : Kids skip K value .compound ts ↔
    ∃ t, Tok skip K value .compound t ∧ ts = [t] := Iff.rfl

@[kids_simp] theorem kids_setting [UnicodeTables] : Kids skip K setting .nonAtomic ts ↔
    ∃ t, Tok skip K setting .nonAtomic t ∧ ts = [t] := Iff.rfl

@[kids_simp] theorem kids_setting' [UnicodeTables] : Kids skip K setting .compound ts ↔
    ∃ t, Tok skip K setting .compound t ∧ ts = [t] := Iff.rfl

@[kids_simp] theorem kids_prf [UnicodeTables] : Kids skip K prf .nonAtomic ts ↔
    ∃ t, Tok skip K prf .nonAtomic t ∧ ts = [t] := Iff.rfl

@[kids_simp] theorem kids_prf' [UnicodeTables] : Kids skip K prf .compound ts ↔
    ∃ t, Tok skip K prf .compound t ∧ ts = [t] := Iff.rfl

@[kids_simp] theorem kids_WHITESPACE : Kids skip K WHITESPACE .nonAtomic ts ↔ ts = [] := kids_mute_iff rfl

@[kids_simp] theorem kids_WHITESPACE' : Kids skip K WHITESPACE .compound ts ↔ ts = [] := kids_mute_iff rfl

@[kids_simp] theorem kids_NL : Kids skip K NL .nonAtomic ts ↔ ts = [] := kids_mute_iff rfl

@[kids_simp] theorem kids_NL' : Kids skip K NL .compound ts ↔ ts = [] := kids_mute_iff rfl

end Verif.Peg.Prf
