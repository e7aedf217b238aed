import Verif.Grammar.NavdataAirports
import Verif.Peg.Kids
/-!
# Tokens of the grammar `NavdataAirports`

Generated by `tools/tokens.py`.
-/

namespace Verif.Peg.NavdataAirports

variable {K : Str → Str → Prop} {ts : List (Tree Rule)}

@[kids_simp] theorem kids_decimal : Kids skip K decimal .nonAtomic ts ↔
    ∃ t, Tok skip K decimal .nonAtomic t ∧ ts = [t] := Iff.rfl

@[kids_simp] theorem kids_decimal' : Kids skip K decimal .compound ts ↔
    ∃ t, Tok skip K decimal .compound t ∧ ts = [t] := Iff.rfl

@[kids_simp] theorem kids_designator [UnicodeTables] : Kids skip K designator .nonAtomic ts ↔
    ∃ t, Tok skip K designator .nonAtomic t ∧ ts = [t] := Iff.rfl

@[kids_simp] theorem kids_designator' [UnicodeTables] : Kids skip K designator .compound ts ↔
    ∃ t, Tok skip K designator .compound t ∧ ts = [t] := Iff.rfl

@[kids_simp] theorem kids_name : Kids skip K name .nonAtomic ts ↔
    ∃ t, Tok skip K name .nonAtomic t ∧ ts = [t] := Iff.rfl

@[kids_simp] theorem kids_name' : Kids skip K name .compound ts ↔
    ∃ t, Tok skip K name .compound t ∧ ts = [t] := Iff.rfl

@[kids_simp] theorem kids_definition [UnicodeTables] : Kids skip K definition .nonAtomic ts ↔
    ∃ t, Tok skip K definition .nonAtomic t ∧ ts = [t] := Iff.rfl

@[kids_simp] theorem kids_definition' [UnicodeTables] : Kids skip K definition .compound ts ↔
    ∃ t, Tok skip K definition .compound t ∧ ts = [t] := Iff.rfl

@[kids_simp] theorem kids_airports [UnicodeTables] : Kids skip K airports .nonAtomic ts ↔
    ∃ t, Tok skip K airports .nonAtomic t ∧ ts = [t] := Iff.rfl

@[kids_simp] theorem kids_airports' [UnicodeTables] : Kids skip K airports .compound ts ↔
    ∃ t, Tok skip K airports .compound t ∧ ts = [t] := Iff.rfl

@[kids_simp] theorem kids_WHITESPACE : Kids skip K WHITESPACE .nonAtomic ts ↔ ts = [] := kids_mute_iff rfl

@[kids_simp] theorem kids_WHITESPACE' : Kids skip K WHITESPACE .compound ts ↔ ts = [] := kids_mute_iff rfl

@[kids_simp] theorem kids_COMMENT : Kids skip K COMMENT .nonAtomic ts ↔ ts = [] := kids_mute_iff rfl

@[kids_simp] theorem kids_COMMENT' : Kids skip K COMMENT .compound ts ↔ ts = [] := kids_mute_iff rfl

@[kids_simp] theorem kids_NL : Kids skip K NL .nonAtomic ts ↔ ts = [] := kids_mute_iff rfl

@[kids_simp] theorem kids_NL' : Kids skip K NL .compound ts ↔ ts = [] := kids_mute_iff rfl

end Verif.Peg.NavdataAirports
