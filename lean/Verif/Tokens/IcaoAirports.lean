import Verif.Grammar.IcaoAirports
import Verif.Peg.Kids
/-!
# Tokens of the grammar `IcaoAirports`

Generated by `tools/tokens.py`.
-/

namespace Verif.Peg.IcaoAirports

variable {K : Str → Str → Prop} {ts : List (Tree Rule)}

@[kids_simp] theorem kids_designator [UnicodeTables] : Kids skip K designator .nonAtomic ts ↔
    ∃ t, Tok skip K designator .nonAtomic t ∧ ts = [t] := Iff.rfl

@[kids_simp] theorem kids_designator' [UnicodeTables] : Kids skip K designator .compound ts ↔
    ∃ t, Tok skip K designator .compound t ∧ ts = [t] := Iff.rfl

@[kids_simp] theorem kids_tab_delimited_text : Kids skip K tab_delimited_text .nonAtomic ts ↔
    ∃ t, Tok skip K tab_delimited_text .nonAtomic t ∧ ts = [t] := Iff.rfl

@[kids_simp] theorem kids_tab_delimited_text' : Kids skip K tab_delimited_text .compound ts ↔
    ∃ t, Tok skip K tab_delimited_text .compound t ∧ ts = [t] := Iff.rfl

@[kids_simp] theorem kids_name : Kids skip K name .nonAtomic ts ↔
    ∃ t, Tok skip K name .nonAtomic t ∧ ts = [t] := Iff.rfl

@[kids_simp] theorem kids_name' : Kids skip K name .compound ts ↔
    ∃ t, Tok skip K name .compound t ∧ ts = [t] := Iff.rfl

@[kids_simp] theorem kids_country : Kids skip K country .nonAtomic ts ↔
    ∃ t, Tok skip K country .nonAtomic t ∧ ts = [t] := Iff.rfl

@[kids_simp] theorem kids_country' : Kids skip K country .compound ts ↔
    ∃ t, Tok skip K country .compound t ∧ ts = [t] := Iff.rfl

@[kids_simp] theorem kids_definition [UnicodeTables] : Kids skip K definition .nonAtomic ts ↔
    ∃ t, Tok skip K definition .nonAtomic t ∧ ts = [t] := Iff.rfl

@[kids_simp] theorem kids_definition' [UnicodeTables] : Kids skip K definition .compound ts ↔
    ∃ t, Tok skip K definition .compound t ∧ ts = [t] := Iff.rfl

@[kids_simp] theorem kids_aircraft [UnicodeTables] : Kids skip K aircraft .nonAtomic ts ↔
    ∃ t, Tok skip K aircraft .nonAtomic t ∧ ts = [t] := Iff.rfl

@[kids_simp] theorem kids_aircraft' [UnicodeTables] : Kids skip K aircraft .compound ts ↔
    ∃ t, Tok skip K aircraft .compound t ∧ ts = [t] := Iff.rfl

@[kids_simp] theorem kids_WHITESPACE : Kids skip K WHITESPACE .nonAtomic ts ↔ ts = [] := kids_mute_iff rfl

@[kids_simp] theorem kids_WHITESPACE' : Kids skip K WHITESPACE .compound ts ↔ ts = [] := kids_mute_iff rfl

@[kids_simp] theorem kids_COMMENT : Kids skip K COMMENT .nonAtomic ts ↔ ts = [] := kids_mute_iff rfl

@[kids_simp] theorem kids_COMMENT' : Kids skip K COMMENT .compound ts ↔ ts = [] := kids_mute_iff rfl

@[kids_simp] theorem kids_NL : Kids skip K NL .nonAtomic ts ↔ ts = [] := kids_mute_iff rfl

@[kids_simp] theorem kids_NL' : Kids skip K NL .compound ts ↔ ts = [] := kids_mute_iff rfl

end Verif.Peg.IcaoAirports
