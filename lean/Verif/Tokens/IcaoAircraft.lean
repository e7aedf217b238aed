import Verif.Grammar.IcaoAircraft
import Verif.Peg.Kids
/-!
# Tokens of the grammar `IcaoAircraft`

Generated by `tools/tokens.py`.
-/

namespace Verif.Peg.IcaoAircraft

variable {K : Str → Str → Prop} {ts : List (Tree Rule)}

@[kids_simp] theorem kids_designator [UnicodeTables] : Kids skip K designator .nonAtomic ts ↔
    ∃ t, Tok skip K designator .nonAtomic t ∧ ts = [t] := Iff.rfl

@[kids_simp] theorem kids_designator' [UnicodeTables] : Kids skip K designator .compound ts ↔
    ∃ t, Tok skip K designator .compound t ∧ ts = [t] := Iff.rfl

@[kids_simp] theorem kids_wtc : Kids skip K wtc .nonAtomic ts ↔
    ∃ t, Tok skip K wtc .nonAtomic t ∧ ts = [t] := Iff.rfl

@[kids_simp] theorem kids_wtc' : Kids skip K wtc .compound ts ↔
    ∃ t, Tok skip K wtc .compound t ∧ ts = [t] := Iff.rfl

@[kids_simp] theorem kids_aircrafttype : Kids skip K aircrafttype .nonAtomic ts ↔
    ∃ t, Tok skip K aircrafttype .nonAtomic t ∧ ts = [t] := Iff.rfl

@[kids_simp] theorem kids_aircrafttype' : Kids skip K aircrafttype .compound ts ↔
    ∃ t, Tok skip K aircrafttype .compound t ∧ ts = [t] := Iff.rfl

@[kids_simp] theorem kids_num_engines [UnicodeTables] : Kids skip K num_engines .nonAtomic ts ↔
    ∃ t, Tok skip K num_engines .nonAtomic t ∧ ts = [t] := Iff.rfl

@[kids_simp] theorem kids_num_engines' [UnicodeTables] : Kids skip K num_engines .compound ts ↔
    ∃ t, Tok skip K num_engines .compound t ∧ ts = [t] := Iff.rfl

@[kids_simp] theorem kids_enginetype : Kids skip K enginetype .nonAtomic ts ↔
    ∃ t, Tok skip K enginetype .nonAtomic t ∧ ts = [t] := Iff.rfl

@[kids_simp] theorem kids_enginetype' : Kids skip K enginetype .compound ts ↔
    ∃ t, Tok skip K enginetype .compound t ∧ ts = [t] := Iff.rfl

@[kids_simp] theorem kids_tab_delimited_text : Kids skip K tab_delimited_text .nonAtomic ts ↔
    ∃ t, Tok skip K tab_delimited_text .nonAtomic t ∧ ts = [t] := Iff.rfl

@[kids_simp] theorem kids_tab_delimited_text' : Kids skip K tab_delimited_text .compound ts ↔
    ∃ t, Tok skip K tab_delimited_text .compound t ∧ ts = [t] := Iff.rfl

@[kids_simp] theorem kids_manufacturer : Kids skip K manufacturer .nonAtomic ts ↔
    ∃ t, Tok skip K manufacturer .nonAtomic t ∧ ts = [t] := Iff.rfl

@[kids_simp] theorem kids_manufacturer' : Kids skip K manufacturer .compound ts ↔
    ∃ t, Tok skip K manufacturer .compound t ∧ ts = [t] := Iff.rfl

@[kids_simp] theorem kids_name : Kids skip K name .nonAtomic ts ↔
    ∃ t, Tok skip K name .nonAtomic t ∧ ts = [t] := Iff.rfl

@[kids_simp] theorem kids_name' : Kids skip K name .compound ts ↔
    ∃ t, Tok skip K name .compound t ∧ ts = [t] := Iff.rfl

@[kids_simp] theorem kids_definition [UnicodeTables] : Kids skip K definition .nonAtomic ts ↔
    ∃ t, Tok skip K definition .nonAtomic t ∧ ts = [t] := Iff.rfl

@[kids_simp] theorem kids_definition' [UnicodeTables] : Kids skip K definition .compound ts ↔
    ∃ t, Tok skip K definition .compound t ∧ ts = [t] := Iff.rfl

@[kids_simp] theorem kids_continued_name : Kids skip K continued_name .nonAtomic ts ↔
    ∃ t, Tok skip K continued_name .nonAtomic t ∧ ts = [t] := Iff.rfl

@[kids_simp] theorem kids_continued_name' : Kids skip K continued_name .compound ts ↔
    ∃ t, Tok skip K continued_name .compound t ∧ ts = [t] := Iff.rfl

@[kids_simp] theorem kids_aircraft [UnicodeTables] : Kids skip K aircraft .nonAtomic ts ↔
    ∃ t, Tok skip K aircraft .nonAtomic t ∧ ts = [t] := Iff.rfl

@[kids_simp] theorem kids_aircraft' [UnicodeTables] : Kids skip K aircraft .compound ts ↔
    ∃ t, Tok skip K aircraft .compound t ∧ ts = [t] := Iff.rfl

@[kids_simp] theorem kids_WHITESPACE : Kids skip K WHITESPACE .nonAtomic ts ↔ ts = [] := kids_mute_iff rfl

@[kids_simp] theorem kids_WHITESPACE' : Kids skip K WHITESPACE .compound ts ↔ ts = [] := kids_mute_iff rfl

@[kids_simp] theorem kids_COMMENT : Kids skip K COMMENT .nonAtomic ts ↔ ts = [] := kids_mute_iff rfl

@[kids_simp] theorem kids_COMMENT' : Kids skip K COMMENT .compound ts ↔ ts = [] := kids_mute_iff rfl

@[kids_simp] theorem kids_NL : Kids skip K NL .nonAtomic ts ↔ ts = [] := kids_mute_iff rfl

@[kids_simp] theorem kids_NL' : Kids skip K NL .compound ts ↔ ts = [] := kids_mute_iff rfl

end Verif.Peg.IcaoAircraft
