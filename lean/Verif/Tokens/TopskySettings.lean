import Verif.Grammar.TopskySettings
import Verif.Peg.Kids
/-!
# Tokens of the grammar `TopskySettings`

Generated by `tools/tokens.py`.
-/

namespace Verif.Peg.TopskySettings

variable {K : Str → Str → Prop} {ts : List (Tree Rule)}

@[kids_simp] theorem kids_number : Kids skip K number .nonAtomic ts ↔
    ∃ t, Tok skip K number .nonAtomic t ∧ ts = [t] := Iff.rfl

@[kids_simp] theorem kids_number' : Kids skip K number .compound ts ↔
    ∃ t, Tok skip K number .compound t ∧ ts = [t] := Iff.rfl

@[kids_simp] theorem kids_colour_setting_rgb : Kids skip K colour_setting_rgb .nonAtomic ts ↔
    ∃ t, Tok skip K colour_setting_rgb .nonAtomic t ∧ ts = [t] := Iff.rfl

@[kids_simp] theorem kids_colour_setting_rgb' : Kids skip K colour_setting_rgb .compound ts ↔
    ∃ t, Tok skip K colour_setting_rgb .compound t ∧ ts = [t] := Iff.rfl

@[kids_simp] theorem kids_name : Kids skip K name .nonAtomic ts ↔
    ∃ t, Tok skip K name .nonAtomic t ∧ ts = [t] := Iff.rfl

@[kids_simp] theorem kids_name' : Kids skip K name .compound ts ↔
    ∃ t, Tok skip K name .compound t ∧ ts = [t] := Iff.rfl

@[kids_simp] theorem kids_colour_setting : Kids skip K colour_setting .nonAtomic ts ↔
    ∃ t, Tok skip K colour_setting .nonAtomic t ∧ ts = [t] := Iff.rfl

@[kids_simp] theorem kids_colour_setting' : Kids skip K colour_setting .compound ts ↔
    ∃ t, Tok skip K colour_setting .compound t ∧ ts = [t] := Iff.rfl

@[kids_simp] theorem kids_setting_value : Kids skip K setting_value .nonAtomic ts ↔
    ∃ t, Tok skip K setting_value .nonAtomic t ∧ ts = [t] := Iff.rfl

@[kids_simp] theorem kids_setting_value' : Kids skip K setting_value .compound ts ↔
    ∃ t, Tok skip K setting_value .compound t ∧ ts = [t] := Iff.rfl

@[kids_simp] theorem kids_other_setting : Kids skip K other_setting .nonAtomic ts ↔
    ∃ t, Tok skip K other_setting .nonAtomic t ∧ ts = [t] := Iff.rfl

@[kids_simp] theorem kids_other_setting' : Kids skip K other_setting .compound ts ↔
    ∃ t, Tok skip K other_setting .compound t ∧ ts = [t] := Iff.rfl

@[kids_simp] theorem kids_section_ : Kids skip K section_ .nonAtomic ts ↔
    ∃ t, Tok skip K section_ .nonAtomic t ∧ ts = [t] := Iff.rfl

@[kids_simp] theorem kids_section_' : Kids skip K section_ .compound ts ↔
    ∃ t, Tok skip K section_ .compound t ∧ ts = [t] := Iff.rfl

@[kids_simp] theorem kids_settings : Kids skip K settings .nonAtomic ts ↔
    ∃ t, Tok skip K settings .nonAtomic t ∧ ts = [t] := Iff.rfl

@[kids_simp] theorem kids_settings' : Kids skip K settings .compound ts ↔
    ∃ t, Tok skip K settings .compound t ∧ ts = [t] := Iff.rfl

@[kids_simp] theorem kids_WHITESPACE : Kids skip K WHITESPACE .nonAtomic ts ↔ ts = [] := kids_mute_iff rfl

@[kids_simp] theorem kids_WHITESPACE' : Kids skip K WHITESPACE .compound ts ↔ ts = [] := kids_mute_iff rfl

@[kids_simp] theorem kids_NL : Kids skip K NL .nonAtomic ts ↔ ts = [] := kids_mute_iff rfl

@[kids_simp] theorem kids_NL' : Kids skip K NL .compound ts ↔ ts = [] := kids_mute_iff rfl

@[kids_simp] theorem kids_COMMENT : Kids skip K COMMENT .nonAtomic ts ↔ ts = [] := kids_mute_iff rfl

@[kids_simp] theorem kids_COMMENT' : Kids skip K COMMENT .compound ts ↔ ts = [] := kids_mute_iff rfl

end Verif.Peg.TopskySettings
