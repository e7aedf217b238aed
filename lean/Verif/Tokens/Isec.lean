import Verif.Grammar.Isec
import Verif.Peg.Kids
/-!
# Tokens of the grammar `Isec`

Generated by `tools/tokens.py`.
-/

namespace Verif.Peg.Isec

variable {K : Str → Str → Prop} {ts : List (Tree Rule)}

@[kids_simp] theorem kids_designator : Kids skip K designator .nonAtomic ts ↔
    ∃ t, Tok skip K designator .nonAtomic t ∧ ts = [t] := Iff.rfl

@[kids_simp] theorem kids_designator' : Kids skip K designator .compound ts ↔
    ∃ t, Tok skip K designator .compound t ∧ ts = [t] := Iff.rfl

@[kids_simp] theorem kids_DECIMAL : Kids skip K DECIMAL .nonAtomic ts ↔
    ∃ t, Tok skip K DECIMAL .nonAtomic t ∧ ts = [t] := Iff.rfl

@[kids_simp] theorem kids_DECIMAL' : Kids skip K DECIMAL .compound ts ↔
    ∃ t, Tok skip K DECIMAL .compound t ∧ ts = [t] := Iff.rfl

@[kids_simp] theorem kids_coord_part : Kids skip K coord_part .nonAtomic ts ↔
    ∃ t, Tok skip K coord_part .nonAtomic t ∧ ts = [t] := Iff.rfl

@[kids_simp] theorem kids_coord_part' : Kids skip K coord_part .compound ts ↔
    ∃ t, Tok skip K coord_part .compound t ∧ ts = [t] := Iff.rfl

@[kids_simp] theorem kids_coord : Kids skip K coord .nonAtomic ts ↔
    ∃ t, Tok skip K coord .nonAtomic t ∧ ts = [t] := Iff.rfl

@[kids_simp] theorem kids_coord' : Kids skip K coord .compound ts ↔
    ∃ t, Tok skip K coord .compound t ∧ ts = [t] := Iff.rfl

@[kids_simp] theorem kids_wpt : Kids skip K wpt .nonAtomic ts ↔
    ∃ t, Tok skip K wpt .nonAtomic t ∧ ts = [t] := Iff.rfl

@[kids_simp] theorem kids_wpt' : Kids skip K wpt .compound ts ↔
    ∃ t, Tok skip K wpt .compound t ∧ ts = [t] := Iff.rfl

@[kids_simp] theorem kids_wpts : Kids skip K wpts .nonAtomic ts ↔
    ∃ t, Tok skip K wpts .nonAtomic t ∧ ts = [t] := Iff.rfl

@[kids_simp] theorem kids_wpts' : Kids skip K wpts .compound ts ↔
    ∃ t, Tok skip K wpts .compound t ∧ ts = [t] := Iff.rfl

@[kids_simp] theorem kids_WHITESPACE : Kids skip K WHITESPACE .nonAtomic ts ↔ ts = [] := kids_mute_iff rfl

@[kids_simp] theorem kids_WHITESPACE' : Kids skip K WHITESPACE .compound ts ↔ ts = [] := kids_mute_iff rfl

@[kids_simp] theorem kids_COMMENT : Kids skip K COMMENT .nonAtomic ts ↔ ts = [] := kids_mute_iff rfl

@[kids_simp] theorem kids_COMMENT' : Kids skip K COMMENT .compound ts ↔ ts = [] := kids_mute_iff rfl

@[kids_simp] theorem kids_NL : Kids skip K NL .nonAtomic ts ↔ ts = [] := kids_mute_iff rfl

@[kids_simp] theorem kids_NL' : Kids skip K NL .compound ts ↔ ts = [] := kids_mute_iff rfl

end Verif.Peg.Isec
