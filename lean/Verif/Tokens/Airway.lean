import Verif.Grammar.Airway
import Verif.Peg.Kids
/-!
# Tokens of the grammar `Airway`

Generated by `tools/tokens.py`.
-/

namespace Verif.Peg.Airway

variable {K : Str → Str → Prop} {ts : List (Tree Rule)}

@[kids_simp] theorem kids_airway_type : Kids skip K airway_type .nonAtomic ts ↔
    ∃ t, Tok skip K airway_type .nonAtomic t ∧ ts = [t] := Iff.rfl

@[kids_simp] theorem kids_airway_type' : Kids skip K airway_type .compound ts ↔
    ∃ t, Tok skip K airway_type .compound t ∧ ts = [t] := Iff.rfl

@[kids_simp] theorem kids_TRUE : Kids skip K TRUE .nonAtomic ts ↔
    ∃ t, Tok skip K TRUE .nonAtomic t ∧ ts = [t] := Iff.rfl

@[kids_simp] theorem kids_TRUE' : Kids skip K TRUE .compound ts ↔
    ∃ t, Tok skip K TRUE .compound t ∧ ts = [t] := Iff.rfl

@[kids_simp] theorem kids_FALSE : Kids skip K FALSE .nonAtomic ts ↔
    ∃ t, Tok skip K FALSE .nonAtomic t ∧ ts = [t] := Iff.rfl

@[kids_simp] theorem kids_FALSE' : Kids skip K FALSE .compound ts ↔
    ∃ t, Tok skip K FALSE .compound t ∧ ts = [t] := Iff.rfl

@[kids_simp] theorem kids_level : Kids skip K level .nonAtomic ts ↔
    ∃ t, Tok skip K level .nonAtomic t ∧ ts = [t] := Iff.rfl

@[kids_simp] theorem kids_level' : Kids skip K level .compound ts ↔
    ∃ t, Tok skip K level .compound t ∧ ts = [t] := Iff.rfl

@[kids_simp] theorem kids_not_established : Kids skip K not_established .nonAtomic ts ↔
    ∃ t, Tok skip K not_established .nonAtomic t ∧ ts = [t] := Iff.rfl

@[kids_simp] theorem kids_not_established' : Kids skip K not_established .compound ts ↔
    ∃ t, Tok skip K not_established .compound t ∧ ts = [t] := Iff.rfl

@[kids_simp] theorem kids_designator : Kids skip K designator .nonAtomic ts ↔
    ∃ t, Tok skip K designator .nonAtomic t ∧ ts = [t] := Iff.rfl

@[kids_simp] theorem kids_designator' : Kids skip K designator .compound ts ↔
    ∃ t, Tok skip K designator .compound t ∧ ts = [t] := Iff.rfl

@[kids_simp] theorem kids_DECIMAL : Kids skip K DECIMAL .nonAtomic ts ↔
    ∃ t, Tok skip K DECIMAL .nonAtomic t ∧ ts = [t] := Iff.rfl

@[kids_simp] theorem kids_DECIMAL' : Kids skip K DECIMAL .compound ts ↔
    ∃ t, Tok skip K DECIMAL .compound t ∧ ts = [t] := Iff.rfl

@[kids_simp] theorem kids_coord_part : Kids skip K coord_part .nonAtomic ts ↔
    ∃ t, Tok skip K coord_part .nonAtomic t ∧ ts = [t] := Iff.rfl

@[kids_simp] theorem kids_coord_part' : Kids skip K coord_part .compound ts ↔
    ∃ t, Tok skip K coord_part .compound t ∧ ts = [t] := Iff.rfl

@[kids_simp] theorem kids_coord : Kids skip K coord .nonAtomic ts ↔
    ∃ t, Tok skip K coord .nonAtomic t ∧ ts = [t] := Iff.rfl

@[kids_simp] theorem kids_coord' : Kids skip K coord .compound ts ↔
    ∃ t, Tok skip K coord .compound t ∧ ts = [t] := Iff.rfl

@[kids_simp] theorem kids_neighbour : Kids skip K neighbour .nonAtomic ts ↔
    ∃ t, Tok skip K neighbour .nonAtomic t ∧ ts = [t] := Iff.rfl

@[kids_simp] theorem kids_neighbour' : Kids skip K neighbour .compound ts ↔
    ∃ t, Tok skip K neighbour .compound t ∧ ts = [t] := Iff.rfl

@[kids_simp] theorem kids_no_neighbour : Kids skip K no_neighbour .nonAtomic ts ↔
    ∃ t, Tok skip K no_neighbour .nonAtomic t ∧ ts = [t] := Iff.rfl

@[kids_simp] theorem kids_no_neighbour' : Kids skip K no_neighbour .compound ts ↔
    ∃ t, Tok skip K no_neighbour .compound t ∧ ts = [t] := Iff.rfl

@[kids_simp] theorem kids_airway : Kids skip K airway .nonAtomic ts ↔
    ∃ t, Tok skip K airway .nonAtomic t ∧ ts = [t] := Iff.rfl

@[kids_simp] theorem kids_airway' : Kids skip K airway .compound ts ↔
    ∃ t, Tok skip K airway .compound t ∧ ts = [t] := Iff.rfl

@[kids_simp] theorem kids_airways : Kids skip K airways .nonAtomic ts ↔
    ∃ t, Tok skip K airways .nonAtomic t ∧ ts = [t] := Iff.rfl

@[kids_simp] theorem kids_airways' : Kids skip K airways .compound ts ↔
    ∃ t, Tok skip K airways .compound t ∧ ts = [t] := Iff.rfl

@[kids_simp] theorem kids_COMMENT : Kids skip K COMMENT .nonAtomic ts ↔ ts = [] := kids_mute_iff rfl

@[kids_simp] theorem kids_COMMENT' : Kids skip K COMMENT .compound ts ↔ ts = [] := kids_mute_iff rfl

@[kids_simp] theorem kids_NL : Kids skip K NL .nonAtomic ts ↔ ts = [] := kids_mute_iff rfl

@[kids_simp] theorem kids_NL' : Kids skip K NL .compound ts ↔ ts = [] := kids_mute_iff rfl

end Verif.Peg.Airway
