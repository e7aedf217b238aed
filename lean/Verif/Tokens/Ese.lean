import Verif.Grammar.Ese
import Verif.Peg.Kids
/-!
# Tokens of the grammar `Ese`

Generated by `tools/tokens.py`.
-/

namespace Verif.Peg.Ese

variable {K : Str → Str → Prop} {ts : List (Tree Rule)}

@[kids_simp] theorem kids_decimal : Kids skip K decimal .nonAtomic ts ↔
    ∃ t, Tok skip K decimal .nonAtomic t ∧ ts = [t] := Iff.rfl

@[kids_simp] theorem kids_decimal' : Kids skip K decimal .compound ts ↔
    ∃ t, Tok skip K decimal .compound t ∧ ts = [t] := Iff.rfl

@[kids_simp] theorem kids_deg : Kids skip K deg .nonAtomic ts ↔
    ∃ t, Tok skip K deg .nonAtomic t ∧ ts = [t] := Iff.rfl

@[kids_simp] theorem kids_deg' : Kids skip K deg .compound ts ↔
    ∃ t, Tok skip K deg .compound t ∧ ts = [t] := Iff.rfl

@[kids_simp] theorem kids_min : Kids skip K min .nonAtomic ts ↔
    ∃ t, Tok skip K min .nonAtomic t ∧ ts = [t] := Iff.rfl

@[kids_simp] theorem kids_min' : Kids skip K min .compound ts ↔
    ∃ t, Tok skip K min .compound t ∧ ts = [t] := Iff.rfl

@[kids_simp] theorem kids_sec : Kids skip K sec .nonAtomic ts ↔
    ∃ t, Tok skip K sec .nonAtomic t ∧ ts = [t] := Iff.rfl

@[kids_simp] theorem kids_sec' : Kids skip K sec .compound ts ↔
    ∃ t, Tok skip K sec .compound t ∧ ts = [t] := Iff.rfl

@[kids_simp] theorem kids_hemi : Kids skip K hemi .nonAtomic ts ↔
    ∃ t, Tok skip K hemi .nonAtomic t ∧ ts = [t] := Iff.rfl

@[kids_simp] theorem kids_hemi' : Kids skip K hemi .compound ts ↔
    ∃ t, Tok skip K hemi .compound t ∧ ts = [t] := Iff.rfl

@[kids_simp] theorem kids_sct_coord_part : Kids skip K sct_coord_part .nonAtomic ts ↔
    ∃ t, Tok skip K sct_coord_part .nonAtomic t ∧ ts = [t] := Iff.rfl

@[kids_simp] theorem kids_sct_coord_part' : Kids skip K sct_coord_part .compound ts ↔
    ∃ t, Tok skip K sct_coord_part .compound t ∧ ts = [t] := Iff.rfl

@[kids_simp] theorem kids_coord_part : Kids skip K coord_part .nonAtomic ts ↔
    ∃ t, Tok skip K coord_part .nonAtomic t ∧ ts = [t] := Iff.rfl

@[kids_simp] theorem kids_coord_part' : Kids skip K coord_part .compound ts ↔
    ∃ t, Tok skip K coord_part .compound t ∧ ts = [t] := Iff.rfl

@[kids_simp] theorem kids_coordinate : Kids skip K coordinate .nonAtomic ts ↔
    ∃ t, Tok skip K coordinate .nonAtomic t ∧ ts = [t] := Iff.rfl

@[kids_simp] theorem kids_coordinate' : Kids skip K coordinate .compound ts ↔
    ∃ t, Tok skip K coordinate .compound t ∧ ts = [t] := Iff.rfl

@[kids_simp] theorem kids_colon_delimited_text : Kids skip K colon_delimited_text .nonAtomic ts ↔
    ∃ t, Tok skip K colon_delimited_text .nonAtomic t ∧ ts = [t] := Iff.rfl

@[kids_simp] theorem kids_colon_delimited_text' : Kids skip K colon_delimited_text .compound ts ↔
    ∃ t, Tok skip K colon_delimited_text .compound t ∧ ts = [t] := Iff.rfl

@[kids_simp] theorem kids_integer : Kids skip K integer .nonAtomic ts ↔
    ∃ t, Tok skip K integer .nonAtomic t ∧ ts = [t] := Iff.rfl

@[kids_simp] theorem kids_integer' : Kids skip K integer .compound ts ↔
    ∃ t, Tok skip K integer .compound t ∧ ts = [t] := Iff.rfl

@[kids_simp] theorem kids_squawk_range : Kids skip K squawk_range .nonAtomic ts ↔
    ∃ t, Tok skip K squawk_range .nonAtomic t ∧ ts = [t] := Iff.rfl

@[kids_simp] theorem kids_squawk_range' : Kids skip K squawk_range .compound ts ↔
    ∃ t, Tok skip K squawk_range .compound t ∧ ts = [t] := Iff.rfl

@[kids_simp] theorem kids_frequency : Kids skip K frequency .nonAtomic ts ↔
    ∃ t, Tok skip K frequency .nonAtomic t ∧ ts = [t] := Iff.rfl

@[kids_simp] theorem kids_frequency' : Kids skip K frequency .compound ts ↔
    ∃ t, Tok skip K frequency .compound t ∧ ts = [t] := Iff.rfl

@[kids_simp] theorem kids_position : Kids skip K position .nonAtomic ts ↔
    ∃ t, Tok skip K position .nonAtomic t ∧ ts = [t] := Iff.rfl

@[kids_simp] theorem kids_position' : Kids skip K position .compound ts ↔
    ∃ t, Tok skip K position .compound t ∧ ts = [t] := Iff.rfl

@[kids_simp] theorem kids_position_section : Kids skip K position_section .nonAtomic ts ↔
    ∃ t, Tok skip K position_section .nonAtomic t ∧ ts = [t] := Iff.rfl

@[kids_simp] theorem kids_position_section' : Kids skip K position_section .compound ts ↔
    ∃ t, Tok skip K position_section .compound t ∧ ts = [t] := Iff.rfl

@[kids_simp] theorem kids_wildcard : Kids skip K wildcard .nonAtomic ts ↔
    ∃ t, Tok skip K wildcard .nonAtomic t ∧ ts = [t] := Iff.rfl

@[kids_simp] theorem kids_wildcard' : Kids skip K wildcard .compound ts ↔
    ∃ t, Tok skip K wildcard .compound t ∧ ts = [t] := Iff.rfl

@[kids_simp] theorem kids_designator : Kids skip K designator .nonAtomic ts ↔
    ∃ t, Tok skip K designator .nonAtomic t ∧ ts = [t] := Iff.rfl

@[kids_simp] theorem kids_designator' : Kids skip K designator .compound ts ↔
    ∃ t, Tok skip K designator .compound t ∧ ts = [t] := Iff.rfl

@[kids_simp] theorem kids_cop : Kids skip K cop .nonAtomic ts ↔
    ∃ t, Tok skip K cop .nonAtomic t ∧ ts = [t] := Iff.rfl

@[kids_simp] theorem kids_cop' : Kids skip K cop .compound ts ↔
    ∃ t, Tok skip K cop .compound t ∧ ts = [t] := Iff.rfl

@[kids_simp] theorem kids_fir_cop : Kids skip K fir_cop .nonAtomic ts ↔
    ∃ t, Tok skip K fir_cop .nonAtomic t ∧ ts = [t] := Iff.rfl

@[kids_simp] theorem kids_fir_cop' : Kids skip K fir_cop .compound ts ↔
    ∃ t, Tok skip K fir_cop .compound t ∧ ts = [t] := Iff.rfl

@[kids_simp] theorem kids_display : Kids skip K display .nonAtomic ts ↔
    ∃ t, Tok skip K display .nonAtomic t ∧ ts = [t] := Iff.rfl

@[kids_simp] theorem kids_display' : Kids skip K display .compound ts ↔
    ∃ t, Tok skip K display .compound t ∧ ts = [t] := Iff.rfl

@[kids_simp] theorem kids_sectorline : Kids skip K sectorline .nonAtomic ts ↔
    ∃ t, Tok skip K sectorline .nonAtomic t ∧ ts = [t] := Iff.rfl

@[kids_simp] theorem kids_sectorline' : Kids skip K sectorline .compound ts ↔
    ∃ t, Tok skip K sectorline .compound t ∧ ts = [t] := Iff.rfl

@[kids_simp] theorem kids_fix_designator [UnicodeTables] : Kids skip K fix_designator .nonAtomic ts ↔
    ∃ t, Tok skip K fix_designator .nonAtomic t ∧ ts = [t] := Iff.rfl

@[kids_simp] theorem kids_fix_designator' [UnicodeTables] : Kids skip K fix_designator .compound ts ↔
    ∃ t, Tok skip K fix_designator .compound t ∧ ts = [t] := Iff.rfl

@[kids_simp] theorem kids_circle_sectorline [UnicodeTables] : Kids skip K circle_sectorline .nonAtomic ts ↔
    ∃ t, Tok skip K circle_sectorline .nonAtomic t ∧ ts = [t] := Iff.rfl

@[kids_simp] theorem kids_circle_sectorline' [UnicodeTables] : Kids skip K circle_sectorline .compound ts ↔
    ∃ t, Tok skip K circle_sectorline .compound t ∧ ts = [t] := Iff.rfl

@[kids_simp] theorem kids_display_sectorline : Kids skip K display_sectorline .nonAtomic ts ↔
    ∃ t, Tok skip K display_sectorline .nonAtomic t ∧ ts = [t] := Iff.rfl

@[kids_simp] theorem kids_display_sectorline' : Kids skip K display_sectorline .compound ts ↔
    ∃ t, Tok skip K display_sectorline .compound t ∧ ts = [t] := Iff.rfl

@[kids_simp] theorem kids_owner : Kids skip K owner .nonAtomic ts ↔
    ∃ t, Tok skip K owner .nonAtomic t ∧ ts = [t] := Iff.rfl

@[kids_simp] theorem kids_owner' : Kids skip K owner .compound ts ↔
    ∃ t, Tok skip K owner .compound t ∧ ts = [t] := Iff.rfl

@[kids_simp] theorem kids_altowner : Kids skip K altowner .nonAtomic ts ↔
    ∃ t, Tok skip K altowner .nonAtomic t ∧ ts = [t] := Iff.rfl

@[kids_simp] theorem kids_altowner' : Kids skip K altowner .compound ts ↔
    ∃ t, Tok skip K altowner .compound t ∧ ts = [t] := Iff.rfl

@[kids_simp] theorem kids_border : Kids skip K border .nonAtomic ts ↔
    ∃ t, Tok skip K border .nonAtomic t ∧ ts = [t] := Iff.rfl

@[kids_simp] theorem kids_border' : Kids skip K border .compound ts ↔
    ∃ t, Tok skip K border .compound t ∧ ts = [t] := Iff.rfl

@[kids_simp] theorem kids_guest : Kids skip K guest .nonAtomic ts ↔
    ∃ t, Tok skip K guest .nonAtomic t ∧ ts = [t] := Iff.rfl

@[kids_simp] theorem kids_guest' : Kids skip K guest .compound ts ↔
    ∃ t, Tok skip K guest .compound t ∧ ts = [t] := Iff.rfl

@[kids_simp] theorem kids_active : Kids skip K active .nonAtomic ts ↔
    ∃ t, Tok skip K active .nonAtomic t ∧ ts = [t] := Iff.rfl

@[kids_simp] theorem kids_active' : Kids skip K active .compound ts ↔
    ∃ t, Tok skip K active .compound t ∧ ts = [t] := Iff.rfl

@[kids_simp] theorem kids_depapt : Kids skip K depapt .nonAtomic ts ↔
    ∃ t, Tok skip K depapt .nonAtomic t ∧ ts = [t] := Iff.rfl

@[kids_simp] theorem kids_depapt' : Kids skip K depapt .compound ts ↔
    ∃ t, Tok skip K depapt .compound t ∧ ts = [t] := Iff.rfl

@[kids_simp] theorem kids_arrapt : Kids skip K arrapt .nonAtomic ts ↔
    ∃ t, Tok skip K arrapt .nonAtomic t ∧ ts = [t] := Iff.rfl

@[kids_simp] theorem kids_arrapt' : Kids skip K arrapt .compound ts ↔
    ∃ t, Tok skip K arrapt .compound t ∧ ts = [t] := Iff.rfl

@[kids_simp] theorem kids_sector : Kids skip K sector .nonAtomic ts ↔
    ∃ t, Tok skip K sector .nonAtomic t ∧ ts = [t] := Iff.rfl

@[kids_simp] theorem kids_sector' : Kids skip K sector .compound ts ↔
    ∃ t, Tok skip K sector .compound t ∧ ts = [t] := Iff.rfl

@[kids_simp] theorem kids_msaw : Kids skip K msaw .nonAtomic ts ↔
    ∃ t, Tok skip K msaw .nonAtomic t ∧ ts = [t] := Iff.rfl

@[kids_simp] theorem kids_msaw' : Kids skip K msaw .compound ts ↔
    ∃ t, Tok skip K msaw .compound t ∧ ts = [t] := Iff.rfl

@[kids_simp] theorem kids_airspace_section [UnicodeTables] : Kids skip K airspace_section .nonAtomic ts ↔
    ∃ t, Tok skip K airspace_section .nonAtomic t ∧ ts = [t] := Iff.rfl

@[kids_simp] theorem kids_airspace_section' [UnicodeTables] : Kids skip K airspace_section .compound ts ↔
    ∃ t, Tok skip K airspace_section .compound t ∧ ts = [t] := Iff.rfl

@[kids_simp] theorem kids_runway_designator : Kids skip K runway_designator .nonAtomic ts ↔
    ∃ t, Tok skip K runway_designator .nonAtomic t ∧ ts = [t] := Iff.rfl

@[kids_simp] theorem kids_runway_designator' : Kids skip K runway_designator .compound ts ↔
    ∃ t, Tok skip K runway_designator .compound t ∧ ts = [t] := Iff.rfl

@[kids_simp] theorem kids_route : Kids skip K route .nonAtomic ts ↔
    ∃ t, Tok skip K route .nonAtomic t ∧ ts = [t] := Iff.rfl

@[kids_simp] theorem kids_route' : Kids skip K route .compound ts ↔
    ∃ t, Tok skip K route .compound t ∧ ts = [t] := Iff.rfl

@[kids_simp] theorem kids_none : Kids skip K none .nonAtomic ts ↔
    ∃ t, Tok skip K none .nonAtomic t ∧ ts = [t] := Iff.rfl

@[kids_simp] theorem kids_none' : Kids skip K none .compound ts ↔
    ∃ t, Tok skip K none .compound t ∧ ts = [t] := Iff.rfl

@[kids_simp] theorem kids_sid : Kids skip K sid .nonAtomic ts ↔
    ∃ t, Tok skip K sid .nonAtomic t ∧ ts = [t] := Iff.rfl

@[kids_simp] theorem kids_sid' : Kids skip K sid .compound ts ↔
    ∃ t, Tok skip K sid .compound t ∧ ts = [t] := Iff.rfl

@[kids_simp] theorem kids_star : Kids skip K star .nonAtomic ts ↔
    ∃ t, Tok skip K star .nonAtomic t ∧ ts = [t] := Iff.rfl

@[kids_simp] theorem kids_star' : Kids skip K star .compound ts ↔
    ∃ t, Tok skip K star .compound t ∧ ts = [t] := Iff.rfl

@[kids_simp] theorem kids_sidsstars_section : Kids skip K sidsstars_section .nonAtomic ts ↔
    ∃ t, Tok skip K sidsstars_section .nonAtomic t ∧ ts = [t] := Iff.rfl

@[kids_simp] theorem kids_sidsstars_section' : Kids skip K sidsstars_section .compound ts ↔
    ∃ t, Tok skip K sidsstars_section .compound t ∧ ts = [t] := Iff.rfl

@[kids_simp] theorem kids_broken : Kids skip K broken .nonAtomic ts ↔
    ∃ t, Tok skip K broken .nonAtomic t ∧ ts = [t] := Iff.rfl

@[kids_simp] theorem kids_broken' : Kids skip K broken .compound ts ↔
    ∃ t, Tok skip K broken .compound t ∧ ts = [t] := Iff.rfl

@[kids_simp] theorem kids_header_name : Kids skip K header_name .nonAtomic ts ↔
    ∃ t, Tok skip K header_name .nonAtomic t ∧ ts = [t] := Iff.rfl

@[kids_simp] theorem kids_header_name' : Kids skip K header_name .compound ts ↔
    ∃ t, Tok skip K header_name .compound t ∧ ts = [t] := Iff.rfl

@[kids_simp] theorem kids_unparsed_section : Kids skip K unparsed_section .nonAtomic ts ↔
    ∃ t, Tok skip K unparsed_section .nonAtomic t ∧ ts = [t] := Iff.rfl

@[kids_simp] theorem kids_unparsed_section' : Kids skip K unparsed_section .compound ts ↔
    ∃ t, Tok skip K unparsed_section .compound t ∧ ts = [t] := Iff.rfl

@[kids_simp] theorem kids_ese [UnicodeTables] : Kids skip K ese .nonAtomic ts ↔
    ∃ t, Tok skip K ese .nonAtomic t ∧ ts = [t] := Iff.rfl

@[kids_simp] theorem kids_ese' [UnicodeTables] : Kids skip K ese .compound ts ↔
    ∃ t, Tok skip K ese .compound t ∧ ts = [t] := Iff.rfl

@[kids_simp] theorem kids_WHITESPACE : Kids skip K WHITESPACE .nonAtomic ts ↔ ts = [] := kids_mute_iff rfl

@[kids_simp] theorem kids_WHITESPACE' : Kids skip K WHITESPACE .compound ts ↔ ts = [] := kids_mute_iff rfl

@[kids_simp] theorem kids_COMMENT : Kids skip K COMMENT .nonAtomic ts ↔ ts = [] := kids_mute_iff rfl

@[kids_simp] theorem kids_COMMENT' : Kids skip K COMMENT .compound ts ↔ ts = [] := kids_mute_iff rfl

@[kids_simp] theorem kids_NL : Kids skip K NL .nonAtomic ts ↔ ts = [] := kids_mute_iff rfl

@[kids_simp] theorem kids_NL' : Kids skip K NL .compound ts ↔ ts = [] := kids_mute_iff rfl

end Verif.Peg.Ese
