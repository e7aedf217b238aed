import Verif.Grammar.Sct
import Verif.Peg.Kids
/-!
# Tokens of the grammar `Sct`

Generated by `tools/tokens.py`.
-/

namespace Verif.Peg.Sct

variable {K : Str → Str → Prop} {ts : List (Tree Rule)}

@[kids_simp] theorem kids_decimal : Kids skip K decimal .nonAtomic ts ↔
    ∃ t, Tok skip K decimal .nonAtomic t ∧ ts = [t] := Iff.rfl

@[kids_simp] theorem kids_decimal' : Kids skip K decimal .compound ts ↔
    ∃ t, Tok skip K decimal .compound t ∧ ts = [t] := Iff.rfl

@[kids_simp] theorem kids_deg : Kids skip K deg .nonAtomic ts ↔
    ∃ t, Tok skip K deg .nonAtomic t ∧ ts = [t] := Iff.rfl

@[kids_simp] theorem kids_deg' : Kids skip K deg .compound ts ↔
    ∃ t, Tok skip K deg .compound t ∧ ts = [t] := Iff.rfl

@[kids_simp] theorem kids_min : Kids skip K min .nonAtomic ts ↔
    ∃ t, Tok skip K min .nonAtomic t ∧ ts = [t] := Iff.rfl

@[kids_simp] theorem kids_min' : Kids skip K min .compound ts ↔
    ∃ t, Tok skip K min .compound t ∧ ts = [t] := Iff.rfl

@[kids_simp] theorem kids_sec : Kids skip K sec .nonAtomic ts ↔
    ∃ t, Tok skip K sec .nonAtomic t ∧ ts = [t] := Iff.rfl

@[kids_simp] theorem kids_sec' : Kids skip K sec .compound ts ↔
    ∃ t, Tok skip K sec .compound t ∧ ts = [t] := Iff.rfl

@[kids_simp] theorem kids_hemi : Kids skip K hemi .nonAtomic ts ↔
    ∃ t, Tok skip K hemi .nonAtomic t ∧ ts = [t] := Iff.rfl

@[kids_simp] theorem kids_hemi' : Kids skip K hemi .compound ts ↔
    ∃ t, Tok skip K hemi .compound t ∧ ts = [t] := Iff.rfl

@[kids_simp] theorem kids_sct_coord_part : Kids skip K sct_coord_part .nonAtomic ts ↔
    ∃ t, Tok skip K sct_coord_part .nonAtomic t ∧ ts = [t] := Iff.rfl

@[kids_simp] theorem kids_sct_coord_part' : Kids skip K sct_coord_part .compound ts ↔
    ∃ t, Tok skip K sct_coord_part .compound t ∧ ts = [t] := Iff.rfl

@[kids_simp] theorem kids_sector_name [UnicodeTables] : Kids skip K sector_name .nonAtomic ts ↔
    ∃ t, Tok skip K sector_name .nonAtomic t ∧ ts = [t] := Iff.rfl

@[kids_simp] theorem kids_sector_name' [UnicodeTables] : Kids skip K sector_name .compound ts ↔
    ∃ t, Tok skip K sector_name .compound t ∧ ts = [t] := Iff.rfl

@[kids_simp] theorem kids_sector_callsign : Kids skip K sector_callsign .nonAtomic ts ↔
    ∃ t, Tok skip K sector_callsign .nonAtomic t ∧ ts = [t] := Iff.rfl

@[kids_simp] theorem kids_sector_callsign' : Kids skip K sector_callsign .compound ts ↔
    ∃ t, Tok skip K sector_callsign .compound t ∧ ts = [t] := Iff.rfl

@[kids_simp] theorem kids_pos_integer : Kids skip K pos_integer .nonAtomic ts ↔
    ∃ t, Tok skip K pos_integer .nonAtomic t ∧ ts = [t] := Iff.rfl

@[kids_simp] theorem kids_pos_integer' : Kids skip K pos_integer .compound ts ↔
    ∃ t, Tok skip K pos_integer .compound t ∧ ts = [t] := Iff.rfl

@[kids_simp] theorem kids_colour_name : Kids skip K colour_name .nonAtomic ts ↔
    ∃ t, Tok skip K colour_name .nonAtomic t ∧ ts = [t] := Iff.rfl

@[kids_simp] theorem kids_colour_name' : Kids skip K colour_name .compound ts ↔
    ∃ t, Tok skip K colour_name .compound t ∧ ts = [t] := Iff.rfl

@[kids_simp] theorem kids_colour_definition : Kids skip K colour_definition .nonAtomic ts ↔
    ∃ t, Tok skip K colour_definition .nonAtomic t ∧ ts = [t] := Iff.rfl

@[kids_simp] theorem kids_colour_definition' : Kids skip K colour_definition .compound ts ↔
    ∃ t, Tok skip K colour_definition .compound t ∧ ts = [t] := Iff.rfl

@[kids_simp] theorem kids_designator : Kids skip K designator .nonAtomic ts ↔
    ∃ t, Tok skip K designator .nonAtomic t ∧ ts = [t] := Iff.rfl

@[kids_simp] theorem kids_designator' : Kids skip K designator .compound ts ↔
    ∃ t, Tok skip K designator .compound t ∧ ts = [t] := Iff.rfl

@[kids_simp] theorem kids_info_section [UnicodeTables] : Kids skip K info_section .nonAtomic ts ↔
    ∃ t, Tok skip K info_section .nonAtomic t ∧ ts = [t] := Iff.rfl

@[kids_simp] theorem kids_info_section' [UnicodeTables] : Kids skip K info_section .compound ts ↔
    ∃ t, Tok skip K info_section .compound t ∧ ts = [t] := Iff.rfl

@[kids_simp] theorem kids_sct_coordinate : Kids skip K sct_coordinate .nonAtomic ts ↔
    ∃ t, Tok skip K sct_coordinate .nonAtomic t ∧ ts = [t] := Iff.rfl

@[kids_simp] theorem kids_sct_coordinate' : Kids skip K sct_coordinate .compound ts ↔
    ∃ t, Tok skip K sct_coordinate .compound t ∧ ts = [t] := Iff.rfl

@[kids_simp] theorem kids_frequency : Kids skip K frequency .nonAtomic ts ↔
    ∃ t, Tok skip K frequency .nonAtomic t ∧ ts = [t] := Iff.rfl

@[kids_simp] theorem kids_frequency' : Kids skip K frequency .compound ts ↔
    ∃ t, Tok skip K frequency .compound t ∧ ts = [t] := Iff.rfl

@[kids_simp] theorem kids_location : Kids skip K location .nonAtomic ts ↔
    ∃ t, Tok skip K location .nonAtomic t ∧ ts = [t] := Iff.rfl

@[kids_simp] theorem kids_location' : Kids skip K location .compound ts ↔
    ∃ t, Tok skip K location .compound t ∧ ts = [t] := Iff.rfl

@[kids_simp] theorem kids_vor_section : Kids skip K vor_section .nonAtomic ts ↔
    ∃ t, Tok skip K vor_section .nonAtomic t ∧ ts = [t] := Iff.rfl

@[kids_simp] theorem kids_vor_section' : Kids skip K vor_section .compound ts ↔
    ∃ t, Tok skip K vor_section .compound t ∧ ts = [t] := Iff.rfl

@[kids_simp] theorem kids_broken : Kids skip K broken .nonAtomic ts ↔
    ∃ t, Tok skip K broken .nonAtomic t ∧ ts = [t] := Iff.rfl

@[kids_simp] theorem kids_broken' : Kids skip K broken .compound ts ↔
    ∃ t, Tok skip K broken .compound t ∧ ts = [t] := Iff.rfl

@[kids_simp] theorem kids_ndb_section : Kids skip K ndb_section .nonAtomic ts ↔
    ∃ t, Tok skip K ndb_section .nonAtomic t ∧ ts = [t] := Iff.rfl

@[kids_simp] theorem kids_ndb_section' : Kids skip K ndb_section .compound ts ↔
    ∃ t, Tok skip K ndb_section .compound t ∧ ts = [t] := Iff.rfl

@[kids_simp] theorem kids_fix_designator [UnicodeTables] : Kids skip K fix_designator .nonAtomic ts ↔
    ∃ t, Tok skip K fix_designator .nonAtomic t ∧ ts = [t] := Iff.rfl

@[kids_simp] theorem kids_fix_designator' [UnicodeTables] : Kids skip K fix_designator .compound ts ↔
    ∃ t, Tok skip K fix_designator .compound t ∧ ts = [t] := Iff.rfl

@[kids_simp] theorem kids_fix [UnicodeTables] : Kids skip K fix .nonAtomic ts ↔
    ∃ t, Tok skip K fix .nonAtomic t ∧ ts = [t] := Iff.rfl

@[kids_simp] theorem kids_fix' [UnicodeTables] : Kids skip K fix .compound ts ↔
    ∃ t, Tok skip K fix .compound t ∧ ts = [t] := Iff.rfl

@[kids_simp] theorem kids_fixes_section [UnicodeTables] : Kids skip K fixes_section .nonAtomic ts ↔
    ∃ t, Tok skip K fixes_section .nonAtomic t ∧ ts = [t] := Iff.rfl

@[kids_simp] theorem kids_fixes_section' [UnicodeTables] : Kids skip K fixes_section .compound ts ↔
    ∃ t, Tok skip K fixes_section .compound t ∧ ts = [t] := Iff.rfl

@[kids_simp] theorem kids_ctr_airspace : Kids skip K ctr_airspace .nonAtomic ts ↔
    ∃ t, Tok skip K ctr_airspace .nonAtomic t ∧ ts = [t] := Iff.rfl

@[kids_simp] theorem kids_ctr_airspace' : Kids skip K ctr_airspace .compound ts ↔
    ∃ t, Tok skip K ctr_airspace .compound t ∧ ts = [t] := Iff.rfl

@[kids_simp] theorem kids_aerodrome : Kids skip K aerodrome .nonAtomic ts ↔
    ∃ t, Tok skip K aerodrome .nonAtomic t ∧ ts = [t] := Iff.rfl

@[kids_simp] theorem kids_aerodrome' : Kids skip K aerodrome .compound ts ↔
    ∃ t, Tok skip K aerodrome .compound t ∧ ts = [t] := Iff.rfl

@[kids_simp] theorem kids_airport_section : Kids skip K airport_section .nonAtomic ts ↔
    ∃ t, Tok skip K airport_section .nonAtomic t ∧ ts = [t] := Iff.rfl

@[kids_simp] theorem kids_airport_section' : Kids skip K airport_section .compound ts ↔
    ∃ t, Tok skip K airport_section .compound t ∧ ts = [t] := Iff.rfl

@[kids_simp] theorem kids_runway_designator : Kids skip K runway_designator .nonAtomic ts ↔
    ∃ t, Tok skip K runway_designator .nonAtomic t ∧ ts = [t] := Iff.rfl

@[kids_simp] theorem kids_runway_designator' : Kids skip K runway_designator .compound ts ↔
    ∃ t, Tok skip K runway_designator .compound t ∧ ts = [t] := Iff.rfl

@[kids_simp] theorem kids_runway : Kids skip K runway .nonAtomic ts ↔
    ∃ t, Tok skip K runway .nonAtomic t ∧ ts = [t] := Iff.rfl

@[kids_simp] theorem kids_runway' : Kids skip K runway .compound ts ↔
    ∃ t, Tok skip K runway .compound t ∧ ts = [t] := Iff.rfl

@[kids_simp] theorem kids_runway_section : Kids skip K runway_section .nonAtomic ts ↔
    ∃ t, Tok skip K runway_section .nonAtomic t ∧ ts = [t] := Iff.rfl

@[kids_simp] theorem kids_runway_section' : Kids skip K runway_section .compound ts ↔
    ∃ t, Tok skip K runway_section .compound t ∧ ts = [t] := Iff.rfl

@[kids_simp] theorem kids_airway_fix : Kids skip K airway_fix .nonAtomic ts ↔
    ∃ t, Tok skip K airway_fix .nonAtomic t ∧ ts = [t] := Iff.rfl

@[kids_simp] theorem kids_airway_fix' : Kids skip K airway_fix .compound ts ↔
    ∃ t, Tok skip K airway_fix .compound t ∧ ts = [t] := Iff.rfl

@[kids_simp] theorem kids_coloured_line : Kids skip K coloured_line .nonAtomic ts ↔
    ∃ t, Tok skip K coloured_line .nonAtomic t ∧ ts = [t] := Iff.rfl

@[kids_simp] theorem kids_coloured_line' : Kids skip K coloured_line .compound ts ↔
    ∃ t, Tok skip K coloured_line .compound t ∧ ts = [t] := Iff.rfl

@[kids_simp] theorem kids_non_coordinate_or_double_fix_name : Kids skip K non_coordinate_or_double_fix_name .nonAtomic ts ↔
    ∃ t, Tok skip K non_coordinate_or_double_fix_name .nonAtomic t ∧ ts = [t] := Iff.rfl

@[kids_simp] theorem kids_non_coordinate_or_double_fix_name' : Kids skip K non_coordinate_or_double_fix_name .compound ts ↔
    ∃ t, Tok skip K non_coordinate_or_double_fix_name .compound t ∧ ts = [t] := Iff.rfl

@[kids_simp] theorem kids_coloured_lines : Kids skip K coloured_lines .nonAtomic ts ↔
    ∃ t, Tok skip K coloured_lines .nonAtomic t ∧ ts = [t] := Iff.rfl

@[kids_simp] theorem kids_coloured_lines' : Kids skip K coloured_lines .compound ts ↔
    ∃ t, Tok skip K coloured_lines .compound t ∧ ts = [t] := Iff.rfl

@[kids_simp] theorem kids_sid_section : Kids skip K sid_section .nonAtomic ts ↔
    ∃ t, Tok skip K sid_section .nonAtomic t ∧ ts = [t] := Iff.rfl

@[kids_simp] theorem kids_sid_section' : Kids skip K sid_section .compound ts ↔
    ∃ t, Tok skip K sid_section .compound t ∧ ts = [t] := Iff.rfl

@[kids_simp] theorem kids_star_section : Kids skip K star_section .nonAtomic ts ↔
    ∃ t, Tok skip K star_section .nonAtomic t ∧ ts = [t] := Iff.rfl

@[kids_simp] theorem kids_star_section' : Kids skip K star_section .compound ts ↔
    ∃ t, Tok skip K star_section .compound t ∧ ts = [t] := Iff.rfl

@[kids_simp] theorem kids_artcc_high_section : Kids skip K artcc_high_section .nonAtomic ts ↔
    ∃ t, Tok skip K artcc_high_section .nonAtomic t ∧ ts = [t] := Iff.rfl

@[kids_simp] theorem kids_artcc_high_section' : Kids skip K artcc_high_section .compound ts ↔
    ∃ t, Tok skip K artcc_high_section .compound t ∧ ts = [t] := Iff.rfl

@[kids_simp] theorem kids_artcc_section : Kids skip K artcc_section .nonAtomic ts ↔
    ∃ t, Tok skip K artcc_section .nonAtomic t ∧ ts = [t] := Iff.rfl

@[kids_simp] theorem kids_artcc_section' : Kids skip K artcc_section .compound ts ↔
    ∃ t, Tok skip K artcc_section .compound t ∧ ts = [t] := Iff.rfl

@[kids_simp] theorem kids_artcc_low_section : Kids skip K artcc_low_section .nonAtomic ts ↔
    ∃ t, Tok skip K artcc_low_section .nonAtomic t ∧ ts = [t] := Iff.rfl

@[kids_simp] theorem kids_artcc_low_section' : Kids skip K artcc_low_section .compound ts ↔
    ∃ t, Tok skip K artcc_low_section .compound t ∧ ts = [t] := Iff.rfl

@[kids_simp] theorem kids_airway [UnicodeTables] : Kids skip K airway .nonAtomic ts ↔
    ∃ t, Tok skip K airway .nonAtomic t ∧ ts = [t] := Iff.rfl

@[kids_simp] theorem kids_airway' [UnicodeTables] : Kids skip K airway .compound ts ↔
    ∃ t, Tok skip K airway .compound t ∧ ts = [t] := Iff.rfl

@[kids_simp] theorem kids_high_airway_section [UnicodeTables] : Kids skip K high_airway_section .nonAtomic ts ↔
    ∃ t, Tok skip K high_airway_section .nonAtomic t ∧ ts = [t] := Iff.rfl

@[kids_simp] theorem kids_high_airway_section' [UnicodeTables] : Kids skip K high_airway_section .compound ts ↔
    ∃ t, Tok skip K high_airway_section .compound t ∧ ts = [t] := Iff.rfl

@[kids_simp] theorem kids_low_airway_section [UnicodeTables] : Kids skip K low_airway_section .nonAtomic ts ↔
    ∃ t, Tok skip K low_airway_section .nonAtomic t ∧ ts = [t] := Iff.rfl

@[kids_simp] theorem kids_low_airway_section' [UnicodeTables] : Kids skip K low_airway_section .compound ts ↔
    ∃ t, Tok skip K low_airway_section .compound t ∧ ts = [t] := Iff.rfl

@[kids_simp] theorem kids_name : Kids skip K name .nonAtomic ts ↔
    ∃ t, Tok skip K name .nonAtomic t ∧ ts = [t] := Iff.rfl

@[kids_simp] theorem kids_name' : Kids skip K name .compound ts ↔
    ∃ t, Tok skip K name .compound t ∧ ts = [t] := Iff.rfl

@[kids_simp] theorem kids_region : Kids skip K region .nonAtomic ts ↔
    ∃ t, Tok skip K region .nonAtomic t ∧ ts = [t] := Iff.rfl

@[kids_simp] theorem kids_region' : Kids skip K region .compound ts ↔
    ∃ t, Tok skip K region .compound t ∧ ts = [t] := Iff.rfl

@[kids_simp] theorem kids_region_section : Kids skip K region_section .nonAtomic ts ↔
    ∃ t, Tok skip K region_section .nonAtomic t ∧ ts = [t] := Iff.rfl

@[kids_simp] theorem kids_region_section' : Kids skip K region_section .compound ts ↔
    ∃ t, Tok skip K region_section .compound t ∧ ts = [t] := Iff.rfl

@[kids_simp] theorem kids_quote_delimited_text : Kids skip K quote_delimited_text .nonAtomic ts ↔
    ∃ t, Tok skip K quote_delimited_text .nonAtomic t ∧ ts = [t] := Iff.rfl

@[kids_simp] theorem kids_quote_delimited_text' : Kids skip K quote_delimited_text .compound ts ↔
    ∃ t, Tok skip K quote_delimited_text .compound t ∧ ts = [t] := Iff.rfl

@[kids_simp] theorem kids_label : Kids skip K label .nonAtomic ts ↔
    ∃ t, Tok skip K label .nonAtomic t ∧ ts = [t] := Iff.rfl

@[kids_simp] theorem kids_label' : Kids skip K label .compound ts ↔
    ∃ t, Tok skip K label .compound t ∧ ts = [t] := Iff.rfl

@[kids_simp] theorem kids_labels_section : Kids skip K labels_section .nonAtomic ts ↔
    ∃ t, Tok skip K labels_section .nonAtomic t ∧ ts = [t] := Iff.rfl

@[kids_simp] theorem kids_labels_section' : Kids skip K labels_section .compound ts ↔
    ∃ t, Tok skip K labels_section .compound t ∧ ts = [t] := Iff.rfl

@[kids_simp] theorem kids_geo_section : Kids skip K geo_section .nonAtomic ts ↔
    ∃ t, Tok skip K geo_section .nonAtomic t ∧ ts = [t] := Iff.rfl

@[kids_simp] theorem kids_geo_section' : Kids skip K geo_section .compound ts ↔
    ∃ t, Tok skip K geo_section .compound t ∧ ts = [t] := Iff.rfl

@[kids_simp] theorem kids_sct [UnicodeTables] : Kids skip K sct .nonAtomic ts ↔
    ∃ t, Tok skip K sct .nonAtomic t ∧ ts = [t] := Iff.rfl

@[kids_simp] theorem kids_sct' [UnicodeTables] : Kids skip K sct .compound ts ↔
    ∃ t, Tok skip K sct .compound t ∧ ts = [t] := Iff.rfl

@[kids_simp] theorem kids_WHITESPACE : Kids skip K WHITESPACE .nonAtomic ts ↔ ts = [] := kids_mute_iff rfl

@[kids_simp] theorem kids_WHITESPACE' : Kids skip K WHITESPACE .compound ts ↔ ts = [] := kids_mute_iff rfl

@[kids_simp] theorem kids_COMMENT : Kids skip K COMMENT .nonAtomic ts ↔ ts = [] := kids_mute_iff rfl

@[kids_simp] theorem kids_COMMENT' : Kids skip K COMMENT .compound ts ↔ ts = [] := kids_mute_iff rfl

@[kids_simp] theorem kids_NL : Kids skip K NL .nonAtomic ts ↔ ts = [] := kids_mute_iff rfl

@[kids_simp] theorem kids_NL' : Kids skip K NL .compound ts ↔ ts = [] := kids_mute_iff rfl

end Verif.Peg.Sct
