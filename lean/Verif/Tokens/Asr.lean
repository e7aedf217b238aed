import Verif.Grammar.Asr
import Verif.Peg.Kids
/-!
# Tokens of the grammar `Asr`

Generated by `tools/tokens.py`.
-/

namespace Verif.Peg.Asr

variable {K : Str → Str → Prop} {ts : List (Tree Rule)}

@[kids_simp] theorem kids_INTEGER : Kids skip K INTEGER .nonAtomic ts ↔
    ∃ t, Tok skip K INTEGER .nonAtomic t ∧ ts = [t] := Iff.rfl

@[kids_simp] theorem kids_INTEGER' : Kids skip K INTEGER .compound ts ↔
    ∃ t, Tok skip K INTEGER .compound t ∧ ts = [t] := Iff.rfl

@[kids_simp] theorem kids_above : Kids skip K above .nonAtomic ts ↔
    ∃ t, Tok skip K above .nonAtomic t ∧ ts = [t] := Iff.rfl

@[kids_simp] theorem kids_above' : Kids skip K above .compound ts ↔
    ∃ t, Tok skip K above .compound t ∧ ts = [t] := Iff.rfl

@[kids_simp] theorem kids_below : Kids skip K below .nonAtomic ts ↔
    ∃ t, Tok skip K below .nonAtomic t ∧ ts = [t] := Iff.rfl

@[kids_simp] theorem kids_below' : Kids skip K below .compound ts ↔
    ∃ t, Tok skip K below .compound t ∧ ts = [t] := Iff.rfl

@[kids_simp] theorem kids_BOOL : Kids skip K BOOL .nonAtomic ts ↔
    ∃ t, Tok skip K BOOL .nonAtomic t ∧ ts = [t] := Iff.rfl

@[kids_simp] theorem kids_BOOL' : Kids skip K BOOL .compound ts ↔
    ∃ t, Tok skip K BOOL .compound t ∧ ts = [t] := Iff.rfl

@[kids_simp] theorem kids_disable_panning : Kids skip K disable_panning .nonAtomic ts ↔
    ∃ t, Tok skip K disable_panning .nonAtomic t ∧ ts = [t] := Iff.rfl

@[kids_simp] theorem kids_disable_panning' : Kids skip K disable_panning .compound ts ↔
    ∃ t, Tok skip K disable_panning .compound t ∧ ts = [t] := Iff.rfl

@[kids_simp] theorem kids_disable_zooming : Kids skip K disable_zooming .nonAtomic ts ↔
    ∃ t, Tok skip K disable_zooming .nonAtomic t ∧ ts = [t] := Iff.rfl

@[kids_simp] theorem kids_disable_zooming' : Kids skip K disable_zooming .compound ts ↔
    ∃ t, Tok skip K disable_zooming .compound t ∧ ts = [t] := Iff.rfl

@[kids_simp] theorem kids_DECIMAL : Kids skip K DECIMAL .nonAtomic ts ↔
    ∃ t, Tok skip K DECIMAL .nonAtomic t ∧ ts = [t] := Iff.rfl

@[kids_simp] theorem kids_DECIMAL' : Kids skip K DECIMAL .compound ts ↔
    ∃ t, Tok skip K DECIMAL .compound t ∧ ts = [t] := Iff.rfl

@[kids_simp] theorem kids_display_rotation : Kids skip K display_rotation .nonAtomic ts ↔
    ∃ t, Tok skip K display_rotation .nonAtomic t ∧ ts = [t] := Iff.rfl

@[kids_simp] theorem kids_display_rotation' : Kids skip K display_rotation .compound ts ↔
    ∃ t, Tok skip K display_rotation .compound t ∧ ts = [t] := Iff.rfl

@[kids_simp] theorem kids_value : Kids skip K value .nonAtomic ts ↔
    ∃ t, Tok skip K value .nonAtomic t ∧ ts = [t] := Iff.rfl

@[kids_simp] theorem kids_value' : Kids skip K value .compound ts ↔
    ∃ t, Tok skip K value .compound t ∧ ts = [t] := Iff.rfl

@[kids_simp] theorem kids_display_type : Kids skip K display_type .nonAtomic ts ↔
    ∃ t, Tok skip K display_type .nonAtomic t ∧ ts = [t] := Iff.rfl

@[kids_simp] theorem kids_display_type' : Kids skip K display_type .compound ts ↔
    ∃ t, Tok skip K display_type .compound t ∧ ts = [t] := Iff.rfl

@[kids_simp] theorem kids_display_type_geo_referenced : Kids skip K display_type_geo_referenced .nonAtomic ts ↔
    ∃ t, Tok skip K display_type_geo_referenced .nonAtomic t ∧ ts = [t] := Iff.rfl

@[kids_simp] theorem kids_display_type_geo_referenced' : Kids skip K display_type_geo_referenced .compound ts ↔
    ∃ t, Tok skip K display_type_geo_referenced .compound t ∧ ts = [t] := Iff.rfl

@[kids_simp] theorem kids_display_type_need_radar_content : Kids skip K display_type_need_radar_content .nonAtomic ts ↔
    ∃ t, Tok skip K display_type_need_radar_content .nonAtomic t ∧ ts = [t] := Iff.rfl

@[kids_simp] theorem kids_display_type_need_radar_content' : Kids skip K display_type_need_radar_content .compound ts ↔
    ∃ t, Tok skip K display_type_need_radar_content .compound t ∧ ts = [t] := Iff.rfl

@[kids_simp] theorem kids_history_dots : Kids skip K history_dots .nonAtomic ts ↔
    ∃ t, Tok skip K history_dots .nonAtomic t ∧ ts = [t] := Iff.rfl

@[kids_simp] theorem kids_history_dots' : Kids skip K history_dots .compound ts ↔
    ∃ t, Tok skip K history_dots .compound t ∧ ts = [t] := Iff.rfl

@[kids_simp] theorem kids_leader : Kids skip K leader .nonAtomic ts ↔
    ∃ t, Tok skip K leader .nonAtomic t ∧ ts = [t] := Iff.rfl

@[kids_simp] theorem kids_leader' : Kids skip K leader .compound ts ↔
    ∃ t, Tok skip K leader .compound t ∧ ts = [t] := Iff.rfl

@[kids_simp] theorem kids_sector_file : Kids skip K sector_file .nonAtomic ts ↔
    ∃ t, Tok skip K sector_file .nonAtomic t ∧ ts = [t] := Iff.rfl

@[kids_simp] theorem kids_sector_file' : Kids skip K sector_file .compound ts ↔
    ∃ t, Tok skip K sector_file .compound t ∧ ts = [t] := Iff.rfl

@[kids_simp] theorem kids_sector_title : Kids skip K sector_title .nonAtomic ts ↔
    ∃ t, Tok skip K sector_title .nonAtomic t ∧ ts = [t] := Iff.rfl

@[kids_simp] theorem kids_sector_title' : Kids skip K sector_title .compound ts ↔
    ∃ t, Tok skip K sector_title .compound t ∧ ts = [t] := Iff.rfl

@[kids_simp] theorem kids_show_leader : Kids skip K show_leader .nonAtomic ts ↔
    ∃ t, Tok skip K show_leader .nonAtomic t ∧ ts = [t] := Iff.rfl

@[kids_simp] theorem kids_show_leader' : Kids skip K show_leader .compound ts ↔
    ∃ t, Tok skip K show_leader .compound t ∧ ts = [t] := Iff.rfl

@[kids_simp] theorem kids_show_c : Kids skip K show_c .nonAtomic ts ↔
    ∃ t, Tok skip K show_c .nonAtomic t ∧ ts = [t] := Iff.rfl

@[kids_simp] theorem kids_show_c' : Kids skip K show_c .compound ts ↔
    ∃ t, Tok skip K show_c .compound t ∧ ts = [t] := Iff.rfl

@[kids_simp] theorem kids_show_standby : Kids skip K show_standby .nonAtomic ts ↔
    ∃ t, Tok skip K show_standby .nonAtomic t ∧ ts = [t] := Iff.rfl

@[kids_simp] theorem kids_show_standby' : Kids skip K show_standby .compound ts ↔
    ∃ t, Tok skip K show_standby .compound t ∧ ts = [t] := Iff.rfl

@[kids_simp] theorem kids_simulation_mode : Kids skip K simulation_mode .nonAtomic ts ↔
    ∃ t, Tok skip K simulation_mode .nonAtomic t ∧ ts = [t] := Iff.rfl

@[kids_simp] theorem kids_simulation_mode' : Kids skip K simulation_mode .compound ts ↔
    ∃ t, Tok skip K simulation_mode .compound t ∧ ts = [t] := Iff.rfl

@[kids_simp] theorem kids_tag_family : Kids skip K tag_family .nonAtomic ts ↔
    ∃ t, Tok skip K tag_family .nonAtomic t ∧ ts = [t] := Iff.rfl

@[kids_simp] theorem kids_tag_family' : Kids skip K tag_family .compound ts ↔
    ∃ t, Tok skip K tag_family .compound t ∧ ts = [t] := Iff.rfl

@[kids_simp] theorem kids_turn_leader : Kids skip K turn_leader .nonAtomic ts ↔
    ∃ t, Tok skip K turn_leader .nonAtomic t ∧ ts = [t] := Iff.rfl

@[kids_simp] theorem kids_turn_leader' : Kids skip K turn_leader .compound ts ↔
    ∃ t, Tok skip K turn_leader .compound t ∧ ts = [t] := Iff.rfl

@[kids_simp] theorem kids_deg : Kids skip K deg .nonAtomic ts ↔
    ∃ t, Tok skip K deg .nonAtomic t ∧ ts = [t] := Iff.rfl

@[kids_simp] theorem kids_deg' : Kids skip K deg .compound ts ↔
    ∃ t, Tok skip K deg .compound t ∧ ts = [t] := Iff.rfl

@[kids_simp] theorem kids_min : Kids skip K min .nonAtomic ts ↔
    ∃ t, Tok skip K min .nonAtomic t ∧ ts = [t] := Iff.rfl

@[kids_simp] theorem kids_min' : Kids skip K min .compound ts ↔
    ∃ t, Tok skip K min .compound t ∧ ts = [t] := Iff.rfl

@[kids_simp] theorem kids_sec : Kids skip K sec .nonAtomic ts ↔
    ∃ t, Tok skip K sec .nonAtomic t ∧ ts = [t] := Iff.rfl

@[kids_simp] theorem kids_sec' : Kids skip K sec .compound ts ↔
    ∃ t, Tok skip K sec .compound t ∧ ts = [t] := Iff.rfl

@[kids_simp] theorem kids_hemi : Kids skip K hemi .nonAtomic ts ↔
    ∃ t, Tok skip K hemi .nonAtomic t ∧ ts = [t] := Iff.rfl

@[kids_simp] theorem kids_hemi' : Kids skip K hemi .compound ts ↔
    ∃ t, Tok skip K hemi .compound t ∧ ts = [t] := Iff.rfl

@[kids_simp] theorem kids_sct_coord_part : Kids skip K sct_coord_part .nonAtomic ts ↔
    ∃ t, Tok skip K sct_coord_part .nonAtomic t ∧ ts = [t] := Iff.rfl

@[kids_simp] theorem kids_sct_coord_part' : Kids skip K sct_coord_part .compound ts ↔
    ∃ t, Tok skip K sct_coord_part .compound t ∧ ts = [t] := Iff.rfl

@[kids_simp] theorem kids_coord_part : Kids skip K coord_part .nonAtomic ts ↔
    ∃ t, Tok skip K coord_part .nonAtomic t ∧ ts = [t] := Iff.rfl

@[kids_simp] theorem kids_coord_part' : Kids skip K coord_part .compound ts ↔
    ∃ t, Tok skip K coord_part .compound t ∧ ts = [t] := Iff.rfl

@[kids_simp] theorem kids_window_area : Kids skip K window_area .nonAtomic ts ↔
    ∃ t, Tok skip K window_area .nonAtomic t ∧ ts = [t] := Iff.rfl

@[kids_simp] theorem kids_window_area' : Kids skip K window_area .compound ts ↔
    ∃ t, Tok skip K window_area .compound t ∧ ts = [t] := Iff.rfl

@[kids_simp] theorem kids_multivalue : Kids skip K multivalue .nonAtomic ts ↔
    ∃ t, Tok skip K multivalue .nonAtomic t ∧ ts = [t] := Iff.rfl

@[kids_simp] theorem kids_multivalue' : Kids skip K multivalue .compound ts ↔
    ∃ t, Tok skip K multivalue .compound t ∧ ts = [t] := Iff.rfl

@[kids_simp] theorem kids_plugin : Kids skip K plugin .nonAtomic ts ↔
    ∃ t, Tok skip K plugin .nonAtomic t ∧ ts = [t] := Iff.rfl

@[kids_simp] theorem kids_plugin' : Kids skip K plugin .compound ts ↔
    ∃ t, Tok skip K plugin .compound t ∧ ts = [t] := Iff.rfl

@[kids_simp] theorem kids_centerline : Kids skip K centerline .nonAtomic ts ↔
    ∃ t, Tok skip K centerline .nonAtomic t ∧ ts = [t] := Iff.rfl

@[kids_simp] theorem kids_centerline' : Kids skip K centerline .compound ts ↔
    ∃ t, Tok skip K centerline .compound t ∧ ts = [t] := Iff.rfl

@[kids_simp] theorem kids_ext_centerline : Kids skip K ext_centerline .nonAtomic ts ↔
    ∃ t, Tok skip K ext_centerline .nonAtomic t ∧ ts = [t] := Iff.rfl

@[kids_simp] theorem kids_ext_centerline' : Kids skip K ext_centerline .compound ts ↔
    ∃ t, Tok skip K ext_centerline .compound t ∧ ts = [t] := Iff.rfl

@[kids_simp] theorem kids_name : Kids skip K name .nonAtomic ts ↔
    ∃ t, Tok skip K name .nonAtomic t ∧ ts = [t] := Iff.rfl

@[kids_simp] theorem kids_name' : Kids skip K name .compound ts ↔
    ∃ t, Tok skip K name .compound t ∧ ts = [t] := Iff.rfl

@[kids_simp] theorem kids_runway_desig : Kids skip K runway_desig .nonAtomic ts ↔
    ∃ t, Tok skip K runway_desig .nonAtomic t ∧ ts = [t] := Iff.rfl

@[kids_simp] theorem kids_runway_desig' : Kids skip K runway_desig .compound ts ↔
    ∃ t, Tok skip K runway_desig .compound t ∧ ts = [t] := Iff.rfl

@[kids_simp] theorem kids_airport : Kids skip K airport .nonAtomic ts ↔
    ∃ t, Tok skip K airport .nonAtomic t ∧ ts = [t] := Iff.rfl

@[kids_simp] theorem kids_airport' : Kids skip K airport .compound ts ↔
    ∃ t, Tok skip K airport .compound t ∧ ts = [t] := Iff.rfl

@[kids_simp] theorem kids_runways : Kids skip K runways .nonAtomic ts ↔
    ∃ t, Tok skip K runways .nonAtomic t ∧ ts = [t] := Iff.rfl

@[kids_simp] theorem kids_runways' : Kids skip K runways .compound ts ↔
    ∃ t, Tok skip K runways .compound t ∧ ts = [t] := Iff.rfl

@[kids_simp] theorem kids_symbol : Kids skip K symbol .nonAtomic ts ↔
    ∃ t, Tok skip K symbol .nonAtomic t ∧ ts = [t] := Iff.rfl

@[kids_simp] theorem kids_symbol' : Kids skip K symbol .compound ts ↔
    ∃ t, Tok skip K symbol .compound t ∧ ts = [t] := Iff.rfl

@[kids_simp] theorem kids_airports : Kids skip K airports .nonAtomic ts ↔
    ∃ t, Tok skip K airports .nonAtomic t ∧ ts = [t] := Iff.rfl

@[kids_simp] theorem kids_airports' : Kids skip K airports .compound ts ↔
    ∃ t, Tok skip K airports .compound t ∧ ts = [t] := Iff.rfl

@[kids_simp] theorem kids_frequency : Kids skip K frequency .nonAtomic ts ↔
    ∃ t, Tok skip K frequency .nonAtomic t ∧ ts = [t] := Iff.rfl

@[kids_simp] theorem kids_frequency' : Kids skip K frequency .compound ts ↔
    ∃ t, Tok skip K frequency .compound t ∧ ts = [t] := Iff.rfl

@[kids_simp] theorem kids_ndbs : Kids skip K ndbs .nonAtomic ts ↔
    ∃ t, Tok skip K ndbs .nonAtomic t ∧ ts = [t] := Iff.rfl

@[kids_simp] theorem kids_ndbs' : Kids skip K ndbs .compound ts ↔
    ∃ t, Tok skip K ndbs .compound t ∧ ts = [t] := Iff.rfl

@[kids_simp] theorem kids_vors : Kids skip K vors .nonAtomic ts ↔
    ∃ t, Tok skip K vors .nonAtomic t ∧ ts = [t] := Iff.rfl

@[kids_simp] theorem kids_vors' : Kids skip K vors .compound ts ↔
    ∃ t, Tok skip K vors .compound t ∧ ts = [t] := Iff.rfl

@[kids_simp] theorem kids_fixes : Kids skip K fixes .nonAtomic ts ↔
    ∃ t, Tok skip K fixes .nonAtomic t ∧ ts = [t] := Iff.rfl

@[kids_simp] theorem kids_fixes' : Kids skip K fixes .compound ts ↔
    ∃ t, Tok skip K fixes .compound t ∧ ts = [t] := Iff.rfl

@[kids_simp] theorem kids_line : Kids skip K line .nonAtomic ts ↔
    ∃ t, Tok skip K line .nonAtomic t ∧ ts = [t] := Iff.rfl

@[kids_simp] theorem kids_line' : Kids skip K line .compound ts ↔
    ∃ t, Tok skip K line .compound t ∧ ts = [t] := Iff.rfl

@[kids_simp] theorem kids_low_airways : Kids skip K low_airways .nonAtomic ts ↔
    ∃ t, Tok skip K low_airways .nonAtomic t ∧ ts = [t] := Iff.rfl

@[kids_simp] theorem kids_low_airways' : Kids skip K low_airways .compound ts ↔
    ∃ t, Tok skip K low_airways .compound t ∧ ts = [t] := Iff.rfl

@[kids_simp] theorem kids_high_airways : Kids skip K high_airways .nonAtomic ts ↔
    ∃ t, Tok skip K high_airways .nonAtomic t ∧ ts = [t] := Iff.rfl

@[kids_simp] theorem kids_high_airways' : Kids skip K high_airways .compound ts ↔
    ∃ t, Tok skip K high_airways .compound t ∧ ts = [t] := Iff.rfl

@[kids_simp] theorem kids_sids : Kids skip K sids .nonAtomic ts ↔
    ∃ t, Tok skip K sids .nonAtomic t ∧ ts = [t] := Iff.rfl

@[kids_simp] theorem kids_sids' : Kids skip K sids .compound ts ↔
    ∃ t, Tok skip K sids .compound t ∧ ts = [t] := Iff.rfl

@[kids_simp] theorem kids_stars : Kids skip K stars .nonAtomic ts ↔
    ∃ t, Tok skip K stars .nonAtomic t ∧ ts = [t] := Iff.rfl

@[kids_simp] theorem kids_stars' : Kids skip K stars .compound ts ↔
    ∃ t, Tok skip K stars .compound t ∧ ts = [t] := Iff.rfl

@[kids_simp] theorem kids_multivalue_backslash : Kids skip K multivalue_backslash .nonAtomic ts ↔
    ∃ t, Tok skip K multivalue_backslash .nonAtomic t ∧ ts = [t] := Iff.rfl

@[kids_simp] theorem kids_multivalue_backslash' : Kids skip K multivalue_backslash .compound ts ↔
    ∃ t, Tok skip K multivalue_backslash .compound t ∧ ts = [t] := Iff.rfl

@[kids_simp] theorem kids_free_text : Kids skip K free_text .nonAtomic ts ↔
    ∃ t, Tok skip K free_text .nonAtomic t ∧ ts = [t] := Iff.rfl

@[kids_simp] theorem kids_free_text' : Kids skip K free_text .compound ts ↔
    ∃ t, Tok skip K free_text .compound t ∧ ts = [t] := Iff.rfl

@[kids_simp] theorem kids_geo : Kids skip K geo .nonAtomic ts ↔
    ∃ t, Tok skip K geo .nonAtomic t ∧ ts = [t] := Iff.rfl

@[kids_simp] theorem kids_geo' : Kids skip K geo .compound ts ↔
    ∃ t, Tok skip K geo .compound t ∧ ts = [t] := Iff.rfl

@[kids_simp] theorem kids_exit : Kids skip K exit .nonAtomic ts ↔
    ∃ t, Tok skip K exit .nonAtomic t ∧ ts = [t] := Iff.rfl

@[kids_simp] theorem kids_exit' : Kids skip K exit .compound ts ↔
    ∃ t, Tok skip K exit .compound t ∧ ts = [t] := Iff.rfl

@[kids_simp] theorem kids_taxiway : Kids skip K taxiway .nonAtomic ts ↔
    ∃ t, Tok skip K taxiway .nonAtomic t ∧ ts = [t] := Iff.rfl

@[kids_simp] theorem kids_taxiway' : Kids skip K taxiway .compound ts ↔
    ∃ t, Tok skip K taxiway .compound t ∧ ts = [t] := Iff.rfl

@[kids_simp] theorem kids_terminal_taxiway : Kids skip K terminal_taxiway .nonAtomic ts ↔
    ∃ t, Tok skip K terminal_taxiway .nonAtomic t ∧ ts = [t] := Iff.rfl

@[kids_simp] theorem kids_terminal_taxiway' : Kids skip K terminal_taxiway .compound ts ↔
    ∃ t, Tok skip K terminal_taxiway .compound t ∧ ts = [t] := Iff.rfl

@[kids_simp] theorem kids_ground_network : Kids skip K ground_network .nonAtomic ts ↔
    ∃ t, Tok skip K ground_network .nonAtomic t ∧ ts = [t] := Iff.rfl

@[kids_simp] theorem kids_ground_network' : Kids skip K ground_network .compound ts ↔
    ∃ t, Tok skip K ground_network .compound t ∧ ts = [t] := Iff.rfl

@[kids_simp] theorem kids_regions : Kids skip K regions .nonAtomic ts ↔
    ∃ t, Tok skip K regions .nonAtomic t ∧ ts = [t] := Iff.rfl

@[kids_simp] theorem kids_regions' : Kids skip K regions .compound ts ↔
    ∃ t, Tok skip K regions .compound t ∧ ts = [t] := Iff.rfl

@[kids_simp] theorem kids_artcc_boundary : Kids skip K artcc_boundary .nonAtomic ts ↔
    ∃ t, Tok skip K artcc_boundary .nonAtomic t ∧ ts = [t] := Iff.rfl

@[kids_simp] theorem kids_artcc_boundary' : Kids skip K artcc_boundary .compound ts ↔
    ∃ t, Tok skip K artcc_boundary .compound t ∧ ts = [t] := Iff.rfl

@[kids_simp] theorem kids_artcc_low_boundary : Kids skip K artcc_low_boundary .nonAtomic ts ↔
    ∃ t, Tok skip K artcc_low_boundary .nonAtomic t ∧ ts = [t] := Iff.rfl

@[kids_simp] theorem kids_artcc_low_boundary' : Kids skip K artcc_low_boundary .compound ts ↔
    ∃ t, Tok skip K artcc_low_boundary .compound t ∧ ts = [t] := Iff.rfl

@[kids_simp] theorem kids_artcc_high_boundary : Kids skip K artcc_high_boundary .nonAtomic ts ↔
    ∃ t, Tok skip K artcc_high_boundary .nonAtomic t ∧ ts = [t] := Iff.rfl

@[kids_simp] theorem kids_artcc_high_boundary' : Kids skip K artcc_high_boundary .compound ts ↔
    ∃ t, Tok skip K artcc_high_boundary .compound t ∧ ts = [t] := Iff.rfl

@[kids_simp] theorem kids_asr : Kids skip K asr .nonAtomic ts ↔
    ∃ t, Tok skip K asr .nonAtomic t ∧ ts = [t] := Iff.rfl

@[kids_simp] theorem kids_asr' : Kids skip K asr .compound ts ↔
    ∃ t, Tok skip K asr .compound t ∧ ts = [t] := Iff.rfl

@[kids_simp] theorem kids_NL : Kids skip K NL .nonAtomic ts ↔ ts = [] := kids_mute_iff rfl

@[kids_simp] theorem kids_NL' : Kids skip K NL .compound ts ↔ ts = [] := kids_mute_iff rfl

@[kids_simp] theorem kids_COMMENT : Kids skip K COMMENT .nonAtomic ts ↔ ts = [] := kids_mute_iff rfl

@[kids_simp] theorem kids_COMMENT' : Kids skip K COMMENT .compound ts ↔ ts = [] := kids_mute_iff rfl

end Verif.Peg.Asr
