import Verif.Grammar.Topsky
import Verif.Peg.Kids
/-!
# Tokens of the grammar `Topsky`

Generated by `tools/tokens.py`.
-/

namespace Verif.Peg.Topsky

variable {K : Str → Str → Prop} {ts : List (Tree Rule)}

@[kids_simp] theorem kids_colon_delimited_text : Kids skip K colon_delimited_text .nonAtomic ts ↔
    ∃ t, Tok skip K colon_delimited_text .nonAtomic t ∧ ts = [t] := Iff.rfl

@[kids_simp] theorem kids_colon_delimited_text' : Kids skip K colon_delimited_text .compound ts ↔
    ∃ t, Tok skip K colon_delimited_text .compound t ∧ ts = [t] := Iff.rfl

@[kids_simp] theorem kids_decimal : Kids skip K decimal .nonAtomic ts ↔
    ∃ t, Tok skip K decimal .nonAtomic t ∧ ts = [t] := Iff.rfl

@[kids_simp] theorem kids_decimal' : Kids skip K decimal .compound ts ↔
    ∃ t, Tok skip K decimal .compound t ∧ ts = [t] := Iff.rfl

@[kids_simp] theorem kids_symbol_rule_point : Kids skip K symbol_rule_point .nonAtomic ts ↔
    ∃ t, Tok skip K symbol_rule_point .nonAtomic t ∧ ts = [t] := Iff.rfl

@[kids_simp] theorem kids_symbol_rule_point' : Kids skip K symbol_rule_point .compound ts ↔
    ∃ t, Tok skip K symbol_rule_point .compound t ∧ ts = [t] := Iff.rfl

@[kids_simp] theorem kids_moveto : Kids skip K moveto .nonAtomic ts ↔
    ∃ t, Tok skip K moveto .nonAtomic t ∧ ts = [t] := Iff.rfl

@[kids_simp] theorem kids_moveto' : Kids skip K moveto .compound ts ↔
    ∃ t, Tok skip K moveto .compound t ∧ ts = [t] := Iff.rfl

@[kids_simp] theorem kids_line : Kids skip K line .nonAtomic ts ↔
    ∃ t, Tok skip K line .nonAtomic t ∧ ts = [t] := Iff.rfl

@[kids_simp] theorem kids_line' : Kids skip K line .compound ts ↔
    ∃ t, Tok skip K line .compound t ∧ ts = [t] := Iff.rfl

@[kids_simp] theorem kids_integer : Kids skip K integer .nonAtomic ts ↔
    ∃ t, Tok skip K integer .nonAtomic t ∧ ts = [t] := Iff.rfl

@[kids_simp] theorem kids_integer' : Kids skip K integer .compound ts ↔
    ∃ t, Tok skip K integer .compound t ∧ ts = [t] := Iff.rfl

@[kids_simp] theorem kids_fillarc : Kids skip K fillarc .nonAtomic ts ↔
    ∃ t, Tok skip K fillarc .nonAtomic t ∧ ts = [t] := Iff.rfl

@[kids_simp] theorem kids_fillarc' : Kids skip K fillarc .compound ts ↔
    ∃ t, Tok skip K fillarc .compound t ∧ ts = [t] := Iff.rfl

@[kids_simp] theorem kids_fillarc_ellipse : Kids skip K fillarc_ellipse .nonAtomic ts ↔
    ∃ t, Tok skip K fillarc_ellipse .nonAtomic t ∧ ts = [t] := Iff.rfl

@[kids_simp] theorem kids_fillarc_ellipse' : Kids skip K fillarc_ellipse .compound ts ↔
    ∃ t, Tok skip K fillarc_ellipse .compound t ∧ ts = [t] := Iff.rfl

@[kids_simp] theorem kids_arc : Kids skip K arc .nonAtomic ts ↔
    ∃ t, Tok skip K arc .nonAtomic t ∧ ts = [t] := Iff.rfl

@[kids_simp] theorem kids_arc' : Kids skip K arc .compound ts ↔
    ∃ t, Tok skip K arc .compound t ∧ ts = [t] := Iff.rfl

@[kids_simp] theorem kids_arc_ellipse : Kids skip K arc_ellipse .nonAtomic ts ↔
    ∃ t, Tok skip K arc_ellipse .nonAtomic t ∧ ts = [t] := Iff.rfl

@[kids_simp] theorem kids_arc_ellipse' : Kids skip K arc_ellipse .compound ts ↔
    ∃ t, Tok skip K arc_ellipse .compound t ∧ ts = [t] := Iff.rfl

@[kids_simp] theorem kids_ellipse : Kids skip K ellipse .nonAtomic ts ↔
    ∃ t, Tok skip K ellipse .nonAtomic t ∧ ts = [t] := Iff.rfl

@[kids_simp] theorem kids_ellipse' : Kids skip K ellipse .compound ts ↔
    ∃ t, Tok skip K ellipse .compound t ∧ ts = [t] := Iff.rfl

@[kids_simp] theorem kids_ellipse_circle : Kids skip K ellipse_circle .nonAtomic ts ↔
    ∃ t, Tok skip K ellipse_circle .nonAtomic t ∧ ts = [t] := Iff.rfl

@[kids_simp] theorem kids_ellipse_circle' : Kids skip K ellipse_circle .compound ts ↔
    ∃ t, Tok skip K ellipse_circle .compound t ∧ ts = [t] := Iff.rfl

@[kids_simp] theorem kids_polygon : Kids skip K polygon .nonAtomic ts ↔
    ∃ t, Tok skip K polygon .nonAtomic t ∧ ts = [t] := Iff.rfl

@[kids_simp] theorem kids_polygon' : Kids skip K polygon .compound ts ↔
    ∃ t, Tok skip K polygon .compound t ∧ ts = [t] := Iff.rfl

@[kids_simp] theorem kids_pixel : Kids skip K pixel .nonAtomic ts ↔
    ∃ t, Tok skip K pixel .nonAtomic t ∧ ts = [t] := Iff.rfl

@[kids_simp] theorem kids_pixel' : Kids skip K pixel .compound ts ↔
    ∃ t, Tok skip K pixel .compound t ∧ ts = [t] := Iff.rfl

@[kids_simp] theorem kids_fillrect : Kids skip K fillrect .nonAtomic ts ↔
    ∃ t, Tok skip K fillrect .nonAtomic t ∧ ts = [t] := Iff.rfl

@[kids_simp] theorem kids_fillrect' : Kids skip K fillrect .compound ts ↔
    ∃ t, Tok skip K fillrect .compound t ∧ ts = [t] := Iff.rfl

@[kids_simp] theorem kids_symbol : Kids skip K symbol .nonAtomic ts ↔
    ∃ t, Tok skip K symbol .nonAtomic t ∧ ts = [t] := Iff.rfl

@[kids_simp] theorem kids_symbol' : Kids skip K symbol .compound ts ↔
    ∃ t, Tok skip K symbol .compound t ∧ ts = [t] := Iff.rfl

@[kids_simp] theorem kids_symbols : Kids skip K symbols .nonAtomic ts ↔
    ∃ t, Tok skip K symbols .nonAtomic t ∧ ts = [t] := Iff.rfl

@[kids_simp] theorem kids_symbols' : Kids skip K symbols .compound ts ↔
    ∃ t, Tok skip K symbols .compound t ∧ ts = [t] := Iff.rfl

@[kids_simp] theorem kids_symboldef : Kids skip K symboldef .nonAtomic ts ↔
    ∃ t, Tok skip K symboldef .nonAtomic t ∧ ts = [t] := Iff.rfl

@[kids_simp] theorem kids_symboldef' : Kids skip K symboldef .compound ts ↔
    ∃ t, Tok skip K symboldef .compound t ∧ ts = [t] := Iff.rfl

@[kids_simp] theorem kids_colourdef : Kids skip K colourdef .nonAtomic ts ↔
    ∃ t, Tok skip K colourdef .nonAtomic t ∧ ts = [t] := Iff.rfl

@[kids_simp] theorem kids_colourdef' : Kids skip K colourdef .compound ts ↔
    ∃ t, Tok skip K colourdef .compound t ∧ ts = [t] := Iff.rfl

@[kids_simp] theorem kids_linestyledef : Kids skip K linestyledef .nonAtomic ts ↔
    ∃ t, Tok skip K linestyledef .nonAtomic t ∧ ts = [t] := Iff.rfl

@[kids_simp] theorem kids_linestyledef' : Kids skip K linestyledef .compound ts ↔
    ∃ t, Tok skip K linestyledef .compound t ∧ ts = [t] := Iff.rfl

@[kids_simp] theorem kids_backslash_delimited_text : Kids skip K backslash_delimited_text .nonAtomic ts ↔
    ∃ t, Tok skip K backslash_delimited_text .nonAtomic t ∧ ts = [t] := Iff.rfl

@[kids_simp] theorem kids_backslash_delimited_text' : Kids skip K backslash_delimited_text .compound ts ↔
    ∃ t, Tok skip K backslash_delimited_text .compound t ∧ ts = [t] := Iff.rfl

@[kids_simp] theorem kids_override_sct : Kids skip K override_sct .nonAtomic ts ↔
    ∃ t, Tok skip K override_sct .nonAtomic t ∧ ts = [t] := Iff.rfl

@[kids_simp] theorem kids_override_sct' : Kids skip K override_sct .compound ts ↔
    ∃ t, Tok skip K override_sct .compound t ∧ ts = [t] := Iff.rfl

@[kids_simp] theorem kids_sctfilepath : Kids skip K sctfilepath .nonAtomic ts ↔
    ∃ t, Tok skip K sctfilepath .nonAtomic t ∧ ts = [t] := Iff.rfl

@[kids_simp] theorem kids_sctfilepath' : Kids skip K sctfilepath .compound ts ↔
    ∃ t, Tok skip K sctfilepath .compound t ∧ ts = [t] := Iff.rfl

@[kids_simp] theorem kids_folder : Kids skip K folder .nonAtomic ts ↔
    ∃ t, Tok skip K folder .nonAtomic t ∧ ts = [t] := Iff.rfl

@[kids_simp] theorem kids_folder' : Kids skip K folder .compound ts ↔
    ∃ t, Tok skip K folder .compound t ∧ ts = [t] := Iff.rfl

@[kids_simp] theorem kids_colour : Kids skip K colour .nonAtomic ts ↔
    ∃ t, Tok skip K colour .nonAtomic t ∧ ts = [t] := Iff.rfl

@[kids_simp] theorem kids_colour' : Kids skip K colour .compound ts ↔
    ∃ t, Tok skip K colour .compound t ∧ ts = [t] := Iff.rfl

@[kids_simp] theorem kids_comma_delimited_text : Kids skip K comma_delimited_text .nonAtomic ts ↔
    ∃ t, Tok skip K comma_delimited_text .nonAtomic t ∧ ts = [t] := Iff.rfl

@[kids_simp] theorem kids_comma_delimited_text' : Kids skip K comma_delimited_text .compound ts ↔
    ∃ t, Tok skip K comma_delimited_text .compound t ∧ ts = [t] := Iff.rfl

@[kids_simp] theorem kids_names : Kids skip K names .nonAtomic ts ↔
    ∃ t, Tok skip K names .nonAtomic t ∧ ts = [t] := Iff.rfl

@[kids_simp] theorem kids_names' : Kids skip K names .compound ts ↔
    ∃ t, Tok skip K names .compound t ∧ ts = [t] := Iff.rfl

@[kids_simp] theorem kids_wildcard : Kids skip K wildcard .nonAtomic ts ↔
    ∃ t, Tok skip K wildcard .nonAtomic t ∧ ts = [t] := Iff.rfl

@[kids_simp] theorem kids_wildcard' : Kids skip K wildcard .compound ts ↔
    ∃ t, Tok skip K wildcard .compound t ∧ ts = [t] := Iff.rfl

@[kids_simp] theorem kids_asrdata : Kids skip K asrdata .nonAtomic ts ↔
    ∃ t, Tok skip K asrdata .nonAtomic t ∧ ts = [t] := Iff.rfl

@[kids_simp] theorem kids_asrdata' : Kids skip K asrdata .compound ts ↔
    ∃ t, Tok skip K asrdata .compound t ∧ ts = [t] := Iff.rfl

@[kids_simp] theorem kids_active_always : Kids skip K active_always .nonAtomic ts ↔
    ∃ t, Tok skip K active_always .nonAtomic t ∧ ts = [t] := Iff.rfl

@[kids_simp] theorem kids_active_always' : Kids skip K active_always .compound ts ↔
    ∃ t, Tok skip K active_always .compound t ∧ ts = [t] := Iff.rfl

@[kids_simp] theorem kids_active_id : Kids skip K active_id .nonAtomic ts ↔
    ∃ t, Tok skip K active_id .nonAtomic t ∧ ts = [t] := Iff.rfl

@[kids_simp] theorem kids_active_id' : Kids skip K active_id .compound ts ↔
    ∃ t, Tok skip K active_id .compound t ∧ ts = [t] := Iff.rfl

@[kids_simp] theorem kids_active_callsign : Kids skip K active_callsign .nonAtomic ts ↔
    ∃ t, Tok skip K active_callsign .nonAtomic t ∧ ts = [t] := Iff.rfl

@[kids_simp] theorem kids_active_callsign' : Kids skip K active_callsign .compound ts ↔
    ∃ t, Tok skip K active_callsign .compound t ∧ ts = [t] := Iff.rfl

@[kids_simp] theorem kids_active_area : Kids skip K active_area .nonAtomic ts ↔
    ∃ t, Tok skip K active_area .nonAtomic t ∧ ts = [t] := Iff.rfl

@[kids_simp] theorem kids_active_area' : Kids skip K active_area .compound ts ↔
    ∃ t, Tok skip K active_area .compound t ∧ ts = [t] := Iff.rfl

@[kids_simp] theorem kids_active_area_with_excludes : Kids skip K active_area_with_excludes .nonAtomic ts ↔
    ∃ t, Tok skip K active_area_with_excludes .nonAtomic t ∧ ts = [t] := Iff.rfl

@[kids_simp] theorem kids_active_area_with_excludes' : Kids skip K active_area_with_excludes .compound ts ↔
    ∃ t, Tok skip K active_area_with_excludes .compound t ∧ ts = [t] := Iff.rfl

@[kids_simp] theorem kids_active_aup : Kids skip K active_aup .nonAtomic ts ↔
    ∃ t, Tok skip K active_aup .nonAtomic t ∧ ts = [t] := Iff.rfl

@[kids_simp] theorem kids_active_aup' : Kids skip K active_aup .compound ts ↔
    ∃ t, Tok skip K active_aup .compound t ∧ ts = [t] := Iff.rfl

@[kids_simp] theorem kids_active_map_operator : Kids skip K active_map_operator .nonAtomic ts ↔
    ∃ t, Tok skip K active_map_operator .nonAtomic t ∧ ts = [t] := Iff.rfl

@[kids_simp] theorem kids_active_map_operator' : Kids skip K active_map_operator .compound ts ↔
    ∃ t, Tok skip K active_map_operator .compound t ∧ ts = [t] := Iff.rfl

@[kids_simp] theorem kids_active_map : Kids skip K active_map .nonAtomic ts ↔
    ∃ t, Tok skip K active_map .nonAtomic t ∧ ts = [t] := Iff.rfl

@[kids_simp] theorem kids_active_map' : Kids skip K active_map .compound ts ↔
    ∃ t, Tok skip K active_map .compound t ∧ ts = [t] := Iff.rfl

@[kids_simp] theorem kids_icao : Kids skip K icao .nonAtomic ts ↔
    ∃ t, Tok skip K icao .nonAtomic t ∧ ts = [t] := Iff.rfl

@[kids_simp] theorem kids_icao' : Kids skip K icao .compound ts ↔
    ∃ t, Tok skip K icao .compound t ∧ ts = [t] := Iff.rfl

@[kids_simp] theorem kids_active_notam : Kids skip K active_notam .nonAtomic ts ↔
    ∃ t, Tok skip K active_notam .nonAtomic t ∧ ts = [t] := Iff.rfl

@[kids_simp] theorem kids_active_notam' : Kids skip K active_notam .compound ts ↔
    ∃ t, Tok skip K active_notam .compound t ∧ ts = [t] := Iff.rfl

@[kids_simp] theorem kids_runway_designator : Kids skip K runway_designator .nonAtomic ts ↔
    ∃ t, Tok skip K runway_designator .nonAtomic t ∧ ts = [t] := Iff.rfl

@[kids_simp] theorem kids_runway_designator' : Kids skip K runway_designator .compound ts ↔
    ∃ t, Tok skip K runway_designator .compound t ∧ ts = [t] := Iff.rfl

@[kids_simp] theorem kids_runway : Kids skip K runway .nonAtomic ts ↔
    ∃ t, Tok skip K runway .nonAtomic t ∧ ts = [t] := Iff.rfl

@[kids_simp] theorem kids_runway' : Kids skip K runway .compound ts ↔
    ∃ t, Tok skip K runway .compound t ∧ ts = [t] := Iff.rfl

@[kids_simp] theorem kids_runways : Kids skip K runways .nonAtomic ts ↔
    ∃ t, Tok skip K runways .nonAtomic t ∧ ts = [t] := Iff.rfl

@[kids_simp] theorem kids_runways' : Kids skip K runways .compound ts ↔
    ∃ t, Tok skip K runways .compound t ∧ ts = [t] := Iff.rfl

@[kids_simp] theorem kids_active_rwy : Kids skip K active_rwy .nonAtomic ts ↔
    ∃ t, Tok skip K active_rwy .nonAtomic t ∧ ts = [t] := Iff.rfl

@[kids_simp] theorem kids_active_rwy' : Kids skip K active_rwy .compound ts ↔
    ∃ t, Tok skip K active_rwy .compound t ∧ ts = [t] := Iff.rfl

@[kids_simp] theorem kids_active_rwy_with_excludes : Kids skip K active_rwy_with_excludes .nonAtomic ts ↔
    ∃ t, Tok skip K active_rwy_with_excludes .nonAtomic t ∧ ts = [t] := Iff.rfl

@[kids_simp] theorem kids_active_rwy_with_excludes' : Kids skip K active_rwy_with_excludes .compound ts ↔
    ∃ t, Tok skip K active_rwy_with_excludes .compound t ∧ ts = [t] := Iff.rfl

@[kids_simp] theorem kids_md : Kids skip K md .nonAtomic ts ↔
    ∃ t, Tok skip K md .nonAtomic t ∧ ts = [t] := Iff.rfl

@[kids_simp] theorem kids_md' : Kids skip K md .compound ts ↔
    ∃ t, Tok skip K md .compound t ∧ ts = [t] := Iff.rfl

@[kids_simp] theorem kids_ymd : Kids skip K ymd .nonAtomic ts ↔
    ∃ t, Tok skip K ymd .nonAtomic t ∧ ts = [t] := Iff.rfl

@[kids_simp] theorem kids_ymd' : Kids skip K ymd .compound ts ↔
    ∃ t, Tok skip K ymd .compound t ∧ ts = [t] := Iff.rfl

@[kids_simp] theorem kids_hm : Kids skip K hm .nonAtomic ts ↔
    ∃ t, Tok skip K hm .nonAtomic t ∧ ts = [t] := Iff.rfl

@[kids_simp] theorem kids_hm' : Kids skip K hm .compound ts ↔
    ∃ t, Tok skip K hm .compound t ∧ ts = [t] := Iff.rfl

@[kids_simp] theorem kids_active_sched : Kids skip K active_sched .nonAtomic ts ↔
    ∃ t, Tok skip K active_sched .nonAtomic t ∧ ts = [t] := Iff.rfl

@[kids_simp] theorem kids_active_sched' : Kids skip K active_sched .compound ts ↔
    ∃ t, Tok skip K active_sched .compound t ∧ ts = [t] := Iff.rfl

@[kids_simp] theorem kids_active : Kids skip K active .nonAtomic ts ↔
    ∃ t, Tok skip K active .nonAtomic t ∧ ts = [t] := Iff.rfl

@[kids_simp] theorem kids_active' : Kids skip K active .compound ts ↔
    ∃ t, Tok skip K active .compound t ∧ ts = [t] := Iff.rfl

@[kids_simp] theorem kids_andactive : Kids skip K andactive .nonAtomic ts ↔
    ∃ t, Tok skip K andactive .nonAtomic t ∧ ts = [t] := Iff.rfl

@[kids_simp] theorem kids_andactive' : Kids skip K andactive .compound ts ↔
    ∃ t, Tok skip K andactive .compound t ∧ ts = [t] := Iff.rfl

@[kids_simp] theorem kids_layer : Kids skip K layer .nonAtomic ts ↔
    ∃ t, Tok skip K layer .nonAtomic t ∧ ts = [t] := Iff.rfl

@[kids_simp] theorem kids_layer' : Kids skip K layer .compound ts ↔
    ∃ t, Tok skip K layer .compound t ∧ ts = [t] := Iff.rfl

@[kids_simp] theorem kids_deg : Kids skip K deg .nonAtomic ts ↔
    ∃ t, Tok skip K deg .nonAtomic t ∧ ts = [t] := Iff.rfl

@[kids_simp] theorem kids_deg' : Kids skip K deg .compound ts ↔
    ∃ t, Tok skip K deg .compound t ∧ ts = [t] := Iff.rfl

@[kids_simp] theorem kids_min : Kids skip K min .nonAtomic ts ↔
    ∃ t, Tok skip K min .nonAtomic t ∧ ts = [t] := Iff.rfl

@[kids_simp] theorem kids_min' : Kids skip K min .compound ts ↔
    ∃ t, Tok skip K min .compound t ∧ ts = [t] := Iff.rfl

@[kids_simp] theorem kids_sec : Kids skip K sec .nonAtomic ts ↔
    ∃ t, Tok skip K sec .nonAtomic t ∧ ts = [t] := Iff.rfl

@[kids_simp] theorem kids_sec' : Kids skip K sec .compound ts ↔
    ∃ t, Tok skip K sec .compound t ∧ ts = [t] := Iff.rfl

@[kids_simp] theorem kids_hemi : Kids skip K hemi .nonAtomic ts ↔
    ∃ t, Tok skip K hemi .nonAtomic t ∧ ts = [t] := Iff.rfl

@[kids_simp] theorem kids_hemi' : Kids skip K hemi .compound ts ↔
    ∃ t, Tok skip K hemi .compound t ∧ ts = [t] := Iff.rfl

@[kids_simp] theorem kids_sct_coord_part : Kids skip K sct_coord_part .nonAtomic ts ↔
    ∃ t, Tok skip K sct_coord_part .nonAtomic t ∧ ts = [t] := Iff.rfl

@[kids_simp] theorem kids_sct_coord_part' : Kids skip K sct_coord_part .compound ts ↔
    ∃ t, Tok skip K sct_coord_part .compound t ∧ ts = [t] := Iff.rfl

@[kids_simp] theorem kids_coord_part : Kids skip K coord_part .nonAtomic ts ↔
    ∃ t, Tok skip K coord_part .nonAtomic t ∧ ts = [t] := Iff.rfl

@[kids_simp] theorem kids_coord_part' : Kids skip K coord_part .compound ts ↔
    ∃ t, Tok skip K coord_part .compound t ∧ ts = [t] := Iff.rfl

@[kids_simp] theorem kids_coordinate : Kids skip K coordinate .nonAtomic ts ↔
    ∃ t, Tok skip K coordinate .nonAtomic t ∧ ts = [t] := Iff.rfl

@[kids_simp] theorem kids_coordinate' : Kids skip K coordinate .compound ts ↔
    ∃ t, Tok skip K coordinate .compound t ∧ ts = [t] := Iff.rfl

@[kids_simp] theorem kids_point : Kids skip K point .nonAtomic ts ↔
    ∃ t, Tok skip K point .nonAtomic t ∧ ts = [t] := Iff.rfl

@[kids_simp] theorem kids_point' : Kids skip K point .compound ts ↔
    ∃ t, Tok skip K point .compound t ∧ ts = [t] := Iff.rfl

@[kids_simp] theorem kids_mapsymbollabel : Kids skip K mapsymbollabel .nonAtomic ts ↔
    ∃ t, Tok skip K mapsymbollabel .nonAtomic t ∧ ts = [t] := Iff.rfl

@[kids_simp] theorem kids_mapsymbollabel' : Kids skip K mapsymbollabel .compound ts ↔
    ∃ t, Tok skip K mapsymbollabel .compound t ∧ ts = [t] := Iff.rfl

@[kids_simp] theorem kids_horizontalalign : Kids skip K horizontalalign .nonAtomic ts ↔
    ∃ t, Tok skip K horizontalalign .nonAtomic t ∧ ts = [t] := Iff.rfl

@[kids_simp] theorem kids_horizontalalign' : Kids skip K horizontalalign .compound ts ↔
    ∃ t, Tok skip K horizontalalign .compound t ∧ ts = [t] := Iff.rfl

@[kids_simp] theorem kids_verticalalign : Kids skip K verticalalign .nonAtomic ts ↔
    ∃ t, Tok skip K verticalalign .nonAtomic t ∧ ts = [t] := Iff.rfl

@[kids_simp] theorem kids_verticalalign' : Kids skip K verticalalign .compound ts ↔
    ∃ t, Tok skip K verticalalign .compound t ∧ ts = [t] := Iff.rfl

@[kids_simp] theorem kids_textalign_config : Kids skip K textalign_config .nonAtomic ts ↔
    ∃ t, Tok skip K textalign_config .nonAtomic t ∧ ts = [t] := Iff.rfl

@[kids_simp] theorem kids_textalign_config' : Kids skip K textalign_config .compound ts ↔
    ∃ t, Tok skip K textalign_config .compound t ∧ ts = [t] := Iff.rfl

@[kids_simp] theorem kids_mapsymbol : Kids skip K mapsymbol .nonAtomic ts ↔
    ∃ t, Tok skip K mapsymbol .nonAtomic t ∧ ts = [t] := Iff.rfl

@[kids_simp] theorem kids_mapsymbol' : Kids skip K mapsymbol .compound ts ↔
    ∃ t, Tok skip K mapsymbol .compound t ∧ ts = [t] := Iff.rfl

@[kids_simp] theorem kids_fontstyle_default : Kids skip K fontstyle_default .nonAtomic ts ↔
    ∃ t, Tok skip K fontstyle_default .nonAtomic t ∧ ts = [t] := Iff.rfl

@[kids_simp] theorem kids_fontstyle_default' : Kids skip K fontstyle_default .compound ts ↔
    ∃ t, Tok skip K fontstyle_default .compound t ∧ ts = [t] := Iff.rfl

@[kids_simp] theorem kids_boolean : Kids skip K boolean .nonAtomic ts ↔
    ∃ t, Tok skip K boolean .nonAtomic t ∧ ts = [t] := Iff.rfl

@[kids_simp] theorem kids_boolean' : Kids skip K boolean .compound ts ↔
    ∃ t, Tok skip K boolean .compound t ∧ ts = [t] := Iff.rfl

@[kids_simp] theorem kids_fontstyle_set : Kids skip K fontstyle_set .nonAtomic ts ↔
    ∃ t, Tok skip K fontstyle_set .nonAtomic t ∧ ts = [t] := Iff.rfl

@[kids_simp] theorem kids_fontstyle_set' : Kids skip K fontstyle_set .compound ts ↔
    ∃ t, Tok skip K fontstyle_set .compound t ∧ ts = [t] := Iff.rfl

@[kids_simp] theorem kids_fontstyle : Kids skip K fontstyle .nonAtomic ts ↔
    ∃ t, Tok skip K fontstyle .nonAtomic t ∧ ts = [t] := Iff.rfl

@[kids_simp] theorem kids_fontstyle' : Kids skip K fontstyle .compound ts ↔
    ∃ t, Tok skip K fontstyle .compound t ∧ ts = [t] := Iff.rfl

@[kids_simp] theorem kids_fontsize_default : Kids skip K fontsize_default .nonAtomic ts ↔
    ∃ t, Tok skip K fontsize_default .nonAtomic t ∧ ts = [t] := Iff.rfl

@[kids_simp] theorem kids_fontsize_default' : Kids skip K fontsize_default .compound ts ↔
    ∃ t, Tok skip K fontsize_default .compound t ∧ ts = [t] := Iff.rfl

@[kids_simp] theorem kids_font_symbol : Kids skip K font_symbol .nonAtomic ts ↔
    ∃ t, Tok skip K font_symbol .nonAtomic t ∧ ts = [t] := Iff.rfl

@[kids_simp] theorem kids_font_symbol' : Kids skip K font_symbol .compound ts ↔
    ∃ t, Tok skip K font_symbol .compound t ∧ ts = [t] := Iff.rfl

@[kids_simp] theorem kids_fontsize : Kids skip K fontsize .nonAtomic ts ↔
    ∃ t, Tok skip K fontsize .nonAtomic t ∧ ts = [t] := Iff.rfl

@[kids_simp] theorem kids_fontsize' : Kids skip K fontsize .compound ts ↔
    ∃ t, Tok skip K fontsize .compound t ∧ ts = [t] := Iff.rfl

@[kids_simp] theorem kids_zoom : Kids skip K zoom .nonAtomic ts ↔
    ∃ t, Tok skip K zoom .nonAtomic t ∧ ts = [t] := Iff.rfl

@[kids_simp] theorem kids_zoom' : Kids skip K zoom .compound ts ↔
    ∃ t, Tok skip K zoom .compound t ∧ ts = [t] := Iff.rfl

@[kids_simp] theorem kids_style : Kids skip K style .nonAtomic ts ↔
    ∃ t, Tok skip K style .nonAtomic t ∧ ts = [t] := Iff.rfl

@[kids_simp] theorem kids_style' : Kids skip K style .compound ts ↔
    ∃ t, Tok skip K style .compound t ∧ ts = [t] := Iff.rfl

@[kids_simp] theorem kids_maplinecoordinates : Kids skip K maplinecoordinates .nonAtomic ts ↔
    ∃ t, Tok skip K maplinecoordinates .nonAtomic t ∧ ts = [t] := Iff.rfl

@[kids_simp] theorem kids_maplinecoordinates' : Kids skip K maplinecoordinates .compound ts ↔
    ∃ t, Tok skip K maplinecoordinates .compound t ∧ ts = [t] := Iff.rfl

@[kids_simp] theorem kids_maplinewpts : Kids skip K maplinewpts .nonAtomic ts ↔
    ∃ t, Tok skip K maplinewpts .nonAtomic t ∧ ts = [t] := Iff.rfl

@[kids_simp] theorem kids_maplinewpts' : Kids skip K maplinewpts .compound ts ↔
    ∃ t, Tok skip K maplinewpts .compound t ∧ ts = [t] := Iff.rfl

@[kids_simp] theorem kids_mapline : Kids skip K mapline .nonAtomic ts ↔
    ∃ t, Tok skip K mapline .nonAtomic t ∧ ts = [t] := Iff.rfl

@[kids_simp] theorem kids_mapline' : Kids skip K mapline .compound ts ↔
    ∃ t, Tok skip K mapline .compound t ∧ ts = [t] := Iff.rfl

@[kids_simp] theorem kids_text_content : Kids skip K text_content .nonAtomic ts ↔
    ∃ t, Tok skip K text_content .nonAtomic t ∧ ts = [t] := Iff.rfl

@[kids_simp] theorem kids_text_content' : Kids skip K text_content .compound ts ↔
    ∃ t, Tok skip K text_content .compound t ∧ ts = [t] := Iff.rfl

@[kids_simp] theorem kids_text : Kids skip K text .nonAtomic ts ↔
    ∃ t, Tok skip K text .nonAtomic t ∧ ts = [t] := Iff.rfl

@[kids_simp] theorem kids_text' : Kids skip K text .compound ts ↔
    ∃ t, Tok skip K text .compound t ∧ ts = [t] := Iff.rfl

@[kids_simp] theorem kids_textalign : Kids skip K textalign .nonAtomic ts ↔
    ∃ t, Tok skip K textalign .nonAtomic t ∧ ts = [t] := Iff.rfl

@[kids_simp] theorem kids_textalign' : Kids skip K textalign .compound ts ↔
    ∃ t, Tok skip K textalign .compound t ∧ ts = [t] := Iff.rfl

@[kids_simp] theorem kids_screen_specific : Kids skip K screen_specific .nonAtomic ts ↔
    ∃ t, Tok skip K screen_specific .nonAtomic t ∧ ts = [t] := Iff.rfl

@[kids_simp] theorem kids_screen_specific' : Kids skip K screen_specific .compound ts ↔
    ∃ t, Tok skip K screen_specific .compound t ∧ ts = [t] := Iff.rfl

@[kids_simp] theorem kids_global_ : Kids skip K global_ .nonAtomic ts ↔
    ∃ t, Tok skip K global_ .nonAtomic t ∧ ts = [t] := Iff.rfl

@[kids_simp] theorem kids_global_' : Kids skip K global_ .compound ts ↔
    ∃ t, Tok skip K global_ .compound t ∧ ts = [t] := Iff.rfl

@[kids_simp] theorem kids_hidden : Kids skip K hidden .nonAtomic ts ↔
    ∃ t, Tok skip K hidden .nonAtomic t ∧ ts = [t] := Iff.rfl

@[kids_simp] theorem kids_hidden' : Kids skip K hidden .compound ts ↔
    ∃ t, Tok skip K hidden .compound t ∧ ts = [t] := Iff.rfl

@[kids_simp] theorem kids_circle : Kids skip K circle .nonAtomic ts ↔
    ∃ t, Tok skip K circle .nonAtomic t ∧ ts = [t] := Iff.rfl

@[kids_simp] theorem kids_circle' : Kids skip K circle .compound ts ↔
    ∃ t, Tok skip K circle .compound t ∧ ts = [t] := Iff.rfl

@[kids_simp] theorem kids_coord : Kids skip K coord .nonAtomic ts ↔
    ∃ t, Tok skip K coord .nonAtomic t ∧ ts = [t] := Iff.rfl

@[kids_simp] theorem kids_coord' : Kids skip K coord .compound ts ↔
    ∃ t, Tok skip K coord .compound t ∧ ts = [t] := Iff.rfl

@[kids_simp] theorem kids_direction : Kids skip K direction .nonAtomic ts ↔
    ∃ t, Tok skip K direction .nonAtomic t ∧ ts = [t] := Iff.rfl

@[kids_simp] theorem kids_direction' : Kids skip K direction .compound ts ↔
    ∃ t, Tok skip K direction .compound t ∧ ts = [t] := Iff.rfl

@[kids_simp] theorem kids_coord_af : Kids skip K coord_af .nonAtomic ts ↔
    ∃ t, Tok skip K coord_af .nonAtomic t ∧ ts = [t] := Iff.rfl

@[kids_simp] theorem kids_coord_af' : Kids skip K coord_af .compound ts ↔
    ∃ t, Tok skip K coord_af .compound t ∧ ts = [t] := Iff.rfl

@[kids_simp] theorem kids_is_magnetic : Kids skip K is_magnetic .nonAtomic ts ↔
    ∃ t, Tok skip K is_magnetic .nonAtomic t ∧ ts = [t] := Iff.rfl

@[kids_simp] theorem kids_is_magnetic' : Kids skip K is_magnetic .compound ts ↔
    ∃ t, Tok skip K is_magnetic .compound t ∧ ts = [t] := Iff.rfl

@[kids_simp] theorem kids_inbound_course : Kids skip K inbound_course .nonAtomic ts ↔
    ∃ t, Tok skip K inbound_course .nonAtomic t ∧ ts = [t] := Iff.rfl

@[kids_simp] theorem kids_inbound_course' : Kids skip K inbound_course .compound ts ↔
    ∃ t, Tok skip K inbound_course .compound t ∧ ts = [t] := Iff.rfl

@[kids_simp] theorem kids_turn_direction : Kids skip K turn_direction .nonAtomic ts ↔
    ∃ t, Tok skip K turn_direction .nonAtomic t ∧ ts = [t] := Iff.rfl

@[kids_simp] theorem kids_turn_direction' : Kids skip K turn_direction .compound ts ↔
    ∃ t, Tok skip K turn_direction .compound t ∧ ts = [t] := Iff.rfl

@[kids_simp] theorem kids_is_minutes : Kids skip K is_minutes .nonAtomic ts ↔
    ∃ t, Tok skip K is_minutes .nonAtomic t ∧ ts = [t] := Iff.rfl

@[kids_simp] theorem kids_is_minutes' : Kids skip K is_minutes .compound ts ↔
    ∃ t, Tok skip K is_minutes .compound t ∧ ts = [t] := Iff.rfl

@[kids_simp] theorem kids_length : Kids skip K length .nonAtomic ts ↔
    ∃ t, Tok skip K length .nonAtomic t ∧ ts = [t] := Iff.rfl

@[kids_simp] theorem kids_length' : Kids skip K length .compound ts ↔
    ∃ t, Tok skip K length .compound t ∧ ts = [t] := Iff.rfl

@[kids_simp] theorem kids_is_knots : Kids skip K is_knots .nonAtomic ts ↔
    ∃ t, Tok skip K is_knots .nonAtomic t ∧ ts = [t] := Iff.rfl

@[kids_simp] theorem kids_is_knots' : Kids skip K is_knots .compound ts ↔
    ∃ t, Tok skip K is_knots .compound t ∧ ts = [t] := Iff.rfl

@[kids_simp] theorem kids_radius : Kids skip K radius .nonAtomic ts ↔
    ∃ t, Tok skip K radius .nonAtomic t ∧ ts = [t] := Iff.rfl

@[kids_simp] theorem kids_radius' : Kids skip K radius .compound ts ↔
    ∃ t, Tok skip K radius .compound t ∧ ts = [t] := Iff.rfl

@[kids_simp] theorem kids_coord_hm : Kids skip K coord_hm .nonAtomic ts ↔
    ∃ t, Tok skip K coord_hm .nonAtomic t ∧ ts = [t] := Iff.rfl

@[kids_simp] theorem kids_coord_hm' : Kids skip K coord_hm .compound ts ↔
    ∃ t, Tok skip K coord_hm .compound t ∧ ts = [t] := Iff.rfl

@[kids_simp] theorem kids_coord_pbd : Kids skip K coord_pbd .nonAtomic ts ↔
    ∃ t, Tok skip K coord_pbd .nonAtomic t ∧ ts = [t] := Iff.rfl

@[kids_simp] theorem kids_coord_pbd' : Kids skip K coord_pbd .compound ts ↔
    ∃ t, Tok skip K coord_pbd .compound t ∧ ts = [t] := Iff.rfl

@[kids_simp] theorem kids_coordline : Kids skip K coordline .nonAtomic ts ↔
    ∃ t, Tok skip K coordline .nonAtomic t ∧ ts = [t] := Iff.rfl

@[kids_simp] theorem kids_coordline' : Kids skip K coordline .compound ts ↔
    ∃ t, Tok skip K coordline .compound t ∧ ts = [t] := Iff.rfl

@[kids_simp] theorem kids_coordpoly : Kids skip K coordpoly .nonAtomic ts ↔
    ∃ t, Tok skip K coordpoly .nonAtomic t ∧ ts = [t] := Iff.rfl

@[kids_simp] theorem kids_coordpoly' : Kids skip K coordpoly .compound ts ↔
    ∃ t, Tok skip K coordpoly .compound t ∧ ts = [t] := Iff.rfl

@[kids_simp] theorem kids_sctfiledata_ignore_style : Kids skip K sctfiledata_ignore_style .nonAtomic ts ↔
    ∃ t, Tok skip K sctfiledata_ignore_style .nonAtomic t ∧ ts = [t] := Iff.rfl

@[kids_simp] theorem kids_sctfiledata_ignore_style' : Kids skip K sctfiledata_ignore_style .compound ts ↔
    ∃ t, Tok skip K sctfiledata_ignore_style .compound t ∧ ts = [t] := Iff.rfl

@[kids_simp] theorem kids_sctfiledata : Kids skip K sctfiledata .nonAtomic ts ↔
    ∃ t, Tok skip K sctfiledata .nonAtomic t ∧ ts = [t] := Iff.rfl

@[kids_simp] theorem kids_sctfiledata' : Kids skip K sctfiledata .compound ts ↔
    ∃ t, Tok skip K sctfiledata .compound t ∧ ts = [t] := Iff.rfl

@[kids_simp] theorem kids_sctdata : Kids skip K sctdata .nonAtomic ts ↔
    ∃ t, Tok skip K sctdata .nonAtomic t ∧ ts = [t] := Iff.rfl

@[kids_simp] theorem kids_sctdata' : Kids skip K sctdata .compound ts ↔
    ∃ t, Tok skip K sctdata .compound t ∧ ts = [t] := Iff.rfl

@[kids_simp] theorem kids_map : Kids skip K map .nonAtomic ts ↔
    ∃ t, Tok skip K map .nonAtomic t ∧ ts = [t] := Iff.rfl

@[kids_simp] theorem kids_map' : Kids skip K map .compound ts ↔
    ∃ t, Tok skip K map .compound t ∧ ts = [t] := Iff.rfl

@[kids_simp] theorem kids_maps : Kids skip K maps .nonAtomic ts ↔
    ∃ t, Tok skip K maps .nonAtomic t ∧ ts = [t] := Iff.rfl

@[kids_simp] theorem kids_maps' : Kids skip K maps .compound ts ↔
    ∃ t, Tok skip K maps .compound t ∧ ts = [t] := Iff.rfl

@[kids_simp] theorem kids_NL : Kids skip K NL .nonAtomic ts ↔ ts = [] := kids_mute_iff rfl

@[kids_simp] theorem kids_NL' : Kids skip K NL .compound ts ↔ ts = [] := kids_mute_iff rfl

@[kids_simp] theorem kids_COMMENT : Kids skip K COMMENT .nonAtomic ts ↔ ts = [] := kids_mute_iff rfl

@[kids_simp] theorem kids_COMMENT' : Kids skip K COMMENT .compound ts ↔ ts = [] := kids_mute_iff rfl

end Verif.Peg.Topsky
