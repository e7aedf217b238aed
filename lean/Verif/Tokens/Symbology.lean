import Verif.Grammar.Symbology
import Verif.Peg.Kids
/-!
# Tokens of the grammar `Symbology`

Generated by `tools/tokens.py`.
-/

namespace Verif.Peg.Symbology

variable {K : Str → Str → Prop} {ts : List (Tree Rule)}

@[kids_simp] theorem kids_header : Kids skip K header .nonAtomic ts ↔
    ∃ t, Tok skip K header .nonAtomic t ∧ ts = [t] := Iff.rfl

@[kids_simp] theorem kids_header' : Kids skip K header .compound ts ↔
    ∃ t, Tok skip K header .compound t ∧ ts = [t] := Iff.rfl

@[kids_simp] theorem kids_decimal : Kids skip K decimal .nonAtomic ts ↔
    ∃ t, Tok skip K decimal .nonAtomic t ∧ ts = [t] := Iff.rfl

@[kids_simp] theorem kids_decimal' : Kids skip K decimal .compound ts ↔
    ∃ t, Tok skip K decimal .compound t ∧ ts = [t] := Iff.rfl

@[kids_simp] theorem kids_integer : Kids skip K integer .nonAtomic ts ↔
    ∃ t, Tok skip K integer .nonAtomic t ∧ ts = [t] := Iff.rfl

@[kids_simp] theorem kids_integer' : Kids skip K integer .compound ts ↔
    ∃ t, Tok skip K integer .compound t ∧ ts = [t] := Iff.rfl

@[kids_simp] theorem kids_colon_delimited_text : Kids skip K colon_delimited_text .nonAtomic ts ↔
    ∃ t, Tok skip K colon_delimited_text .nonAtomic t ∧ ts = [t] := Iff.rfl

@[kids_simp] theorem kids_colon_delimited_text' : Kids skip K colon_delimited_text .compound ts ↔
    ∃ t, Tok skip K colon_delimited_text .compound t ∧ ts = [t] := Iff.rfl

@[kids_simp] theorem kids_line_style : Kids skip K line_style .nonAtomic ts ↔
    ∃ t, Tok skip K line_style .nonAtomic t ∧ ts = [t] := Iff.rfl

@[kids_simp] theorem kids_line_style' : Kids skip K line_style .compound ts ↔
    ∃ t, Tok skip K line_style .compound t ∧ ts = [t] := Iff.rfl

@[kids_simp] theorem kids_alignment : Kids skip K alignment .nonAtomic ts ↔
    ∃ t, Tok skip K alignment .nonAtomic t ∧ ts = [t] := Iff.rfl

@[kids_simp] theorem kids_alignment' : Kids skip K alignment .compound ts ↔
    ∃ t, Tok skip K alignment .compound t ∧ ts = [t] := Iff.rfl

@[kids_simp] theorem kids_item : Kids skip K item .nonAtomic ts ↔
    ∃ t, Tok skip K item .nonAtomic t ∧ ts = [t] := Iff.rfl

@[kids_simp] theorem kids_item' : Kids skip K item .compound ts ↔
    ∃ t, Tok skip K item .compound t ∧ ts = [t] := Iff.rfl

@[kids_simp] theorem kids_symbol_rule_point : Kids skip K symbol_rule_point .nonAtomic ts ↔
    ∃ t, Tok skip K symbol_rule_point .nonAtomic t ∧ ts = [t] := Iff.rfl

@[kids_simp] theorem kids_symbol_rule_point' : Kids skip K symbol_rule_point .compound ts ↔
    ∃ t, Tok skip K symbol_rule_point .compound t ∧ ts = [t] := Iff.rfl

@[kids_simp] theorem kids_moveto : Kids skip K moveto .nonAtomic ts ↔
    ∃ t, Tok skip K moveto .nonAtomic t ∧ ts = [t] := Iff.rfl

@[kids_simp] theorem kids_moveto' : Kids skip K moveto .compound ts ↔
    ∃ t, Tok skip K moveto .compound t ∧ ts = [t] := Iff.rfl

@[kids_simp] theorem kids_line : Kids skip K line .nonAtomic ts ↔
    ∃ t, Tok skip K line .nonAtomic t ∧ ts = [t] := Iff.rfl

@[kids_simp] theorem kids_line' : Kids skip K line .compound ts ↔
    ∃ t, Tok skip K line .compound t ∧ ts = [t] := Iff.rfl

@[kids_simp] theorem kids_fillarc : Kids skip K fillarc .nonAtomic ts ↔
    ∃ t, Tok skip K fillarc .nonAtomic t ∧ ts = [t] := Iff.rfl

@[kids_simp] theorem kids_fillarc' : Kids skip K fillarc .compound ts ↔
    ∃ t, Tok skip K fillarc .compound t ∧ ts = [t] := Iff.rfl

@[kids_simp] theorem kids_fillarc_ellipse : Kids skip K fillarc_ellipse .nonAtomic ts ↔
    ∃ t, Tok skip K fillarc_ellipse .nonAtomic t ∧ ts = [t] := Iff.rfl

@[kids_simp] theorem kids_fillarc_ellipse' : Kids skip K fillarc_ellipse .compound ts ↔
    ∃ t, Tok skip K fillarc_ellipse .compound t ∧ ts = [t] := Iff.rfl

@[kids_simp] theorem kids_arc : Kids skip K arc .nonAtomic ts ↔
    ∃ t, Tok skip K arc .nonAtomic t ∧ ts = [t] := Iff.rfl

@[kids_simp] theorem kids_arc' : Kids skip K arc .compound ts ↔
    ∃ t, Tok skip K arc .compound t ∧ ts = [t] := Iff.rfl

@[kids_simp] theorem kids_arc_ellipse : Kids skip K arc_ellipse .nonAtomic ts ↔
    ∃ t, Tok skip K arc_ellipse .nonAtomic t ∧ ts = [t] := Iff.rfl

@[kids_simp] theorem kids_arc_ellipse' : Kids skip K arc_ellipse .compound ts ↔
    ∃ t, Tok skip K arc_ellipse .compound t ∧ ts = [t] := Iff.rfl

@[kids_simp] theorem kids_ellipse : Kids skip K ellipse .nonAtomic ts ↔
    ∃ t, Tok skip K ellipse .nonAtomic t ∧ ts = [t] := Iff.rfl

@[kids_simp] theorem kids_ellipse' : Kids skip K ellipse .compound ts ↔
    ∃ t, Tok skip K ellipse .compound t ∧ ts = [t] := Iff.rfl

@[kids_simp] theorem kids_ellipse_circle : Kids skip K ellipse_circle .nonAtomic ts ↔
    ∃ t, Tok skip K ellipse_circle .nonAtomic t ∧ ts = [t] := Iff.rfl

@[kids_simp] theorem kids_ellipse_circle' : Kids skip K ellipse_circle .compound ts ↔
    ∃ t, Tok skip K ellipse_circle .compound t ∧ ts = [t] := Iff.rfl

@[kids_simp] theorem kids_polygon : Kids skip K polygon .nonAtomic ts ↔
    ∃ t, Tok skip K polygon .nonAtomic t ∧ ts = [t] := Iff.rfl

@[kids_simp] theorem kids_polygon' : Kids skip K polygon .compound ts ↔
    ∃ t, Tok skip K polygon .compound t ∧ ts = [t] := Iff.rfl

@[kids_simp] theorem kids_pixel : Kids skip K pixel .nonAtomic ts ↔
    ∃ t, Tok skip K pixel .nonAtomic t ∧ ts = [t] := Iff.rfl

@[kids_simp] theorem kids_pixel' : Kids skip K pixel .compound ts ↔
    ∃ t, Tok skip K pixel .compound t ∧ ts = [t] := Iff.rfl

@[kids_simp] theorem kids_fillrect : Kids skip K fillrect .nonAtomic ts ↔
    ∃ t, Tok skip K fillrect .nonAtomic t ∧ ts = [t] := Iff.rfl

@[kids_simp] theorem kids_fillrect' : Kids skip K fillrect .compound ts ↔
    ∃ t, Tok skip K fillrect .compound t ∧ ts = [t] := Iff.rfl

@[kids_simp] theorem kids_symbol : Kids skip K symbol .nonAtomic ts ↔
    ∃ t, Tok skip K symbol .nonAtomic t ∧ ts = [t] := Iff.rfl

@[kids_simp] theorem kids_symbol' : Kids skip K symbol .compound ts ↔
    ∃ t, Tok skip K symbol .compound t ∧ ts = [t] := Iff.rfl

@[kids_simp] theorem kids_clip_area : Kids skip K clip_area .nonAtomic ts ↔
    ∃ t, Tok skip K clip_area .nonAtomic t ∧ ts = [t] := Iff.rfl

@[kids_simp] theorem kids_clip_area' : Kids skip K clip_area .compound ts ↔
    ∃ t, Tok skip K clip_area .compound t ∧ ts = [t] := Iff.rfl

@[kids_simp] theorem kids_footer : Kids skip K footer .nonAtomic ts ↔
    ∃ t, Tok skip K footer .nonAtomic t ∧ ts = [t] := Iff.rfl

@[kids_simp] theorem kids_footer' : Kids skip K footer .compound ts ↔
    ∃ t, Tok skip K footer .compound t ∧ ts = [t] := Iff.rfl

@[kids_simp] theorem kids_symbology : Kids skip K symbology .nonAtomic ts ↔
    ∃ t, Tok skip K symbology .nonAtomic t ∧ ts = [t] := Iff.rfl

@[kids_simp] theorem kids_symbology' : Kids skip K symbology .compound ts ↔
    ∃ t, Tok skip K symbology .compound t ∧ ts = [t] := Iff.rfl

@[kids_simp] theorem kids_WHITESPACE : Kids skip K WHITESPACE .nonAtomic ts ↔ ts = [] := kids_mute_iff rfl

@[kids_simp] theorem kids_WHITESPACE' : Kids skip K WHITESPACE .compound ts ↔ ts = [] := kids_mute_iff rfl

@[kids_simp] theorem kids_NL : Kids skip K NL .nonAtomic ts ↔ ts = [] := kids_mute_iff rfl

@[kids_simp] theorem kids_NL' : Kids skip K NL .compound ts ↔ ts = [] := kids_mute_iff rfl

end Verif.Peg.Symbology
