import Verif.Proofs.TopskyEntry
import Verif.Proofs.SymbologyFile
/-!
# TopSky symbol and map files
-/

namespace Verif.Proofs.Topsky
open Verif.Peg Verif.Peg.Topsky Verif.Spec Verif.Spec.Topsky Verif.Dms
open Verif.Parse.Topsky
open Verif.Parse.SymbolRule (Close parseRule Kind)
open Verif.Proofs.SymbolRule (Names rulesE rule_out ArgsEnd IsDelim numStart)
open Verif.Proofs.Symbology (out_blk_seq)
open Verif.Spec.Drawing (Drawing)
open Verif.Parse.TopskySettings (parseU8 ColourDef)

set_option linter.unusedSectionVars false

variable {x y : Expr Rule} {n : Bool} {v t f r : Str} {U V : List Tr → Prop} {u u1 : List Tr} {C : Str → Prop}

/-! ## Blocks -/

/-- A keyword, a name, the end of the line and what follows. -/
theorem pb_block {q : Rule} {w name gap body : Str} (hw : visibleHead w = true) (h1 : IsName name) (h2 : NoTrail name)
    (hg : HeadEnds name gap) (hb : Blk skip K x body r u) (hr : Fresh (body ++ r)) :
    ∃ s, P (.rule q .normal ((.str w) ⬝ colon_delimited_text ⬝ NL ⬝ x)) (w ++ (name ++ (gap ++ body))) r [.node q s (text name :: u)] := by
  rcases hg with (⟨sp, c, t, rfl, g1, g2, g3⟩ | ⟨_, e⟩) | ⟨rfl, g1, g2⟩
  · obtain ⟨o, b⟩ := nameLines_NL g1 g2 g3 hr
    have h3 := pb_of_seg (r := sp ++ c :: t ++ (body ++ r)) (seg_name h1) (Or.inr ⟨h2, o⟩) (k_nil (starts_over o))
    have h4 := pb_seq (t2 := sp ++ c :: t ++ body) (by simpa using h3) (blk_seq (u1 := []) b hb)
    exact pb_rule (q := q) (pb_key (w := w) (fun _ => k_head hw) h4)
  · cases e
  · obtain ⟨cm, f', rfl, k, o, b⟩ := lines_NL g1 g2 hr
    have h3 := pb_of_seg (r := f' ++ (body ++ r)) (seg_name h1) (Or.inr ⟨h2, o⟩) (k_nil (starts_over o))
    have h4 := pb_seq (t2 := f' ++ body) (by simpa using h3) (blk_seq (u1 := []) b hb)
    have h5 : Blk skip K (.str w) (w ++ cm) (f' ++ (body ++ r)) [] := blk_gap ⟨rfl, rfl⟩ k
    have h6 := blk_seq (r := r) (t2 := [] ++ (f' ++ body)) (by simpa using h5) h4.1
    obtain ⟨s, hs⟩ := pb_rule (q := q) (t := w ++ ([] ++ (cm ++ f' ++ body))) ⟨by simpa using h6, by
      rw [List.append_assoc]
      exact k_head hw⟩
    exact ⟨s, by simpa using hs⟩

/-! ## Symbols -/

/-- The names of the drawing rules. -/
def drawNames : Names Rule where
  decimal := .decimal
  integer := .integer
  point := .symbol_rule_point
  name
    | .moveto => .moveto
    | .line => .line
    | .fillarc => .fillarc
    | .fillarcEllipse => .fillarc_ellipse
    | .arc => .arc
    | .arcEllipse => .arc_ellipse
    | .ellipse => .ellipse
    | .ellipseCircle => .ellipse_circle
    | .polygon => .polygon
    | .pixel => .pixel
    | .fillrect => .fillrect

theorem kind_name (k : Kind) : kind (drawNames.name k) = some k := by cases k <;> rfl

theorem symbolrule_eq : symbolrule = rulesE drawNames ⬝ (.opt NL) := rfl

theorem argsEnd_tail (h : EndTail r) : ArgsEnd r := by
  refine ⟨endTail_num r h, ?_⟩
  rintro d t rfl hd
  obtain ⟨cm, R, e, k, o⟩ := h
  have hsp : d = ' ' := by
    rcases hd with rfl | rfl
    · exact absurd (headNot_cons.1 (endTail_not (p := (· == ':')) (by decide) ⟨cm, R, e, k, o⟩)) (by decide)
    · rfl
  subst hsp
  have blank : ∀ a, isSpTab a = true → numStart a = false := fun a ha => by
    rcases blankChar_iff.1 ha with rfl | rfl <;> decide
  rcases (k_cases k).2 with rfl | ⟨⟨sp, w, body, rfl, h1, h2, h3⟩, _⟩
  · rw [List.nil_append] at e
    subst e
    refine endTail_not (by decide) (over_endTail ?_)
    rcases o with h | ⟨sp, c, t', e, h1, h2⟩
    · cases h
    · cases sp with
      | nil => obtain ⟨rfl, _⟩ := List.cons.inj e; exact absurd h2 (by decide)
      | cons a sp =>
        obtain ⟨rfl, rfl⟩ := List.cons.inj e
        exact Or.inr ⟨sp, c, t', rfl, fun d hd => h1 d (List.mem_cons_of_mem _ hd), h2⟩
  · cases sp with
    | nil => rcases mem_marks.1 h2 with rfl | rfl <;> cases e
    | cons a sp =>
      obtain ⟨rfl, rfl⟩ := List.cons.inj e
      cases sp with
      | nil => rcases mem_marks.1 h2 with rfl | rfl <;> exact headNot_cons.2 (by decide)
      | cons b sp => exact headNot_cons.2 (blank b (h1 b (by simp)))

theorem argsEnd_upper {c : Char} {t : Str} (h : isAsciiUpper c = true) : ArgsEnd (c :: t) := by
  have key : ∀ d : Char, isAsciiUpper d = true → d ≠ ':' ∧ d ≠ ' ' := by
    rintro d hd
    constructor <;> rintro rfl <;> exact absurd hd (by decide)
  refine ⟨headNot_cons.2 ?_, ?_⟩
  · have h2 : isAsciiDigit c = false ∧ (c == '.') = false := by
      have h1 : 65 ≤ c.toNat ∧ c.toNat ≤ 90 := by simpa [isAsciiUpper] using h
      refine ⟨?_, ?_⟩
      · cases hd : isAsciiDigit c with
        | false => rfl
        | true =>
          have : 48 ≤ c.toNat ∧ c.toNat ≤ 57 := by simpa [isAsciiDigit] using hd
          omega
      · rw [beq_eq_false_iff_ne]
        rintro rfl
        exact absurd h (by decide)
    simp [h2.1, h2.2]
  · rintro d u e hd
    cases e
    rcases hd with rfl | rfl
    · exact absurd rfl (key _ h).1
    · exact absurd rfl (key _ h).2

theorem argsEnd_nil : ArgsEnd [] := ⟨headNot_nil _, fun _ _ e => by cases e⟩

theorem drawing_upper {d : Drawing} {s : Str} (h : d.IsText s) : ∃ c t, s = c :: t ∧ isAsciiUpper c = true := by
  obtain ⟨_, t, _, rfl⟩ := h
  cases d <;> exact ⟨_, _, rfl, by decide⟩

section
variable {F : Type} [F64 F] [Close F] (num : Str → F) (hnum : ∀ s, IsDecimal s → F64.ofText s = some (num s))
include hnum

theorem drawing_head {d : Drawing} {s : Str} (h : d.IsText s) : visibleHead s = true := by
  obtain ⟨_, t, _, rfl⟩ := h
  cases d <;> rfl

theorem last_drawing {d : Drawing} {s : Str} (h : d.IsText s) : Last (rulesE drawNames) false s
    (fun ts => ∃ t, ts = [t] ∧ parseRule kind t = gated d.Fits (d.value num Close.close)) := fun cm R k o _ => by
  obtain ⟨u, ho, _, hu⟩ := rule_out good drawNames kind_name num hnum h (argsEnd_tail ⟨cm, R, rfl, k, o⟩)
  exact ⟨_, ⟨u, rfl, hu⟩, blk_gap ho k, by simpa using k_head (drawing_head num hnum h)⟩

/-- A drawing rule in front of `r`. -/
theorem blk_drawing {d : Drawing} {s f : Str} (h : d.IsText s) (hf : RuleEnds f r) (hr : Fresh r) (ha : ArgsEnd r) :
    ∃ t, Blk skip K symbolrule (s ++ f) r [t] ∧ parseRule kind t = gated d.Fits (d.value num Close.close) := by
  -- line ends and a last comment
  have key : ∀ l c : Str, f = l ++ c → AreLines l → K c r → (c ++ r).head? ≠ some '\n' → (l = [] → c = [] ∨ EndTail (c ++ r)) → 
      ∃ t, Blk skip K symbolrule (s ++ f) r [t] ∧ parseRule kind t = gated d.Fits (d.value num Close.close) := by
    rintro l c rfl hl hk hd hc
    by_cases e : l = []
    · subst e
      have he : ArgsEnd (c ++ r) := by
        rcases hc rfl with rfl | h
        · exact ha
        · exact argsEnd_tail h
      obtain ⟨u, ho, _, hu⟩ := rule_out good drawNames kind_name num hnum h he
      have b := blk_seq (r := r) (t2 := []) (blk_gap ho hk) (optNL_none hr)
      exact ⟨u, by simpa [symbolrule_eq] using b, hu⟩
    · obtain ⟨cm, f', e, k, o, b⟩ := lines_NL_tail hl e hr hk hd
      obtain ⟨u, ho, _, hu⟩ := rule_out good drawNames kind_name num hnum h (argsEnd_tail ⟨cm, f' ++ r, rfl, k, o⟩)
      have b := blk_seq (r := r) (t2 := f') (blk_gap ho k) (blk_opt_some b)
      rw [e]
      exact ⟨u, by simpa [symbolrule_eq] using b, hu⟩
  rcases hf with hf | ⟨rfl, l, c, rfl, hl, sp, rem, rfl, h1, h2, h3⟩
  · exact key f [] (by simp) hf (k_nil hr.1) (fresh_head_ne hr) fun _ => Or.inl rfl
  · rcases h2 with h2 | ⟨w, hw, t, rfl, ht⟩
    · exact absurd h2 h3
    · have hk : K (sp ++ (w ++ t)) [] := k_comment (comment_build (fun d hd => blankChar_iff.2 (h1 d hd)) hw
        (fun d hd => not_newline_iff.2 (ht d hd)) (Or.inr (Or.inl rfl)) (Or.inl rfl))
      refine key l _ rfl hl hk ?_ fun _ => Or.inr ⟨_, [], by simp, hk, Or.inl rfl⟩
      have he : EndTail (sp ++ (w ++ t) ++ []) := ⟨_, [], rfl, hk, Or.inl rfl⟩
      intro hn
      have := h1
      cases sp with
      | nil => rcases mem_marks.1 hw with rfl | rfl <;> cases hn
      | cons b sp =>
        cases hn
        exact absurd (h1 _ List.mem_cons_self) (by decide)

/-- The rules of a symbol in front of `r`. -/
theorem blk_rules {s : Symbol} (h : s.Valid r) (hf : Fails skip symbolrule .nonAtomic r) (hr : Fresh r) (ha : ArgsEnd r) :
    ∃ ts, Blk skip K (.plus symbolrule) (s.rules.flatMap fun x => x.2.1 ++ x.2.2) r ts ∧ Fresh ((s.rules.flatMap fun x => x.2.1 ++ x.2.2) ++ r) ∧
      ts.mapM (parseRule kind) = gated s.Fits (s.rules.map fun x => x.1.value num Close.close) := by
  obtain ⟨_, _, _, hl, hrow⟩ := h
  obtain ⟨h1, h2⟩ := reps_row (C := fun r => Fresh r ∧ ArgsEnd r) (Q := fun (x : Drawing × Str × Str) r => ∃ t, Blk skip K symbolrule (x.2.1 ++ x.2.2) r [t] ∧
    parseRule kind t = gated x.1.Fits (x.1.value num Close.close)) hrow (fun a _ r ⟨ha, he⟩ hr => by
      refine ⟨blk_drawing num hnum ha he hr.1 hr.2, ?_⟩
      rw [List.append_assoc]
      refine ⟨fresh_head (drawing_head num hnum ha) _, ?_⟩
      obtain ⟨c, t, e, hc⟩ := drawing_upper ha
      rw [e]
      exact argsEnd_upper hc) ⟨hr, ha⟩
  obtain ⟨ts, b, e⟩ := blk_plus_read good.exact (hu symbolrule rfl) knil hl h1 hf
  exact ⟨ts, b, h2.1, by rw [mapM_of_map e, mapM_gated]; rfl⟩

theorem pb_symbol {q : Rule} {w : Str} {s : Symbol} (hw : visibleHead w = true) (h : s.Valid r)
    (hf : Fails skip symbolrule .nonAtomic r) (hr : Fresh r) (ha : ArgsEnd r) (hq : q = .symbol ∨ q = .symboldef) :
    ∃ t, P (.rule q .normal ((.str w) ⬝ colon_delimited_text ⬝ NL ⬝ .plus symbolrule)) (w ++ s.text) r [t] ∧ t.asRule = q ∧
      parseSymbol t = gated s.Fits (some (s.value num Close.close)) := by
  obtain ⟨ts, b, hfr, e⟩ := blk_rules num hnum h hf hr ha
  obtain ⟨sp, hb⟩ := pb_block (q := q) hw h.1 h.2.1 h.2.2.1 b hfr
  refine ⟨_, hb, rfl, ?_⟩
  have : parseSymbol (.node q sp (text s.name :: ts)) = (ts.mapM (parseRule (F := F) kind)).bind fun rules => .ok (some { name := s.name, rules }) := by
    rcases hq with rfl | rfl <;> rfl
  rw [this, e]
  exact gated_ok rfl

end

/-! ## Definitions -/

def defKeys : List Str := [c!"MAP:", c!"SYMBOLDEF:", c!"COLORDEF:", c!"LINESTYLEDEF:", c!"SCTFILEPATH:", c!"OVERRIDE_SCT_MAP:"]

/-- A further definition or nothing follows. -/
def NextDef (r : Str) : Prop := r = [] ∨ ∃ w ∈ defKeys, w <+: r

theorem next_fresh (h : NextDef r) : Fresh r := by
  rcases h with rfl | ⟨w, hw, t, rfl⟩
  · exact fresh_nil
  · have : ∀ w ∈ defKeys, visibleHead w = true := by decide
    exact fresh_head (this w hw) t

theorem next_fails {e : Expr Rule} (h : NextDef r) (h0 : failsOn true e [] = true) (hk : defKeys.all (failsOn false e ·) = true) :
    Fails skip e .nonAtomic r := by
  rcases h with rfl | ⟨w, hw, t, rfl⟩
  · exact fails_nil h0
  · exact fails_on w (List.all_eq_true.1 hk w hw)

def defAlts : List (Expr Rule) := [Peg.Topsky.map, symboldef, colourdef, linestyledef, override_sct, sctfilepath]

theorem maps_eq : maps = .rule .maps .normal (.soi ⬝ (.opt NL) ⬝ (.plus (alts defAlts)) ⬝ (.eoi .EOI)) := rfl

theorem next_args (h : NextDef r) : ArgsEnd r := by
  rcases h with rfl | ⟨w, hw, t, rfl⟩
  · exact argsEnd_nil
  · simp only [defKeys, List.mem_cons, List.not_mem_nil, or_false] at hw
    rcases hw with rfl | rfl | rfl | rfl | rfl | rfl <;> exact argsEnd_upper (by decide)

/-- The settings of a map end where another definition starts. -/
theorem fails_setting (h : NextDef r) (ho : ¬ c!"OVERRIDE_SCT_MAP:" <+: r) : Fails skip map_setting .nonAtomic r := by
  have key : ∀ {r : Str}, HeadNot isSpTab r → startsComment r = false → Fails skip (alts settingAlts) .nonAtomic r →
      Fails skip map_setting .nonAtomic r := fun {r} h1 h2 h3 => by
    rw [map_setting_eq]
    exact fails_seq_right (t := []) good.uniform good.exact rfl rfl (hu _ rfl) (blk_blanks (by simp) h1 h2) (fails_seq_left h3)
  rcases h with rfl | ⟨w, hw, t, rfl⟩
  · exact key (headNot_nil _) rfl (fails_nil (by decide +kernel))
  · simp only [defKeys, List.mem_cons, List.not_mem_nil, or_false] at hw
    rcases hw with rfl | rfl | rfl | rfl | rfl | rfl
    · exact key (headNot_cons.2 (by decide)) rfl (fails_on c!"MAP:" (by decide +kernel))
    · exact key (headNot_cons.2 (by decide)) rfl (fails_on c!"SYMBOLDEF:" (by decide +kernel))
    · exact key (headNot_cons.2 (by decide)) rfl (fails_on c!"COLORDEF:" (by decide +kernel))
    · exact key (headNot_cons.2 (by decide)) rfl (fails_on c!"LINESTYLEDEF:" (by decide +kernel))
    · exact key (headNot_cons.2 (by decide)) rfl (fails_on c!"SCTFILEPATH:" (by decide +kernel))
    · exact absurd ⟨t, rfl⟩ ho

section
variable {F G : Type} [F64 F] [DmsArith F] [DecidableEq F] [F64 G] [Close F] (num : Str → F) (numG : Str → G) (upper : Str → Str)

/-- What a definition stands for. -/
def defValue : Def → Option (MapDefinition F G)
  | .map name _ entries => some (.map ⟨name, entries.filterMap fun e => e.body.value num numG upper⟩)
  | .symbol s => some (.symbol (s.value num Close.close))
  | .colour name r g b _ => some (.colour ⟨name, component r, component g, component b, 255⟩)
  | .lineStyle name brush hatch dashes _ => some (.lineStyle ⟨name, brush, hatch, dashes.map numG⟩)
  | .override folder name _ => some (.override ⟨folder, name⟩)
  | .sctFilePath _ _ => none

theorem read_u8 {s : Str} (h : IsInteger s) (ts : List Tr) :
    nextU8 (.node .integer s [] :: ts) = gated (FitsU8 s) (component s, ts) := by
  show (unwrap (parseU8 s)).bind (fun v => .ok (v, ts)) = _
  have : parseU8 s = if FitsU8 s then some (component s) else none := by
    unfold parseU8
    rw [parseUnsigned_integer h]
    by_cases hf : FitsU8 s
    · rw [if_pos (show s.head? ≠ some '-' ∧ intValue s < ((256 : Nat) : Int) from hf), if_pos hf]
      have : (intValue s).toNat < 256 := by have := hf.2; omega
      simp only [Option.bind_some, dif_pos this, component]
      congr 1
      exact Fin.ext (Nat.mod_eq_of_lt this).symm
    · rw [if_neg (show ¬ (s.head? ≠ some '-' ∧ intValue s < ((256 : Nat) : Int)) from hf), if_neg hf]
      rfl
  rw [this, unwrap_gated]
  exact gated_ok rfl

variable (hnum : ∀ s, IsDecimal s → F64.ofText s = some (num s)) (hnumG : ∀ s, IsDecimal s → F64.ofText s = some (numG s))
include hnum hnumG

theorem pb_map {name gap : Str} {entries : List Entry} (h : (Def.map name gap entries).Valid r) (hr : NextDef r) :
    ∃ t, P Peg.Topsky.map (Def.map name gap entries).text r [t] ∧
      parseDefinition upper t = gated (Def.map name gap entries).Fits (defValue (F := F) num numG upper (.map name gap entries)) := by
  obtain ⟨h1, h2, h3, hl, hrow, ho⟩ := h
  obtain ⟨h4, h5⟩ := reps_row (C := Fresh) (Q := fun (e : Entry) r => ∃ t, Blk skip K map_setting e.text r [t] ∧
    parseMapRule upper t = gated e.body.Fits (e.body.value num numG upper)) hrow
    (fun a _ r ha hr => blk_entry num numG upper hnum hnumG ha hr) (next_fresh hr)
  obtain ⟨ts, b, e⟩ := blk_plus_read good.exact (hu map_setting rfl) knil hl h4 (fails_setting hr ho)
  obtain ⟨s, hb⟩ := pb_block (q := .map) (w := c!"MAP:") (by decide) h1 h2 h3 b h5
  refine ⟨_, hb, ?_⟩
  show ((ts.mapM (parseMapRule upper)).bind fun rules => Except.ok (some ({ name, rules := rules.filterMap id } : MapDef F G))).bind _ = _
  rw [mapM_of_map e, mapM_gated, gated_ok (f := fun rules : List (Option (MapRule F G)) => Except.ok (some ({ name, rules := rules.filterMap id } : MapDef F G)))
    (w := some { name, rules := entries.filterMap fun e => e.body.value num numG upper })]
  · exact gated_ok rfl
  · simp [List.filterMap_map]

omit hnum hnumG in
theorem pb_colour {name red green blue : Str} (h : (Def.colour name red green blue f).Valid r) (hr : Fresh r) :
    ∃ t, P colourdef (Def.colour name red green blue f).text r [t] ∧
      parseDefinition upper t = gated (Def.colour name red green blue f).Fits (defValue (F := F) num numG upper (.colour name red green blue f)) := by
  obtain ⟨h1, h2, h3, h4, h5⟩ := h
  obtain ⟨_, rfl, b4⟩ := ends_line (n := false) (last_integer h4) ⟨by simp, fun _ => h5⟩ hr
  have b3 := pb_colon k_colon (seg_mono (seg_integer h3) colon_num) b4
  have b2 := pb_colon k_colon (seg_mono (seg_integer h2) colon_num) b3
  have b1 := pb_colon k_colon (seg_nameC h1) b2
  obtain ⟨s, b⟩ := pb_rule (q := .colourdef) (pb_key (w := c!"COLORDEF:") (fun _ => k_head (by decide)) b1)
  refine ⟨_, (congrArg (fun v => P colourdef v r _) ?_).mp b, ?_⟩
  · simp [Def.text]
  · show (parseColour (.node .colourdef s (text name :: Tree.node Rule.integer red [] :: Tree.node Rule.integer green [] :: [Tree.node Rule.integer blue []]))).bind _ = _
    have : parseColour (.node .colourdef s (text name :: Tree.node Rule.integer red [] :: Tree.node Rule.integer green [] :: [Tree.node Rule.integer blue []])) =
        gated (FitsU8 red ∧ FitsU8 green ∧ FitsU8 blue) (some ⟨name, component red, component green, component blue, 255⟩) := by
      show (nextU8 _).bind _ = _
      rw [read_u8 h2]
      refine gated_bind ?_
      show (nextU8 _).bind _ = _
      rw [read_u8 h3]
      refine gated_bind ?_
      show (nextU8 _).bind _ = _
      rw [read_u8 h4]
      exact gated_ok rfl
    rw [this]
    exact gated_ok rfl

theorem pb_style {name brush hatch : Str} {dashes : List Str} (h : (Def.lineStyle name brush hatch dashes f).Valid r) (hr : Fresh r) :
    ∃ t, P linestyledef (Def.lineStyle name brush hatch dashes f).text r [t] ∧
      parseDefinition upper t = .ok (defValue (F := F) num numG upper (.lineStyle name brush hatch dashes f)) := by
  obtain ⟨h1, h2, h3, h4, h5⟩ := h
  have wrap : ∀ {ds : Str} {u : List Tr}, P (colon_delimited_text ⬝ (.opt ((.str c!":") ⬝ (integer ⬝ (.star ((.str c!",") ⬝ integer))))) ⬝ (.opt NL)) ds r u →
      ∃ s, P linestyledef (c!"LINESTYLEDEF:" ++ (name ++ ':' :: (brush ++ ':' :: ds))) r [.node .linestyledef s (text name :: text brush :: u)] :=
    fun b3 => by
      obtain ⟨s, b⟩ := pb_rule (q := .linestyledef) (pb_key (w := c!"LINESTYLEDEF:") (fun _ => k_head (by decide))
        (pb_colon k_colon (seg_nameC h1) (pb_colon k_colon (seg_nameC h2) b3)))
      exact ⟨s, b⟩
  have read : ∀ s, parseDefinition (F := F) (G := G) upper (.node .linestyledef s (text name :: text brush :: text hatch :: dashes.map fun d => .node .integer d [])) =
      .ok (defValue (F := F) num numG upper (.lineStyle name brush hatch dashes f)) := by
    intro s
    show (((dashes.map fun d => Tree.node Rule.integer d []).mapM fun t => unwrap (F64.ofText t.asStr)).bind _).bind _ = _
    have : ((dashes.map fun d => Tree.node Rule.integer d []).mapM fun t => unwrap (F64.ofText t.asStr)) = Except.ok (dashes.map numG) := by
      clear h5
      induction dashes with
      | nil => rfl
      | cons d l ih =>
        rw [List.map_cons, List.mapM_cons, ih fun n hn => h4 n (List.mem_cons_of_mem _ hn)]
        show (unwrap (F64.ofText d)).bind _ = _
        rw [hnumG d (h4 d List.mem_cons_self).isDecimal]
        rfl
    rw [this]
    rfl
  cases dashes with
  | nil =>
    have h5 : EndsAs true (c!"LINESTYLEDEF:" ++ (name ++ ([':'] ++ (brush ++ ([':'] ++ hatch))))) f r := h5
    obtain ⟨_, rfl, b3⟩ := ends_then (y := (.opt ((.str c!":") ⬝ (integer ⬝ (.star ((.str c!",") ⬝ integer))))) ⬝ (.opt NL)) (last_name h3)
      (endsAs_suffix (endsAs_suffix (endsAs_suffix (endsAs_suffix (endsAs_suffix h5))))) hr
      fun f' o b => blk_seq (t1 := []) (u1 := []) (opt_over (by decide) o) b
    obtain ⟨s, b⟩ := wrap b3
    refine ⟨_, (congrArg (fun v => P linestyledef v r _) ?_).mp b, read s⟩
    simp [Def.text, lineStyleText]
  | cons d l =>
    have hd : ∀ v ∈ d :: l, S NumEnd integer (id v) [.node .integer v []] := fun v hv => seg_integer (h4 v hv)
    obtain ⟨_, rfl, b4⟩ := ends_line (n := false) (last_opt (last_key (w := c!":") (by decide) (last_joined (x := integer) (C0 := NumEnd) (txt := id)
      (tok := fun d => .node .integer d []) rfl (fun _ => headNot_cons.2 (by decide)) hd fun v hv => seg_mono (hd v hv) endTail_num)))
      ⟨by simp, h5.2⟩ hr
    have b3 := pb_seq (t2 := c!":" ++ joined ((d :: l).map id) ++ f)
      (pb_of_seg (r := c!":" ++ joined ((d :: l).map id) ++ f ++ r) (seg_nameC h3) ⟨_, rfl⟩ (k_colon _)) b4.1
    obtain ⟨s, b⟩ := wrap b3
    refine ⟨_, (congrArg (fun v => P linestyledef v r _) ?_).mp b, read s⟩
    simp [Def.text, lineStyleText]

theorem pb_def {d : Def} (h : d.Valid r) (hr : NextDef r) :
    (∃ t, Blk skip K (alts defAlts) d.text r [t] ∧ parseDefinition upper t = gated d.Fits (defValue (F := F) num numG upper d)) ∧
      NextDef (d.text ++ r) := by
  have hfr := next_fresh hr
  have next : ∀ {w : Str} (t : Str), w ∈ defKeys → NextDef (w ++ t) := fun {w} t hw => Or.inr ⟨w, hw, t, rfl⟩
  cases d with
  | map name gap entries =>
    obtain ⟨t, b, e⟩ := pb_map num numG upper hnum hnumG h hr
    exact ⟨⟨t, (pb_at (l := defAlts) 0 (w := []) rfl (by decide) ⟨_, rfl⟩ b).1, e⟩, next (w := c!"MAP:") _ (by decide)⟩
  | symbol s =>
    obtain ⟨t, b, hq, e⟩ := pb_symbol num hnum (q := .symboldef) (w := c!"SYMBOLDEF:") (by decide) h
      (next_fails hr (by decide +kernel) (by decide +kernel)) hfr (next_args hr) (Or.inr rfl)
    refine ⟨⟨t, (pb_at (l := defAlts) 1 (w := c!"SYMBOLDEF:") rfl (by decide +kernel) ⟨_, rfl⟩ b).1, ?_⟩, next (w := c!"SYMBOLDEF:") _ (by decide)⟩
    unfold parseDefinition
    rw [hq]
    show (parseSymbol t).bind _ = _
    rw [e]
    exact gated_ok rfl
  | colour name red green blue f =>
    obtain ⟨t, b, e⟩ := pb_colour (F := F) num numG upper h hfr
    exact ⟨⟨t, (pb_at (l := defAlts) 2 (w := c!"COLORDEF:") rfl (by decide +kernel) ⟨_, rfl⟩ b).1, e⟩, next (w := c!"COLORDEF:") _ (by decide)⟩
  | lineStyle name brush hatch dashes f =>
    obtain ⟨t, b, e⟩ := pb_style (F := F) num numG upper hnum hnumG h hfr
    have hw : ∃ w, (Def.lineStyle name brush hatch dashes f).text = c!"LINESTYLEDEF:" ++ w := by
      cases dashes <;> exact ⟨_, rfl⟩
    obtain ⟨w, hw⟩ := hw
    refine ⟨⟨t, (pb_at (l := defAlts) 3 (w := c!"LINESTYLEDEF:") rfl (by decide +kernel) ⟨w, hw.symm⟩ b).1, ?_⟩, ?_⟩
    · rw [e]; exact (gated_true trivial).symm
    · rw [hw, List.append_assoc]; exact next _ (by decide)
  | override folder name f =>
    obtain ⟨s, b⟩ := pb_override h.1 h.2 hfr
    refine ⟨⟨_, (pb_at (l := defAlts) 4 (w := c!"OVERRIDE_SCT_MAP:") rfl (by decide +kernel) ⟨_, rfl⟩ b).1, ?_⟩, next (w := c!"OVERRIDE_SCT_MAP:") _ (by decide)⟩
    cases name <;> rfl
  | sctFilePath p f =>
    obtain ⟨_, rfl, b1⟩ := ends_line (last_name h.1) h.2 hfr
    obtain ⟨s, b⟩ := pb_rule (q := .sctfilepath) (pb_key (w := c!"SCTFILEPATH:") (fun _ => k_head (by decide)) b1)
    exact ⟨⟨_, (pb_at (l := defAlts) 5 (w := c!"SCTFILEPATH:") rfl (by decide +kernel) ⟨_, rfl⟩ b).1, rfl⟩, next (w := c!"SCTFILEPATH:") _ (by decide)⟩

end

/-! ## Files -/

/-- Empty lines and comments at the start, then elements up to the end. -/
theorem run_lead {q : Rule} {lead body : Str} {ts : List Tr} (hp : plain x = true) (hw : wf x = true) (hl : AreLines lead)
    (b : Blk skip K x body [] ts) (hr : Fresh body) :
    run skip (.rule q .normal (.soi ⬝ (.opt NL) ⬝ x ⬝ (.eoi .EOI))) (lead ++ body) =
      .ok [.node q (lead ++ body) (ts ++ [Tree.node Rule.EOI [] []])] := by
  have oEoi : Out skip K (.eoi Rule.EOI) .nonAtomic [] [] [Tree.node Rule.EOI [] []] := ⟨rfl, rfl, rfl⟩
  have o1 : Out skip K (x ⬝ (.eoi .EOI)) .nonAtomic body [] (ts ++ [Tree.node Rule.EOI [] []]) := by
    simpa using out_blk_seq (s2 := []) b oEoi
  have key : ∃ m s, lead ++ body = m ++ s ∧ K m s ∧ Out skip K ((.opt NL) ⬝ x ⬝ (.eoi .EOI)) .nonAtomic s [] (ts ++ [Tree.node Rule.EOI [] []]) := by
    by_cases he : lead = []
    · subst he
      exact ⟨[], body, rfl, k_nil hr.1, out_blk_seq (t := []) (u1 := []) (optNL_none (by simpa using hr)) o1⟩
    · obtain ⟨cm, f', rfl, k, o, b2⟩ := lines_NL hl he hr
      exact ⟨cm, f' ++ body, by simp, k, out_blk_seq (u1 := []) (by simpa using blk_opt_some b2) o1⟩
  obtain ⟨m, s, e, k, o⟩ := key
  refine run_of_out good.uniform good.exact (by simp [plain, hp]; rfl) (by simp [wf, hw]; rfl) ⟨_, ?_, rfl⟩
  exact ⟨[], m, s, [], _, by rw [e]; rfl, by simpa using k, ⟨rfl, rfl⟩, o, rfl⟩

/-- Reading elements and the end of the file. -/
theorem mapM_file {A B : Type} {p : A → Prop} [DecidablePred p] {f : Tr → Run B} {val : A → B} {z : B} {ts : List Tr} {l : List A} {eoi : Tr}
    (h : ts.map f = l.map fun a => gated (p a) (val a)) (hz : f eoi = .ok z) :
    (ts ++ [eoi]).mapM f = gated (∀ a ∈ l, p a) (l.map val ++ [z]) := by
  rw [List.mapM_append, mapM_of_map h, mapM_gated]
  refine gated_ok ?_
  rw [List.mapM_cons, hz]
  rfl

section
variable {F : Type} [F64 F] [Close F] (num : Str → F) (hnum : ∀ s, IsDecimal s → F64.ofText s = some (num s))
include hnum

theorem parse_symbols {f : SymbolFile} (h : f.Valid) :
    parseSymbols f.text = gated f.Fits (Map.ofList (f.symbols.map fun s => (s.name, s.value num Close.close))) := by
  obtain ⟨h1, h2, h3⟩ := h
  obtain ⟨h4, h5⟩ := reps_row (C := fun r => r = [] ∨ c!"SYMBOL:" <+: r)
    (Q := fun (s : Spec.Topsky.Symbol) r => ∃ t, Blk skip K Peg.Topsky.symbol (c!"SYMBOL:" ++ s.text) r [t] ∧
      parseSymbol t = gated s.Fits (some (s.value num Close.close))) h3 (fun s _ r hs hr => by
      have hf : Fails skip symbolrule .nonAtomic r ∧ Fresh r ∧ ArgsEnd r := by
        rcases hr with rfl | ⟨t, rfl⟩
        · exact ⟨fails_nil (by decide +kernel), fresh_nil, argsEnd_nil⟩
        · exact ⟨fails_on c!"SYMBOL:" (by decide +kernel), fresh_head (by decide) _, argsEnd_upper (by decide)⟩
      obtain ⟨t, b, _, e⟩ := pb_symbol num hnum (q := .symbol) (w := c!"SYMBOL:") (by decide) hs hf.1 hf.2.1 hf.2.2 (Or.inl rfl)
      exact ⟨⟨t, b.1, e⟩, Or.inr ⟨_, by rw [← List.append_assoc]⟩⟩) (Or.inl rfl)
  obtain ⟨ts, b, e⟩ := blk_plus_read good.exact (hu Peg.Topsky.symbol rfl) knil h2 h4 (fails_nil (by decide +kernel))
  have hfr : Fresh (f.symbols.flatMap fun s => c!"SYMBOL:" ++ s.text) := by
    rw [List.append_nil] at h5
    rcases h5 with h | ⟨t, h⟩
    · rw [h]; exact fresh_nil
    · rw [← h]; exact fresh_head (by decide) _
  have hrun := run_lead (q := .symbols) rfl rfl h1 b hfr
  unfold parseSymbols
  rw [show run skip symbols f.text = _ from hrun]
  show ((ts ++ [Tree.node Rule.EOI [] []]).mapM parseSymbol).bind _ = _
  rw [mapM_file e (z := none) rfl]
  refine gated_ok ?_
  simp only [List.filterMap_append, List.filterMap_map]
  simp
  rfl

end

section
variable {F G : Type} [F64 F] [DmsArith F] [DecidableEq F] [F64 G] [Close F] (num : Str → F) (numG : Str → G) (upper : Str → Str)
  (hnum : ∀ s, IsDecimal s → F64.ofText s = some (num s)) (hnumG : ∀ s, IsDecimal s → F64.ofText s = some (numG s))
include hnum hnumG

theorem parse_maps {f : MapFile} (h : f.Valid) :
    parseMaps upper f.text = gated f.Fits ((f.defs.filterMap (defValue (F := F) (G := G) num numG upper)).foldl step ⟨[], [], [], [], []⟩) := by
  obtain ⟨h1, h2, h3⟩ := h
  obtain ⟨h4, h5⟩ := reps_row (C := NextDef)
    (Q := fun (d : Def) r => ∃ t, Blk skip K (alts defAlts) d.text r [t] ∧
      parseDefinition upper t = gated d.Fits (defValue (F := F) num numG upper d)) h3
    (fun d _ r hd hr => pb_def num numG upper hnum hnumG hd hr) (Or.inl rfl)
  obtain ⟨ts, b, e⟩ := blk_plus_read good.exact (hu (alts defAlts) rfl) knil h2 h4 (fails_nil (by decide +kernel))
  have hfr : Fresh (f.defs.flatMap Def.text) := by
    rw [List.append_nil] at h5
    exact next_fresh h5
  have hrun := run_lead (q := .maps) rfl rfl h1 b hfr
  unfold parseMaps
  rw [maps_eq, show run skip _ f.text = _ from hrun]
  show ((ts ++ [Tree.node Rule.EOI [] []]).mapM (parseDefinition upper)).bind _ = _
  rw [mapM_file e (z := none) rfl]
  refine gated_ok ?_
  simp only [List.filterMap_append, List.filterMap_map]
  simp

end

end Verif.Proofs.Topsky
