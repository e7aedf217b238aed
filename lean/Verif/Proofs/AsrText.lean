import Verif.Spec.Asr
import Verif.Peg.Build
import Verif.Peg.Solid
/-!
# Lemmas about .asr files: every file as specified is parsed
-/

namespace Verif.Parse.Asr
open Verif.Peg Verif.Peg.Asr Verif.Spec.Asr

/-- What the implicit skip of the grammar consumes. -/
abbrev K : Str → Str → Prop := Blank [COMMENT]

theorem skip_ok' : SkipOK K skip := skipOne_ok rfl
theorem skip_uniform : Uniform skip := uniform_skipOne rfl
theorem skip_exact' : SkipExact K skip := skipOne_exact rfl rfl

/-- Nothing is skipped in front of anything but a semicolon. -/
theorem k_nil {r : Str} (h : r.head? ≠ some ';') : K [] r := by
  refine ⟨⟨[], rfl, trivial⟩, ?_⟩
  intro x hx
  rw [List.mem_singleton.1 hx]
  have : Fails noSkip ((.str c!";") ⬝ (.star ((.not .newline) ⬝ .any)) ⬝ NL) .atomic r := by
    refine fails_seq_left (fails_str.2 ?_)
    rintro ⟨t, rfl⟩
    exact h rfl
  exact this

theorem k_knil : KNil K := by
  intro m r h
  exact ⟨⟨[], rfl, trivial⟩, h.2⟩

/-! ## Tokens -/

theorem isNewline_iff {c : Char} : isNewlineChar c = false ↔ c ≠ '\n' ∧ c ≠ '\r' := by
  simp [isNewlineChar]

theorem lineEnd_semi {r : Str} (h : AtLineEnd r) : r.head? ≠ some ';' := by
  intro e
  have := h ';' e
  revert this
  decide

theorem lineEnd_not {r : Str} {p : Char → Bool} (hp : p '\n' = false ∧ p '\r' = false) (h : AtLineEnd r) :
    HeadNot p r := by
  intro c hc
  have := h c hc
  simp only [isNewlineChar, Bool.not_eq_false', Bool.or_eq_true, decide_eq_true_eq] at this
  rcases this with rfl | rfl
  · exact hp.1
  · exact hp.2

/-- A value does not begin like a comment. -/
theorem value_semi {v r : Str} (h : IsValue v) (hr : r.head? ≠ some ';') : (v ++ r).head? ≠ some ';' := by
  cases v with
  | nil => simpa using hr
  | cons c v => simpa using h.1

theorem out_value {v r : Str} (h : IsValue v) (hr : AtLineEnd r) :
    Out skip K value .nonAtomic v r [.node .value v []] :=
  out_rule_atomic (out_line_text skip_ok' (by decide) (fun c hc => isNewline_iff.2 (h.2 c hc)) hr)

theorem fails_field {c : Char} {t : Str} (h1 : isNewlineChar c = false) (h2 : c ≠ ':') :
    Fails skip (NL ∥ (.str c!":")) .atomic (c :: t) := by
  refine (fails_alt_iff (uniform_eval skip_uniform NL rfl _)).2 ⟨fails_plus (fails_newline.2 (headNot_cons.2 h1)), ?_⟩
  refine fails_str.2 ?_
  simp only [List.cons_prefix_cons, List.nil_prefix, and_true]
  exact fun e => h2 e.symm

theorem out_field {v r : Str} (h : IsField v) :
    Out skip K multivalue .nonAtomic v (':' :: r) [.node .multivalue v []] := by
  refine out_rule_atomic (out_until_text (by decide) (fun p c q e => ?_) ?_)
  · exact fails_field (isNewline_iff.2 (h.1.2 c (by simp [e]))) (h.2 c (by simp [e]))
  · exact fails_until_ok (alt_ok_right skip_ok' rfl (str_ok (w := c!":") (r := r)))

theorem out_group {v r : Str} (h : ∀ c ∈ v, c ≠ '\\') :
    Out skip K multivalue_backslash .nonAtomic v ('\\' :: r) [.node .multivalue_backslash v []] := by
  refine out_rule_atomic (out_until_text (by decide) (fun p c q e => ?_) ?_)
  · refine fails_str.2 ?_
    simp only [List.cons_prefix_cons, List.nil_prefix, and_true]
    exact fun e' => h c (by simp [e]) e'.symm
  · exact fails_until_ok (str_ok (w := ['\\']) (r := r))

theorem isInt_split {s : Str} (h : IsInt s) : ∃ sg ds, s = sg ++ ds ∧ (sg = [] ∨ sg = ['-']) ∧ IsDigits ds := by
  rcases h with h | ⟨ds, rfl, h⟩
  · exact ⟨[], s, rfl, Or.inl rfl, h⟩
  · exact ⟨['-'], ds, rfl, Or.inr rfl, h⟩

theorem out_int {n r : Str} (h : IsInt n) (hr : AtLineEnd r) :
    Out skip K INTEGER .nonAtomic n r [.node .INTEGER n []] := by
  obtain ⟨sg, ds, rfl, h1, h2⟩ := isInt_split h
  exact out_rule_atomic (out_int_build (by decide) h1 h2 (lineEnd_not (by decide) hr))

theorem out_number {n r : Str} (h : IsNumber n) (hr : HeadNot (fun c => isAsciiDigit c || c == '.') r) :
    Out skip K DECIMAL .nonAtomic n r [.node .DECIMAL n []] := by
  obtain ⟨i, fs, rfl, h1, h2⟩ := h
  obtain ⟨sg, ds, rfl, h3, h4⟩ := isInt_split h1
  rw [List.append_assoc]
  exact out_rule_atomic (out_number_build (by decide) h3 h4 h2 hr)

theorem out_coord {n r : Str} (h : IsNumber n) (hr : HeadNot (fun c => isAsciiDigit c || c == '.') r) :
    Out skip K coord_part .nonAtomic n r [.node .coord_part n [.node .DECIMAL n []]] :=
  out_rule_normal (out_alt_left (out_number h hr))

theorem int_semi {n r : Str} (h : IsInt n) : (n ++ r).head? ≠ some ';' := by
  obtain ⟨sg, ds, rfl, rfl | rfl, h2⟩ := isInt_split h
  · obtain ⟨c, t, e, hc⟩ := digits_head (r := r) h2
    rw [List.nil_append, e]
    rintro e
    cases e
    exact absurd hc (by decide)
  · simp

theorem number_semi {n r : Str} (h : IsNumber n) : (n ++ r).head? ≠ some ';' := by
  obtain ⟨i, fs, rfl, h1, _⟩ := h
  rw [List.append_assoc]
  exact int_semi h1

theorem out_bool (b : Bool) {r : Str} :
    Out skip K BOOL .nonAtomic (if b then c!"1" else c!"0") r [.node .BOOL (if b then c!"1" else c!"0") []] := by
  refine out_rule_normal ?_
  cases b
  · exact out_alt_left out_str0
  · exact out_alt_right (fails_str.2 (by simp)) out_str0

theorem fails_letter {p : Str} {c d : Char} {t : Str} (h : c ≠ d) : Fails skip (.str (d :: p)) .atomic (c :: t) := by
  refine fails_str.2 ?_
  simp only [List.cons_prefix_cons]
  exact fun e => h e.1.symm

theorem out_desig {a r : Str} (h : IsRunway a) (hr : HeadNot (fun c => c!"LRCWG".contains c) r) :
    ∀ q, (q = Atom.nonAtomic ∨ q = .atomic) →
    Out skip K runway_desig q a r (if q = .atomic then [] else [.node .runway_desig a []]) := by
  obtain ⟨x, y, t, rfl, hx, hy, ht⟩ := h
  intro q hq
  have : Out skip K (((.cls isAsciiDigit) ⬝ (.cls isAsciiDigit)) ⬝ (.opt ((.str c!"L") ∥ (.str c!"R") ∥ (.str c!"C") ∥ (.str c!"W") ∥ (.str c!"G"))))
      .atomic ([x, y] ++ t) r [] := by
    refine (out_seq_atomic (by decide)).2 ⟨[x, y], t, [], [], rfl, rfl, ?_, ?_⟩
    · exact (out_seq_atomic (by decide)).2 ⟨[x], [y], [], [], rfl, rfl, ⟨x, rfl, hx, rfl⟩, ⟨y, rfl, hy, rfl⟩⟩
    · rcases ht with rfl | ⟨c, hc, rfl⟩
      · refine Or.inr ⟨rfl, rfl, ?_⟩
        have hd : ∀ d ∈ c!"LRCWG", Fails skip (.str [d]) .atomic r := by
          intro d hd
          refine ((likeCls_char (sk := skip) (K := K) d .atomic).fails r).2 ?_
          intro e he
          have := hr e he
          simp only [List.contains_eq_mem, decide_eq_false_iff_not] at this
          simp only [beq_eq_false_iff_ne]
          rintro rfl
          exact this hd
        refine (fails_alt_iff (uniform_eval skip_uniform _ rfl _)).2 ⟨hd 'L' (by simp), ?_⟩
        refine (fails_alt_iff (uniform_eval skip_uniform _ rfl _)).2 ⟨hd 'R' (by simp), ?_⟩
        refine (fails_alt_iff (uniform_eval skip_uniform _ rfl _)).2 ⟨hd 'C' (by simp), ?_⟩
        exact (fails_alt_iff (uniform_eval skip_uniform _ rfl _)).2 ⟨hd 'W' (by simp), hd 'G' (by simp)⟩
      · left
        simp only [List.mem_cons, List.not_mem_nil, or_false] at hc
        rcases hc with rfl | rfl | rfl | rfl | rfl
        · exact out_alt_left out_str0
        · exact out_alt_right (fails_letter (by decide)) (out_alt_left out_str0)
        · exact out_alt_right (fails_letter (by decide)) (out_alt_right (fails_letter (by decide)) (out_alt_left out_str0))
        · exact out_alt_right (fails_letter (by decide)) (out_alt_right (fails_letter (by decide)) (out_alt_right (fails_letter (by decide)) (out_alt_left out_str0)))
        · exact out_alt_right (fails_letter (by decide)) (out_alt_right (fails_letter (by decide)) (out_alt_right (fails_letter (by decide)) (out_alt_right (fails_letter (by decide)) out_str0)))
  rcases hq with rfl | rfl
  · exact ⟨[], this, rfl⟩
  · exact ⟨[], this, rfl⟩

/-- A blank that is not followed by two digits does not start a runway. -/
theorem fails_runway {c : Char} {t : Str}
    (h : ∀ a b q, c :: t = ' ' :: a :: b :: q → ¬ (isAsciiDigit a = true ∧ isAsciiDigit b = true)) :
    Fails skip ((.str c!" ") ⬝ runway_desig) .atomic (c :: t) := by
  refine fails_of_not_out skip_ok' rfl ?_
  intro s r ts e ho
  obtain ⟨s1, s2, t1, t2, rfl, rfl, ⟨rfl, rfl⟩, kids, h2, _⟩ := (out_seq_atomic (by decide)).1 ho
  obtain ⟨s3, s4, t3, t4, rfl, rfl, h3, _⟩ := (out_seq_atomic (by decide)).1 h2
  obtain ⟨s5, s6, t5, t6, rfl, rfl, ⟨a, rfl, ha, rfl⟩, ⟨b, rfl, hb, rfl⟩⟩ := (out_seq_atomic (by decide)).1 h3
  exact h a b (s4 ++ r) (by rw [e]; simp) ⟨ha, hb⟩

theorem out_airport {ap a r : Str} (h : NoRunwayIn ap) (ha : IsRunway a) (hr : HeadNot (fun c => c!"LRCWG".contains c) r) :
    Out skip K airport .nonAtomic ap (' ' :: (a ++ r)) [.node .airport ap []] := by
  refine out_rule_atomic (out_until_text (by decide) (fun p c q e => ?_) (fails_until_ok ?_))
  · refine fails_runway ?_
    rintro x y z e'
    simp only [List.cons.injEq] at e'
    obtain ⟨rfl, e'⟩ := e'
    cases q with
    | nil =>
      simp only [List.nil_append, List.cons.injEq] at e'
      rw [← e'.1]
      rintro ⟨h1, _⟩
      exact absurd h1 (by decide)
    | cons d q =>
      simp only [List.cons_append, List.cons.injEq] at e'
      obtain ⟨rfl, e'⟩ := e'
      cases q with
      | nil =>
        simp only [List.nil_append, List.cons.injEq] at e'
        rw [← e'.1]
        rintro ⟨_, h1⟩
        exact absurd h1 (by decide)
      | cons d' q =>
        simp only [List.cons_append, List.cons.injEq] at e'
        obtain ⟨rfl, e'⟩ := e'
        exact h p _ _ q e
  · have : Out skip K ((.str c!" ") ⬝ runway_desig) .atomic (c!" " ++ a) r ([] ++ []) :=
      (out_seq_atomic (by decide)).2 ⟨_, a, [], [], rfl, rfl, out_str0, by simpa using out_desig ha hr .atomic (Or.inr rfl)⟩
    have := out_eval skip_uniform skip_exact' ((.str c!" ") ⬝ runway_desig) rfl rfl _ _ _ _ ⟨0, c!" " ++ a ++ r, []⟩ this rfl
    exact ⟨0, [], _, _, by simpa using this⟩

/-! ## Lines -/

def Flag.rule : Flag → Rule
  | .disablePanning => .disable_panning
  | .disableZooming => .disable_zooming
  | .geoReferenced => .display_type_geo_referenced
  | .needRadarContent => .display_type_need_radar_content
  | .showLeader => .show_leader
  | .showC => .show_c
  | .showStandby => .show_standby
  | .turnLeader => .turn_leader

def IntKey.rule : IntKey → Rule
  | .above => .above
  | .below => .below
  | .historyDots => .history_dots
  | .leader => .leader
  | .simulationMode => .simulation_mode

def TextKey.rule : TextKey → Rule
  | .displayType => .display_type
  | .sectorFile => .sector_file
  | .sectorTitle => .sector_title
  | .tagFamily => .tag_family

def NameKey.rule : NameKey → Rule
  | .sid => .sids
  | .star => .stars
  | .geo => .geo
  | .region => .regions
  | .artcc => .artcc_boundary
  | .artccLow => .artcc_low_boundary
  | .artccHigh => .artcc_high_boundary

def fixRule : FixType → Rule
  | .name => .name
  | .symbol => .symbol

def navaidRule : NavaidType → Rule
  | .name => .name
  | .symbol => .symbol
  | .frequency => .frequency

def airwayRule : AirwayElement → Rule
  | .name => .name
  | .line => .line

def groundRule : GroundNetworkType → Rule
  | .exit => .exit
  | .taxiway => .taxiway
  | .terminalTaxiway => .terminal_taxiway

def runwayRule : RunwayPart → Rule
  | .centreline => .centerline
  | .name => .name
  | .extended _ => .ext_centerline

/-- The rule of a line. -/
def lineRule : Line → Rule
  | .flag k _ => Flag.rule k
  | .int k _ => IntKey.rule k
  | .text k _ => TextKey.rule k
  | .displayRotation _ => .display_rotation
  | .windowArea _ _ _ _ => .window_area
  | .plugin _ _ _ => .plugin
  | .named k _ => NameKey.rule k
  | .airport _ _ => .airports
  | .fix _ _ => .fixes
  | .ndb _ _ => .ndbs
  | .vor _ _ => .vors
  | .lowAirway _ _ => .low_airways
  | .highAirway _ _ => .high_airways
  | .ground _ _ => .ground_network
  | .freeText _ _ => .free_text
  | .runway _ _ _ _ => .runways

def coordTree (n : Str) : Tree Rule := .node .coord_part n [.node .DECIMAL n []]

/-- The tokens of the fields of a line. -/
def lineKids : Line → List (Tree Rule)
  | .flag _ b => [.node .BOOL (if b then c!"1" else c!"0") []]
  | .int _ n => [.node .INTEGER n []]
  | .text _ v => [.node .value v []]
  | .displayRotation x => [.node .DECIMAL x []]
  | .windowArea a b c d => [coordTree a, coordTree b, coordTree c, coordTree d]
  | .plugin p k v => [.node .multivalue p [], .node .multivalue k [], .node .value v []]
  | .named _ n => [.node .multivalue n []]
  | .airport n t => [.node .multivalue n [], .node (fixRule t) (fixText t) []]
  | .fix n t => [.node .multivalue n [], .node (fixRule t) (fixText t) []]
  | .ndb n t => [.node .multivalue n [], .node (navaidRule t) (navaidText t) []]
  | .vor n t => [.node .multivalue n [], .node (navaidRule t) (navaidText t) []]
  | .lowAirway n t => [.node .multivalue n [], .node (airwayRule t) (airwayText t) []]
  | .highAirway n t => [.node .multivalue n [], .node (airwayRule t) (airwayText t) []]
  | .ground n t => [.node .multivalue n [], .node (groundRule t) (groundText t) []]
  | .freeText g n => [.node .multivalue_backslash g [], .node .multivalue n []]
  | .runway ap a b t => [.node .airport ap [], .node .runway_desig a [], .node .runway_desig b [],
      .node (runwayRule t) t.text []]

def lineTree (w : Line) : Tree Rule := .node (lineRule w) w.toText (lineKids w)

/-- The alternatives of `setting`. -/
def table : List (Rule × Str × Expr Rule) :=
  [(.below, c!"BELOW:", INTEGER), (.disable_panning, c!"DISABLEPANNING:", BOOL),
   (.disable_zooming, c!"DISABLEZOOMING:", BOOL), (.display_rotation, c!"DisplayRotation:", DECIMAL),
   (.display_type, c!"DisplayTypeName:", value),
   (.display_type_geo_referenced, c!"DisplayTypeGeoReferenced:", BOOL),
   (.display_type_need_radar_content, c!"DisplayTypeNeedRadarContent:", BOOL),
   (.history_dots, c!"HISTORY_DOTS:", INTEGER), (.leader, c!"LEADER:", INTEGER),
   (.plugin, c!"PLUGIN:", multivalue ⬝ (.str c!":") ⬝ multivalue ⬝ (.str c!":") ⬝ value),
   (.sector_file, c!"SECTORFILE:", value), (.sector_title, c!"SECTORTITLE:", value),
   (.show_leader, c!"SHOWLEADER:", BOOL), (.show_c, c!"SHOWC:", BOOL), (.show_standby, c!"SHOWSB:", BOOL),
   (.simulation_mode, c!"SIMULATION_MODE:", INTEGER), (.tag_family, c!"TAGFAMILY:", value),
   (.turn_leader, c!"TURNLEADER:", BOOL),
   (.window_area, c!"WINDOWAREA:", coordinate ⬝ (.str c!":") ⬝ coordinate),
   (.free_text, c!"Free Text:", multivalue_backslash ⬝ (.str ['\\']) ⬝ multivalue ⬝ (.str c!":freetext")),
   (.airports, c!"Airports:", multivalue ⬝ (.str c!":") ⬝ fix_type),
   (.fixes, c!"Fixes:", multivalue ⬝ (.str c!":") ⬝ fix_type),
   (.ndbs, c!"NDBs:", multivalue ⬝ (.str c!":") ⬝ navaid_type),
   (.vors, c!"VORs:", multivalue ⬝ (.str c!":") ⬝ navaid_type),
   (.low_airways, c!"Low airways:", multivalue ⬝ (.str c!":") ⬝ airway_type),
   (.high_airways, c!"High airways:", multivalue ⬝ (.str c!":") ⬝ airway_type),
   (.sids, c!"Sids:", multivalue ⬝ (.str c!":")), (.stars, c!"Stars:", multivalue ⬝ (.str c!":")),
   (.geo, c!"Geo:", multivalue ⬝ (.str c!":")),
   (.ground_network, c!"Ground Network:", multivalue ⬝ (.str c!":") ⬝ ground_network_type),
   (.regions, c!"Regions:", multivalue ⬝ (.str c!":polygon")),
   (.artcc_boundary, c!"ARTCC boundary:", multivalue ⬝ (.str c!":")),
   (.artcc_low_boundary, c!"ARTCC low boundary:", multivalue ⬝ (.str c!":")),
   (.artcc_high_boundary, c!"ARTCC high boundary:", multivalue ⬝ (.str c!":")),
   (.runways, c!"Runways:", runway ⬝ (.str c!":") ⬝ runway_type)]

def element : Expr Rule := keyAlts (.above, c!"ABOVE:", INTEGER) table

theorem setting_eq : setting = element ⬝ (.opt NL) := rfl

theorem table_differ : ((.above, c!"ABOVE:", INTEGER) :: table).Pairwise Differ := by decide +kernel

theorem out_element {q : Rule} {w : Str} {y : Expr Rule} {s r : Str} {kids : List (Tree Rule)}
    (hm : (q, w, y) ∈ (.above, c!"ABOVE:", INTEGER) :: table) (hs : (s ++ r).head? ≠ some ';')
    (h : Out skip K y .nonAtomic s r kids) :
    Out skip K element .nonAtomic (w ++ s) r [.node q (w ++ s) kids] :=
  out_keyAlts (x := (q, w, y)) (k_nil hs) h _ _ table_differ hm

/-- Find an entry of the table. -/
macro "in_table" : tactic =>
  `(tactic| repeat first | exact List.mem_cons_self | apply List.mem_cons_of_mem)

theorem bool_semi {b : Bool} {r : Str} : ((if b then c!"1" else c!"0") ++ r).head? ≠ some ';' := by
  cases b <;> simp

theorem out_colon {y : Expr Rule} {v s r : Str} {ts : List (Tree Rule)} (hv : IsField v)
    (hs : (s ++ r).head? ≠ some ';') (h : Out skip K y .nonAtomic s r ts) :
    Out skip K (multivalue ⬝ (.str c!":") ⬝ y) .nonAtomic (v ++ (c!":" ++ s)) r (.node .multivalue v [] :: ts) :=
  out_seq0 (t1 := [.node .multivalue v []]) (k_nil (by simp)) (out_field hv) (out_key (k_nil hs) h)

theorem out_name {v r : Str} (hv : IsField v) (t : Str) :
    Out skip K (multivalue ⬝ (.str (':' :: t))) .nonAtomic (v ++ (':' :: t)) r [.node .multivalue v []] :=
  out_seq0 (s1 := v) (s2 := ':' :: t) (t2 := []) (k_nil (by simp)) (out_field hv) out_str0

theorem out_word {w : Str} {q : Rule} {r : Str} :
    Out skip K (.rule q .normal (.str w)) .nonAtomic w r [.node q w []] := out_rule_normal out_str0

theorem fails_word {w : Str} {q : Rule} {r : Str} (h : ¬ w <+: r) :
    Fails skip (.rule q .normal (.str w)) .nonAtomic r := fails_rule (fails_str.2 h)

theorem out_fixType (t : FixType) {r : Str} :
    Out skip K fix_type .nonAtomic (fixText t) r [.node (fixRule t) (fixText t) []] := by
  cases t
  · exact out_alt_right (fails_word (by simp [fixText])) out_word
  · exact out_alt_left out_word

theorem out_navaidType (t : NavaidType) {r : Str} :
    Out skip K navaid_type .nonAtomic (navaidText t) r [.node (navaidRule t) (navaidText t) []] := by
  cases t
  · exact out_alt_right (fails_word (by simp [navaidText])) (out_alt_left out_word)
  · exact out_alt_left out_word
  · exact out_alt_right (fails_word (by simp [navaidText])) (out_alt_right (fails_word (by simp [navaidText])) out_word)

theorem out_airwayType (t : AirwayElement) {r : Str} :
    Out skip K airway_type .nonAtomic (airwayText t) r [.node (airwayRule t) (airwayText t) []] := by
  cases t
  · exact out_alt_right (fails_word (by simp [airwayText])) out_word
  · exact out_alt_left out_word

theorem out_groundType (t : GroundNetworkType) {r : Str} :
    Out skip K ground_network_type .nonAtomic (groundText t) r [.node (groundRule t) (groundText t) []] := by
  cases t
  · exact out_alt_left out_word
  · exact out_alt_right (fails_word (by simp [groundText])) (out_alt_left out_word)
  · exact out_alt_right (fails_word (by simp [groundText])) (out_alt_right (fails_word (by simp [groundText])) out_word)

theorem lineEnd_prefix {r : Str} (hr : AtLineEnd r) {w : Str} (h : w <+: r)
    (hw : ∀ c ∈ w, isNewlineChar c = false) : w = [] := by
  cases w with
  | nil => rfl
  | cons c w =>
    obtain ⟨t, rfl⟩ := h
    have := hr c rfl
    simp [hw c List.mem_cons_self] at this

/-- One of several words, none of which is an earlier one continued. -/
theorem out_words {r : Str} (hr : AtLineEnd r) : ∀ (l : List Str) (w0 : Str),
    (∀ w ∈ w0 :: l, ∀ c ∈ w, isNewlineChar c = false) → (w0 :: l).Pairwise (fun a b => ¬ a <+: b) → ∀ w ∈ w0 :: l,
    Out skip K (l.foldr (fun b acc x => (.str x) ∥ acc b) (fun x => .str x) w0) .nonAtomic w r [] := by
  intro l
  induction l with
  | nil =>
    intro w0 _ _ w hw
    rw [List.mem_singleton.1 hw]
    exact out_str0
  | cons b l ih =>
    intro w0 hn hp w hw
    rw [List.pairwise_cons] at hp
    rcases List.mem_cons.1 hw with rfl | hw'
    · exact out_alt_left out_str0
    · clear hw
      have hw := hw'
      refine out_alt_right (fails_str.2 ?_) (ih b (fun v hv => hn v (List.mem_cons_of_mem _ hv)) hp.2 w hw)
      intro hpre
      rcases List.prefix_or_prefix_of_prefix hpre (List.prefix_append w r) with h | h
      · exact hp.1 w hw h
      · obtain ⟨t, rfl⟩ := h
        obtain ⟨u, hu⟩ := hpre
        rw [List.append_assoc] at hu
        have := List.append_cancel_left hu
        have ht := lineEnd_prefix hr ⟨u, this⟩ (fun c hc => hn (w ++ t) List.mem_cons_self c (by simp [hc]))
        subst ht
        exact hp.1 w hw (by simp)

theorem out_extended {e r : Str} (h : e ∈ extendedNames) (hr : AtLineEnd r) :
    Out skip K ext_centerline .nonAtomic e r [.node .ext_centerline e []] :=
  out_rule_normal (out_words hr _ _ (by decide) (by decide +kernel) e h)

theorem out_runwayType {t : RunwayPart} {r : Str} (h : ∀ e, t = .extended e → e ∈ extendedNames)
    (hr : AtLineEnd r) :
    Out skip K runway_type .nonAtomic t.text r [.node (runwayRule t) t.text []] := by
  cases t with
  | centreline => exact out_alt_left out_word
  | name => exact out_alt_right (fails_word (by simp [RunwayPart.text])) (out_alt_left out_word)
  | extended e =>
    have he := h e rfl
    have hw : ∃ t, e = 'e' :: t := by
      have : ∀ e ∈ extendedNames, e.head? = some 'e' := by decide
      have := this e he
      cases e with
      | nil => cases this
      | cons c t => cases this; exact ⟨t, rfl⟩
    refine out_alt_right (fails_word ?_) (out_alt_right (fails_word ?_) (out_extended he hr))
    · obtain ⟨t, rfl⟩ := hw; simp [RunwayPart.text]
    · obtain ⟨t, rfl⟩ := hw; simp [RunwayPart.text]

theorem runway_semi {a r : Str} (h : IsRunway a) : (a ++ r).head? ≠ some ';' := by
  obtain ⟨x, y, t, rfl, hx, _⟩ := h
  rintro e
  cases e
  exact absurd hx (by decide)

theorem runwayPart_semi {t : RunwayPart} (h : ∀ e, t = .extended e → e ∈ extendedNames) (r : Str) :
    (t.text ++ r).head? ≠ some ';' := by
  cases t with
  | centreline => simp [RunwayPart.text]
  | name => simp [RunwayPart.text]
  | extended e =>
    have : ∀ e ∈ extendedNames, e.head? = some 'e' := by decide
    have := this e (h e rfl)
    cases e with
    | nil => cases this
    | cons c t => cases this; simp [RunwayPart.text]

/-- Every line is parsed to its token. -/
theorem out_line {w : Line} (hv : w.Valid) {r : Str} (hr : AtLineEnd r) :
    Out skip K element .nonAtomic w.toText r [lineTree w] := by
  cases w with
  | flag k b =>
    cases k <;> exact out_element (by in_table) bool_semi (out_bool b)
  | int k n =>
    cases k <;> exact out_element (by in_table) (int_semi hv) (out_int hv hr)
  | text k v =>
    cases k <;> exact out_element (by in_table) (value_semi hv (lineEnd_semi hr)) (out_value hv hr)
  | displayRotation x =>
    exact out_element (by in_table) (number_semi hv) (out_number hv (lineEnd_not (by decide) hr))
  | windowArea a b c d =>
    obtain ⟨ha, hb, hc, hd⟩ := hv
    have hcol : ∀ t, HeadNot (fun c => isAsciiDigit c || c == '.') (':' :: t) := fun t => headNot_cons.2 (by decide)
    refine out_element (y := coordinate ⬝ (.str c!":") ⬝ coordinate) (by in_table) (by rw [List.append_assoc]; exact number_semi ha) ?_
    have h1 : Out skip K coordinate .nonAtomic (a ++ (c!":" ++ b)) (c!":" ++ (c ++ (c!":" ++ d)) ++ r) [coordTree a, coordTree b] :=
      out_seq0 (t1 := [_]) (k_nil (by simp)) (out_coord ha (hcol _)) (out_key (k_nil (number_semi hb)) (out_coord hb (hcol _)))
    have h2 : Out skip K coordinate .nonAtomic (c ++ (c!":" ++ d)) r [coordTree c, coordTree d] :=
      out_seq0 (t1 := [_]) (k_nil (by simp)) (out_coord hc (hcol _)) (out_key (k_nil (number_semi hd)) (out_coord hd (lineEnd_not (by decide) hr)))
    have h3 := out_seq0 (x := coordinate) (y := (.str c!":") ⬝ coordinate) (k_nil (by simp)) h1
      (out_key (k_nil (by rw [List.append_assoc]; exact number_semi hc)) h2)
    simpa [lineKids] using h3
  | plugin p k v =>
    obtain ⟨hp, hk, hv⟩ := hv
    have h1 := out_colon hk (value_semi hv (lineEnd_semi hr)) (out_value hv hr)
    have h2 := out_colon hp (by rw [List.append_assoc]; exact value_semi hk.1 (by simp)) h1
    exact out_element (by in_table) (by rw [List.append_assoc]; exact value_semi hp.1 (by simp)) h2
  | named k n =>
    have hs : ∀ t, (n ++ (':' :: t) ++ r).head? ≠ some ';' := fun t => by
      rw [List.append_assoc]; exact value_semi hv.1 (by simp)
    cases k <;> exact out_element (by in_table) (hs _) (out_name hv _)
  | airport n t =>
    exact out_element (by in_table) (by rw [List.append_assoc]; exact value_semi hv.1 (by simp))
      (out_colon hv (by cases t <;> simp [fixText]) (out_fixType t))
  | fix n t =>
    exact out_element (by in_table) (by rw [List.append_assoc]; exact value_semi hv.1 (by simp))
      (out_colon hv (by cases t <;> simp [fixText]) (out_fixType t))
  | ndb n t =>
    exact out_element (by in_table) (by rw [List.append_assoc]; exact value_semi hv.1 (by simp))
      (out_colon hv (by cases t <;> simp [navaidText]) (out_navaidType t))
  | vor n t =>
    exact out_element (by in_table) (by rw [List.append_assoc]; exact value_semi hv.1 (by simp))
      (out_colon hv (by cases t <;> simp [navaidText]) (out_navaidType t))
  | lowAirway n t =>
    exact out_element (by in_table) (by rw [List.append_assoc]; exact value_semi hv.1 (by simp))
      (out_colon hv (by cases t <;> simp [airwayText]) (out_airwayType t))
  | highAirway n t =>
    exact out_element (by in_table) (by rw [List.append_assoc]; exact value_semi hv.1 (by simp))
      (out_colon hv (by cases t <;> simp [airwayText]) (out_airwayType t))
  | ground n t =>
    exact out_element (by in_table) (by rw [List.append_assoc]; exact value_semi hv.1 (by simp))
      (out_colon hv (by cases t <;> simp [groundText]) (out_groundType t))
  | freeText g n =>
    obtain ⟨⟨h1, h2⟩, h3⟩ := hv
    refine out_element (y := multivalue_backslash ⬝ (.str ['\\']) ⬝ multivalue ⬝ (.str c!":freetext")) (by in_table) (by rw [List.append_assoc]; exact value_semi h1 (by simp)) ?_
    exact out_seq0 (s1 := g) (t1 := [_]) (k_nil (by simp)) (out_group h2)
      (out_key (k_nil (by rw [List.append_assoc]; exact value_semi h3.1 (by simp))) (out_name h3 c!"freetext"))
  | runway ap a b t =>
    obtain ⟨⟨h1, h2⟩, ha, hb, ht⟩ := hv
    refine out_element (y := runway ⬝ (.str c!":") ⬝ runway_type) (by in_table) (by rw [List.append_assoc]; exact value_semi h1 (by simp)) ?_
    have da : HeadNot (fun c => c!"LRCWG".contains c) (c!"-" ++ b ++ (c!":" ++ t.text ++ r)) := headNot_cons.2 (by decide)
    have db : HeadNot (fun c => c!"LRCWG".contains c) (c!":" ++ t.text ++ r) := headNot_cons.2 (by decide)
    have hrw : Out skip K runway .nonAtomic (ap ++ (c!" " ++ (a ++ (c!"-" ++ b)))) (c!":" ++ t.text ++ r)
        [.node .airport ap [], .node .runway_desig a [], .node .runway_desig b []] := by
      refine out_seq0 (t1 := [_]) (k_nil (by simp)) ?_ (out_key (k_nil (by rw [List.append_assoc]; exact runway_semi ha))
        (out_seq0 (t1 := [_]) (k_nil (by simp)) ?_ (out_key (k_nil (runway_semi hb)) ?_)))
      · simpa using out_airport h2 ha da
      · simpa using out_desig ha da .nonAtomic (Or.inl rfl)
      · simpa using out_desig hb db .nonAtomic (Or.inl rfl)
    have h3 := out_seq0 (x := runway) (y := (.str c!":") ⬝ runway_type) (k_nil (by simp)) hrw
      (out_key (k_nil (runwayPart_semi ht r)) (out_runwayType ht hr))
    simpa [lineKids] using h3

end Verif.Parse.Asr
