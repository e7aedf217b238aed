import Verif.Proofs.IcaoTable
import Verif.Proofs.Icao
import Verif.Proofs.EseTokens
/-!
# What the ICAO and navdata tables mean
-/

namespace Verif.Proofs.Icao
set_option linter.unusedSectionVars false
open Verif.Peg Verif.Peg.TabSkip Verif.Spec Verif.Spec.Icao
open Verif.Spec.Isec (IsComment IsBlank IsSpaces)

section Generic
variable {R : Type} {sk : St → Res R} {K : Str → Str → Prop} {pw : Char → Bool}

abbrev commentE : Expr R := .quiet (((.str c!";") ∥ (.str c!"//")) ⬝ (.star ((.not .newline) ⬝ .any)))

theorem fails_comment (hu : Uniform sk) {r : Str} (h : ¬ CommentStart commentMarks r) : Fails sk (commentE : Expr R) .nonAtomic r := by
  have : Fails sk (((.str c!";") ∥ (.str c!"//")) ⬝ (.star ((.not .newline) ⬝ .any)) : Expr R) .atomic r := by
    refine fails_seq_left ((fails_alt_iff (uniform_eval hu _ rfl _)).2 ⟨fails_str.2 fun hp => h ⟨_, ?_, hp⟩, fails_str.2 fun hp => h ⟨_, ?_, hp⟩⟩) <;>
      simp [commentMarks]
  exact this

abbrev isSpace (c : Char) : Bool := c == ' '

theorem apart_space : Apart isSpace commentMarks := by
  refine ⟨?_, ?_⟩
  · intro c hc
    simp only [isNewlineChar, Bool.or_eq_true, decide_eq_true_eq] at hc
    rcases hc with rfl | rfl <;> decide
  · intro w hw
    obtain ⟨c, t, rfl, h1, h2⟩ := apart_spTab.2 w hw
    refine ⟨c, t, rfl, ?_, h2⟩
    simp only [isSpTab, Bool.or_eq_false_iff] at h1
    exact h1.1

theorem marks_ok : ∀ w ∈ commentMarks, ∀ c, w.head? = some c → isSpTab c = false := by
  intro w hw c hc
  obtain ⟨d, t, rfl, h1, _⟩ := apart_spTab.2 w hw
  cases hc
  exact h1

theorem tabSkip_space {sk : St → Res R} {K : Str → Str → Prop} (ok : SkipOK K sk) (ex : SkipExact K sk)
    (un : Uniform sk) (hi : ∀ m r, K m r ↔ BlankText isSpace commentMarks m r) : TabSkip sk K isSpace commentMarks where
  ok := ok
  exact := ex
  uniform := un
  iff := hi
  apart := apart_space
  space := by decide
  sub := fun c hc => by
    have : c = ' ' := by simpa using hc
    subst this; decide
  marks := marks_ok

/-- A first character that is neither a blank nor part of a comment mark. -/
theorem starts_cons {c : Char} {s : Str} (h : TabSkip sk K pw commentMarks) (h1 : isSpTab c = false) (h2 : isNewlineChar c = false) (h3 : c ≠ ';')
    (h4 : c ≠ '/') : Starts pw (c :: s) := by
  refine ⟨⟨headNot_cons.2 ?_, ?_⟩, headNot_cons.2 h1, headNot_cons.2 h2⟩
  · cases hc : pw c with
    | false => rfl
    | true => rw [h.sub c hc] at h1; cases h1
  · rw [commentStart_iff]
    rintro (hp | hp) <;> rw [List.cons_prefix_cons] at hp
    · exact h3 hp.1.symm
    · exact h4 hp.1.symm

/-- Reading all tokens of a file. -/
theorem fold_each {D A : Type} {step : A → Tree R → Run A} {upd : A → D → A} {ds : List D} {trees : List (Tree R)}
    (h : Each (fun d t => ∀ a, step a t = .ok (upd a d)) ds trees) : ∀ a, trees.foldlM step a = .ok (ds.foldl upd a) := by
  induction h with
  | nil => intro a; rfl
  | cons h1 _ ih =>
    intro a
    rw [List.foldlM_cons, h1 a]
    exact ih _

theorem fold_snoc {A : Type} {step : A → Tree R → Run A} {trees : List (Tree R)} {e : Tree R} {a b : A}
    (h : trees.foldlM step a = .ok b) (he : step b e = .ok b) : (trees ++ [e]).foldlM step a = .ok b := by
  rw [List.foldlM_append, h, run_ok_bind, List.foldlM_cons, he, run_ok_bind]
  rfl

end Generic

/-! ## Airlines -/

namespace Airlines
open Verif.Peg.IcaoAirlines Verif.Parse.Icao

abbrev K : Str → Str → Prop := Blank [WHITESPACE, COMMENT]

theorem like_ws : LikeCls noSkip NoGap WHITESPACE .atomic isSpace := (likeCls_char ' ' .atomic).quiet

theorem tabSkip : TabSkip skip K isSpace commentMarks :=
  tabSkip_space (skipBoth_ok rfl rfl)
    (skipBoth_exact rfl rfl rfl rfl (disjoint_of like_ws likeComment_std apart_space rfl)) (uniform_skipBoth rfl rfl)
    (blank_iff like_ws likeComment_std apart_space)

abbrev item : Expr Rule := COMMENT ∥ definition

/-- What is stored for a definition. -/
def value (a : Spec.Icao.Airline) : Parse.Icao.Airline := ⟨a.designator, a.name, a.callsign, a.country⟩

def Good (a : Spec.Icao.Airline) (t : Tree Rule) : Prop := airlineFromPest t = some (.ok (value a))

theorem upper_starts {c : Char} {s : Str} (h : isAsciiUpper c = true) : Starts isSpace (c :: s) := by
  simp only [isAsciiUpper, Bool.and_eq_true, decide_eq_true_eq] at h
  refine starts_cons tabSkip ?_ ?_ ?_ ?_
  · simp only [isSpTab, Bool.or_eq_false_iff, beq_eq_false_iff_ne]
    constructor <;> rintro rfl <;> exact absurd h (by decide)
  · simp only [isNewlineChar, Bool.or_eq_false_iff, decide_eq_false_iff_not]
    constructor <;> rintro rfl <;> exact absurd h (by decide)
  · rintro rfl; exact absurd h (by decide)
  · rintro rfl; exact absurd h (by decide)

theorem out_designator {d r : Str} (h : d.length = 3 ∧ ∀ c ∈ d, isAsciiUpper c = true) :
    Out skip K designator .nonAtomic d r [.node .designator d []] := by
  obtain ⟨h1, h2⟩ := h
  match d, h1, h2 with
  | [x, y, z], _, h2 =>
    have o : ∀ (c : Char) (r : Str), isAsciiUpper c = true → Out skip K (.cls isAsciiUpper) .atomic [c] r [] := fun c r hc =>
      ((likeCls_cls (R := Rule) (sk := skip) (K := K) isAsciiUpper .atomic).out _ _ _).2 ⟨c, rfl, hc, rfl⟩
    refine ⟨[], ?_, rfl⟩
    refine ⟨[x], [], [y, z], [], [], rfl, rfl, o x _ (h2 x (by simp)), ?_, rfl⟩
    exact ⟨[y], [], [z], [], [], rfl, rfl, o y _ (h2 y (by simp)), o z _ (h2 z (by simp)), rfl⟩

/-- A definition, given how its last field is read. -/
theorem item_of {a : Spec.Icao.Airline} {d b1 n c k r : Str} (hd : a.designator = d) (h : d.length = 3 ∧ ∀ c ∈ d, isAsciiUpper c = true)
    (hb : Spaces b1) (hn : Inner a.name n) (hc : Inner a.callsign c)
    (hk : Blk skip K ((.str ['\t']) ⬝ fieldE Rule.country .tab_delimited_text ⬝ (.opt Base.NL)) ('\t' :: k) r [.node .country a.country []]) :
    ∃ t, Blk skip K item (d ++ b1 ++ ['\t'] ++ n ++ c ++ k) r [t] ∧ Good a t := by
  have h1 := tab_inner (q := Rule.callsign) (tq := .tab_delimited_text) tabSkip (by decide) hc hk
  have h2 := tab_inner (q := Rule.name) (tq := .tab_delimited_text) tabSkip (by decide) hn h1
  obtain ⟨s, h3⟩ := blk_rule (q := Rule.definition) (blk_seq
    (blk_gap (out_designator (d := d) h) (tabSkip.spaces (spaces_sp tabSkip hb) (tabSkip.tab_plain (by decide)))) h2)
  have e : d ++ b1 ++ ['\t'] ++ n ++ c ++ k = (d ++ b1) ++ ('\t' :: n ++ (c ++ k)) := by simp
  rw [e]
  refine ⟨_, blk_alt_right (y := definition) (fails_comment tabSkip.uniform ?_) h3, ?_⟩
  · match d, h with
    | x :: d', h => exact (upper_starts (h.2 x (by simp))).1.2
  · subst hd
    rfl

theorem items : Items skip K isSpace item (AirlineText Final) (AirlineText AtEnd) Good where
  line := by
    rintro d s c t fin r ⟨b0, b1, n, cs, k, rfl, h0, h1, h2, h3, h4, h5⟩ hc ht hk hb hr
    obtain ⟨tr, h6, h7⟩ := item_of (k := k ++ (c :: t ++ fin)) rfl h2 h1 h3 h4 (tab_final tabSkip h5 hc ht hk hb hr)
    refine ⟨b0, d.designator ++ b1 ++ ['\t'] ++ n ++ cs ++ k, tr, by simp, spaces_sp tabSkip h0, ?_, by simpa using h6, h7⟩
    intro r
    revert h2
    match d.designator with
    | [] => intro h; exact absurd h.1 (by decide)
    | x :: d' => intro h; simpa using upper_starts (h.2 x (by simp))
  last := by
    rintro d s ⟨b0, b1, n, cs, k, rfl, h0, h1, h2, h3, h4, h5⟩
    obtain ⟨tr, h6, h7⟩ := item_of (k := k) rfl h2 h1 h3 h4 (tab_end tabSkip h5)
    refine ⟨b0, d.designator ++ b1 ++ ['\t'] ++ n ++ cs ++ k, tr, by simp, spaces_sp tabSkip h0, ?_, by simpa using h6, h7⟩
    revert h2
    match d.designator with
    | [] => intro h; exact absurd h.1 (by decide)
    | x :: d' => intro h; simpa using upper_starts (h.2 x (by simp))

theorem fails_item_nil : Fails skip item .nonAtomic [] := by
  refine (fails_alt_iff (uniform_eval tabSkip.uniform _ rfl _)).2 ⟨fails_comment tabSkip.uniform ?_, ?_⟩
  · rintro ⟨w, hw, hp⟩
    simp only [commentMarks, List.mem_cons, List.not_mem_nil, or_false] at hw
    rcases hw with rfl | rfl <;> simp at hp
  · exact fails_rule (fails_seq_left (fails_rule (fails_seq_left (fails_cls.2 (headNot_nil _)))))

theorem from_trees {ds : List Spec.Icao.Airline} {trees : List (Tree Rule)} (h : Each Good ds trees) :
    airlinesFromPest (trees ++ [.node .EOI [] []]) = .ok (ds.map value, [.node .EOI [] []]) := by
  induction h with
  | nil => rfl
  | cons h1 _ ih =>
    rw [List.cons_append]
    unfold airlinesFromPest
    rw [show airlineFromPest _ = _ from h1]
    simp only [run_ok_bind, ih]
    rfl

theorem file {content : Str} {ds : List Spec.Icao.Airline} (hf : IsFile IsRest (AirlineText Final) (AirlineText AtEnd) content ds) (hne : ds ≠ []) :
    parseAirlines content = .ok (ds.foldl (fun m a => Map.insertIfNew m a.designator (value a)) []) := by
  obtain ⟨trees, o, hg⟩ := file_out (rep := .plus item) tabSkip items (fun _ => rest_gap tabSkip) hf Rule.airlines Rule.EOI (fun bs hbs hb =>
    blk_plus tabSkip.exact (uniform_eval tabSkip.uniform _ rfl _) tabSkip.knil (fun e => hne (hbs.1 e)) hb fails_item_nil)
  have hr := run_of_out tabSkip.uniform tabSkip.exact (by rfl) (by rfl) o
  unfold parseAirlines
  rw [show run skip airlines content = _ from hr, run_ok_bind]
  have : fromPest [Tree.node Rule.airlines content (trees ++ [Tree.node Rule.EOI [] []])] = .ok (ds.map value) := by
    show (do let (definitions, rest) ← airlinesFromPest (trees ++ [Tree.node Rule.EOI [] []]); _) = _
    rw [from_trees hg]
    rfl
  rw [this, run_ok_bind, List.foldl_map]
  rfl

end Airlines

/-! ## Designators -/

section Designators
variable [UnicodeTables] {R : Type} {sk : St → Res R} {K : Str → Str → Prop} {pw : Char → Bool}

abbrev des (c : Char) : Bool := UnicodeTables.letter c || isAsciiDigit c

theorem des_ascii {c : Char} (h : c.toNat < 128) : des c = (isAsciiUpper c || isAsciiLower c || isAsciiDigit c) := by
  rw [des, UnicodeTables.letter_ascii c h]

theorem des_not {c : Char} (h : c ∈ c!" \t\n\r;/") : des c = false := by
  simp only [List.mem_cons, List.not_mem_nil, or_false] at h
  rcases h with rfl | rfl | rfl | rfl | rfl | rfl <;> rw [des_ascii (by decide)] <;> decide

theorem starts_of_not {p : Char → Bool} (hp : ∀ c ∈ c!" \t\n\r;/", p c = false) (h : TabSkip sk K pw commentMarks) {c : Char} {s : Str} (hc : p c = true) :
    Starts pw (c :: s) := by
  have hn : ∀ d ∈ c!" \t\n\r;/", c ≠ d := by
    rintro d hd rfl
    rw [hp _ hd] at hc
    cases hc
  refine starts_cons h ?_ ?_ (hn _ (by decide)) (hn _ (by decide))
  · simp only [isSpTab, Bool.or_eq_false_iff, beq_eq_false_iff_ne]
    exact ⟨hn _ (by decide), hn _ (by decide)⟩
  · simp only [isNewlineChar, Bool.or_eq_false_iff, decide_eq_false_iff_not]
    exact ⟨hn _ (by decide), hn _ (by decide)⟩

theorem isDesignator_iff {s : Str} : IsDesignator s ↔ s ≠ [] ∧ ∀ c ∈ s, des c = true := by
  simp [IsDesignator, des]

theorem starts_designator (h : TabSkip sk K pw commentMarks) {s r : Str} (hs : IsDesignator s) : Starts pw (s ++ r) := by
  rw [isDesignator_iff] at hs
  cases s with
  | nil => exact absurd rfl hs.1
  | cons c s => exact starts_of_not (fun _ => des_not) h (hs.2 c (by simp))

theorem likeDes (hu : Uniform sk) (a : Atom) : LikeCls sk K ((.cls UnicodeTables.letter) ∥ (.cls isAsciiDigit) : Expr R) a des :=
  (likeCls_cls UnicodeTables.letter a).alt (likeCls_cls isAsciiDigit a) (uniform_eval hu _ rfl _)

theorem headNot_spaces {p : Char → Bool} (h1 : p ' ' = false) {b r : Str} (hb : Spaces b) (hr : HeadNot p r) : HeadNot p (b ++ r) := by
  cases b with
  | nil => exact hr
  | cons c b =>
    rw [hb c (by simp)]
    exact headNot_cons.2 h1

theorem headNot_isSpaces {p : Char → Bool} (h1 : p ' ' = false) (h2 : p '\t' = false) {b r : Str} (hb : IsSpaces b) (hr : HeadNot p r) : HeadNot p (b ++ r) := by
  cases b with
  | nil => exact hr
  | cons c b =>
    rcases hb c (by simp) with rfl | rfl
    · exact headNot_cons.2 h1
    · exact headNot_cons.2 h2

theorem out_designator_plus (hu : Uniform sk) {q : R} {d r : Str} (h : IsDesignator d) (hr : HeadNot des r) :
    Out sk K (.rule q .atomic (.plus ((.cls UnicodeTables.letter) ∥ (.cls isAsciiDigit)))) .nonAtomic d r [.node q d []] := by
  rw [isDesignator_iff] at h
  exact ⟨[], ((likeDes hu .atomic).plus (by decide)).2 ⟨h.1, h.2, hr, rfl⟩, rfl⟩

theorem not_comment_nil : ¬ CommentStart commentMarks [] := by
  rw [commentStart_iff]
  rintro (h | h) <;> simp at h

end Designators

/-! ## Airports -/

namespace Airports
open Verif.Peg.IcaoAirports Verif.Parse.Icao
variable [UnicodeTables]

abbrev K : Str → Str → Prop := Blank [WHITESPACE, COMMENT]

theorem like_ws : LikeCls noSkip NoGap WHITESPACE .atomic isSpace := (likeCls_char ' ' .atomic).quiet

theorem tabSkip : TabSkip skip K isSpace commentMarks :=
  tabSkip_space (skipBoth_ok rfl rfl)
    (skipBoth_exact rfl rfl rfl rfl (disjoint_of like_ws likeComment_std apart_space rfl)) (uniform_skipBoth rfl rfl)
    (blank_iff like_ws likeComment_std apart_space)

abbrev item : Expr Rule := COMMENT ∥ definition

/-- What is stored for a definition. -/
def value (a : Spec.Icao.Airport) : IcaoAirport := ⟨a.designator, a.name, a.country⟩

abbrev upd (m : Map Str IcaoAirport) (a : Spec.Icao.Airport) : Map Str IcaoAirport := Map.insertIfNew m a.designator (value a)

def Good (a : Spec.Icao.Airport) (t : Tree Rule) : Prop := ∀ m, stepAirport m t = .ok (upd m a)

theorem item_of {a : Spec.Icao.Airport} {b1 n k r : Str} (h : IsDesignator a.designator) (hb : Spaces b1) (hn : Inner a.name n)
    (hk : Blk skip K ((.str ['\t']) ⬝ fieldE Rule.country .tab_delimited_text ⬝ (.opt Base.NL)) ('\t' :: k) r [.node .country a.country []]) :
    ∃ t, Blk skip K item (a.designator ++ b1 ++ ['\t'] ++ n ++ k) r [t] ∧ Good a t := by
  have h2 := tab_inner (q := Rule.name) (tq := .tab_delimited_text) tabSkip (by decide) hn hk
  obtain ⟨s, h3⟩ := blk_rule (q := Rule.definition) (blk_seq
    (blk_gap (out_designator_plus (q := Rule.designator) tabSkip.uniform (d := a.designator) h
      (headNot_spaces (des_not (by decide)) hb (headNot_cons.2 (des_not (by decide)))))
      (tabSkip.spaces (spaces_sp tabSkip hb) (tabSkip.tab_plain (by decide)))) h2)
  have e : a.designator ++ b1 ++ ['\t'] ++ n ++ k = (a.designator ++ b1) ++ ('\t' :: n ++ k) := by simp
  rw [e]
  refine ⟨_, blk_alt_right (y := definition) (fails_comment tabSkip.uniform ?_) h3, ?_⟩
  · rw [List.append_assoc, List.append_assoc]
    exact (starts_designator tabSkip h).1.2
  · intro m
    rfl

theorem items : Items skip K isSpace item (AirportText Final) (AirportText AtEnd) Good where
  line := by
    rintro d s c t fin r ⟨b0, b1, n, k, rfl, h0, h1, h2, h3, h5⟩ hc ht hk hb hr
    obtain ⟨tr, h6, h7⟩ := item_of (k := k ++ (c :: t ++ fin)) h2 h1 h3 (tab_final tabSkip h5 hc ht hk hb hr)
    refine ⟨b0, d.designator ++ b1 ++ ['\t'] ++ n ++ k, tr, by simp, spaces_sp tabSkip h0, ?_, by simpa using h6, h7⟩
    intro r
    simpa using starts_designator (r := b1 ++ ['\t'] ++ n ++ k ++ c :: r) tabSkip h2
  last := by
    rintro d s ⟨b0, b1, n, k, rfl, h0, h1, h2, h3, h5⟩
    obtain ⟨tr, h6, h7⟩ := item_of (k := k) h2 h1 h3 (tab_end tabSkip h5)
    refine ⟨b0, d.designator ++ b1 ++ ['\t'] ++ n ++ k, tr, by simp, spaces_sp tabSkip h0, ?_, by simpa using h6, h7⟩
    simpa using starts_designator (r := b1 ++ ['\t'] ++ n ++ k) tabSkip h2

theorem fails_item_nil : Fails skip item .nonAtomic [] := by
  refine (fails_alt_iff (uniform_eval tabSkip.uniform _ rfl _)).2 ⟨fails_comment tabSkip.uniform not_comment_nil, ?_⟩
  exact fails_rule (fails_seq_left (fails_rule (fails_plus (((likeDes (K := K) tabSkip.uniform .atomic).fails _).2 (headNot_nil _)))))

theorem file {content : Str} {ds : List Spec.Icao.Airport} (hf : IsFile IsRest (AirportText Final) (AirportText AtEnd) content ds) (hne : ds ≠ []) :
    parseAirports content = .ok (ds.foldl upd []) := by
  obtain ⟨trees, o, hg⟩ := file_out (rep := .plus item) tabSkip items (fun _ => rest_gap tabSkip) hf Rule.aircraft Rule.EOI (fun bs hbs hb =>
    blk_plus tabSkip.exact (uniform_eval tabSkip.uniform _ rfl _) tabSkip.knil (fun e => hne (hbs.1 e)) hb fails_item_nil)
  have hr := run_of_out tabSkip.uniform tabSkip.exact (by rfl) (by rfl) o
  unfold parseAirports
  rw [show run skip aircraft content = _ from hr, run_ok_bind]
  show (trees ++ [Tree.node Rule.EOI [] []]).foldlM stepAirport [] = _
  exact fold_snoc (fold_each hg []) rfl

end Airports

/-! ## Airports of the navigation data -/

namespace Navdata
open Verif.Peg.NavdataAirports Verif.Parse.Icao
variable [UnicodeTables]

abbrev K : Str → Str → Prop := Blank [WHITESPACE, COMMENT]

theorem like_ws : LikeCls noSkip NoGap WHITESPACE .atomic isSpTab := (likeCls_spTab .atomic uniform_noSkip).quiet

theorem tabSkip : TabSkip skip K isSpTab commentMarks where
  ok := skipBoth_ok rfl rfl
  exact := skipBoth_exact rfl rfl rfl rfl (disjoint_of like_ws likeComment_std apart_spTab rfl)
  uniform := uniform_skipBoth rfl rfl
  iff := blank_iff like_ws likeComment_std apart_spTab
  apart := apart_spTab
  space := by decide
  sub := fun _ h => h
  marks := marks_ok

theorem blank_gap {b : Str} (hb : IsBlank b) : K b [] := by
  obtain ⟨sp, cm, rfl, h1, h2⟩ := hb
  exact tabSkip.gapEnd (isSpaces_spTab h1) (isComment_text.1 h2) lineEnd_nil

abbrev item : Expr Rule := COMMENT ∥ definition

variable {F : Type} [F64 F] (num : Str → F)

/-- What is stored for a definition. -/
def value (a : Spec.Icao.Navdata) : NavdataAirport F := ⟨a.designator, a.name, { x := num a.lng, y := num a.lat }⟩

abbrev upd (m : Map Str (NavdataAirport F)) (a : Spec.Icao.Navdata) : Map Str (NavdataAirport F) := Map.insertIfNew m a.designator (value num a)

def Good (a : Spec.Icao.Navdata) (t : Tree Rule) : Prop := ∀ m, stepNavdata m t = .ok (upd num m a)

theorem dec_not {c : Char} (h : c ∈ c!" \t\n\r;/") : (isAsciiDigit c || c!"+-.".contains c) = false := by
  simp only [List.mem_cons, List.not_mem_nil, or_false] at h
  rcases h with rfl | rfl | rfl | rfl | rfl | rfl <;> decide

theorem starts_decimal {s r : Str} (h : IsDecimal s) : Starts isSpTab (s ++ r) := by
  obtain ⟨c, t, rfl, hc⟩ := Ese.decimal_head h
  refine starts_of_not (p := fun c => isAsciiDigit c || c!"+-.".contains c) (fun _ => dec_not) tabSkip ?_
  rcases hc with hc | hc
  · simp [hc]
  · have : c!"+-.".contains c = true := List.contains_iff_mem.2 hc
    simp only [this, Bool.or_true]

/-- A number where it ends. -/
theorem out_decimal {s r : Str} (h : IsDecimal s) (hr : Stops s r) : Out skip K decimal .nonAtomic s r [.node .decimal s []] := by
  refine ⟨[], ?_, rfl⟩
  show Out skip K (Base.decimal : Expr Rule) .atomic s r []
  have ha : Atom.atomic ≠ .nonAtomic := by decide
  obtain ⟨sg, ds, fs, rfl, h1, h2, h3⟩ := h
  have hr1 : HeadNot isAsciiDigit r := hr.1
  have hd : ∀ x, HeadNot isAsciiDigit x → Out skip K (.star (.cls isAsciiDigit) : Expr Rule) .atomic ds x [] := fun x hx =>
    ((likeCls_cls isAsciiDigit .atomic).star ha).2 ⟨h2, hx, rfl⟩
  refine (out_seq_atomic ha).2 ⟨sg, ds ++ fs, [], [], by simp, rfl, out_sign_build tabSkip.uniform h1 ?_, ?_⟩
  · cases ds with
    | cons c t =>
      have := digits_no_sign (r := fs ++ r) (s := c :: t) ⟨by simp, h2⟩
      simpa using this
    | nil =>
      rcases h3 with ⟨_, h⟩ | ⟨d, rfl, _⟩
      · exact absurd rfl h
      · simp
  · rcases h3 with ⟨rfl, h⟩ | ⟨d, rfl, h⟩
    · rw [List.append_nil]
      refine Or.inr ⟨out_digits_build ha ⟨h, h2⟩ hr1, ?_⟩
      have hdot : '.' ∉ sg ++ ds ++ [] := by
        intro hm
        simp only [List.append_nil, List.mem_append] at hm
        rcases hm with hm | hm
        · rcases h1 with rfl | rfl | rfl <;> simp at hm
        · exact absurd (h2 _ hm) (by decide)
      refine fails_of_not_out tabSkip.ok (by rfl) ?_
      intro u r' ts e ho
      obtain ⟨s1, s2, t1, t2, rfl, rfl, o1, o2⟩ := (out_seq_atomic ha).1 ho
      obtain ⟨s3, s4, t3, t4, rfl, rfl, ⟨rfl, rfl⟩, o4⟩ := (out_seq_atomic ha).1 o2
      obtain ⟨h4, h5, _⟩ := ((likeCls_cls isAsciiDigit .atomic).plus ha).1 o4
      have no : r = '.' :: (s4 ++ r') → False := by
        intro e
        cases s4 with
        | nil => exact h4 rfl
        | cons c s4 =>
          have := hr.2 hdot c (s4 ++ r') e
          rw [h5 c (by simp)] at this
          cases this
      have hs1 := (((likeCls_cls isAsciiDigit .atomic).star ha).1 o1).1
      have e : ds ++ r = s1 ++ '.' :: (s4 ++ r') := by simpa using e
      rcases List.append_eq_append_iff.1 e with ⟨x, rfl, hx⟩ | ⟨x, rfl, hx⟩
      · cases x with
        | nil => exact no hx
        | cons c x =>
          have := hr1 c (by rw [hx]; rfl)
          rw [hs1 c (by simp)] at this
          cases this
      · cases x with
        | nil => exact no hx.symm
        | cons c x =>
          have hc : '.' = c := (List.cons.inj hx).1
          have := h2 c (by simp)
          rw [← hc] at this
          exact absurd this (by decide)
    · refine Or.inl ((out_seq_atomic ha).2 ⟨ds, '.' :: d, [], [], rfl, rfl, hd _ (headNot_cons.2 (by decide)), ?_⟩)
      exact (out_seq_atomic ha).2 ⟨['.'], d, [], [], rfl, rfl, out_str0, out_digits_build ha h hr1⟩

/-- Only the next part matters for the end of a number. -/
theorem stops_append {s b v r : Str} (hb : IsSpaces b) (h : Stops s (b ++ v)) (hv : v ≠ []) (hr : v = ['.'] → HeadNot isAsciiDigit r) : Stops s (b ++ v ++ r) := by
  cases b with
  | cons c b =>
    refine ⟨fun d hd => ?_, fun _ d t e => ?_⟩
    · exact h.1 d hd
    · rcases hb c (by simp) with rfl | rfl <;> exact absurd (List.cons.inj e).1 (by decide)
  | nil =>
    match v, hv with
    | [c], _ =>
      refine ⟨h.1, fun _ d t e => ?_⟩
      obtain ⟨e1, e2⟩ := List.cons.inj e
      subst e1
      exact hr rfl d (by rw [show r = d :: t from e2]; rfl)
    | c :: x :: v, _ =>
      refine ⟨h.1, fun hn d t e => ?_⟩
      obtain ⟨e1, e2⟩ := List.cons.inj e
      obtain ⟨e2, _⟩ := List.cons.inj e2
      exact h.2 hn d v (by rw [← e1, ← e2]; rfl)

theorem apart_digit : Apart isAsciiDigit ([] : List Str) := by
  refine ⟨?_, by simp⟩
  intro c hc
  simp only [isNewlineChar, Bool.or_eq_true, decide_eq_true_eq] at hc
  rcases hc with rfl | rfl <;> decide

theorem decimal_ne {s : Str} (h : IsDecimal s) : s ≠ [] ∧ s ≠ ['.'] := by
  obtain ⟨sg, ds, fs, rfl, h1, h2, h3⟩ := h
  rcases h3 with ⟨rfl, hne⟩ | ⟨d, rfl, hd, hd2⟩
  · refine ⟨by simp [hne], ?_⟩
    intro e
    cases ds with
    | nil => exact hne rfl
    | cons c ds =>
      have : c = '.' := by
        have hm : c ∈ sg ++ (c :: ds) ++ [] := by simp
        rw [e] at hm
        simpa using hm
      subst this
      exact absurd (h2 '.' (by simp)) (by decide)
  · refine ⟨by simp, ?_⟩
    intro e
    cases d with
    | nil => exact hd rfl
    | cons c d =>
      have : c = '.' := by
        have hm : c ∈ sg ++ ds ++ '.' :: (c :: d) := by simp
        rw [e] at hm
        simpa using hm
      subst this
      exact absurd (hd2 '.' (by simp)) (by decide)

theorem des_end {b v r : Str} (hb : IsSpaces b) (hv : IsDecimal v) (h : b = [] → ∀ c, v.head? = some c → isAsciiDigit c = false) : HeadNot des (b ++ v ++ r) := by
  cases b with
  | cons c b =>
    rcases hb c (by simp) with rfl | rfl
    · exact headNot_cons.2 (des_not (by decide))
    · exact headNot_cons.2 (des_not (by decide))
  | nil =>
    obtain ⟨c, t, rfl, hc⟩ := Ese.decimal_head hv
    refine headNot_cons.2 ?_
    have h1 := h rfl c rfl
    rcases hc with hc | hc
    · rw [hc] at h1; cases h1
    · simp only [List.mem_cons, List.not_mem_nil, or_false] at hc
      rcases hc with rfl | rfl | rfl <;> rw [des_ascii (by decide)] <;> decide

theorem out_name {v r : Str} (hne : v ≠ []) (hv : ∀ c ∈ v, ¬ IsNewline c) (hr : AtLineEnd r) : Out skip K name .nonAtomic v r [.node .name v []] :=
  ⟨[], ((likeCls_notNewline (by decide)).plus (by decide)).2 ⟨hne, fun c hc => by
    have := hv c hc
    simpa [isNewlineChar, IsNewline] using this, hr, rfl⟩, rfl⟩

/-- The name does not start with a blank or a comment. -/
theorem plain_name {v r : Str} (hne : v ≠ []) (hb : ∀ c, v.head? = some c → ¬ IsBlankChar c) (hc : ¬ StartsComment v) (hr : AtLineEnd r) :
    Plain isSpTab commentMarks (v ++ r) := by
  cases v with
  | nil => exact absurd rfl hne
  | cons c v =>
    refine ⟨headNot_cons.2 ?_, ?_⟩
    · have := hb c rfl
      simp only [IsBlankChar, not_or] at this
      simp [isSpTab, this.1, this.2]
    · rw [commentStart_iff]
      rintro (hp | hp)
      · refine hc (Or.inl ?_)
        simpa using hp
      · cases v with
        | nil =>
          rw [List.singleton_append, List.cons_prefix_cons] at hp
          obtain ⟨_, t, rfl⟩ := hp
          exact absurd (headNot_cons.1 hr) (by decide)
        | cons d v =>
          refine hc (Or.inr ?_)
          simpa [List.cons_prefix_cons] using hp

variable (hnum : ∀ s, IsDecimal s → F64.ofText s = some (num s))
include hnum

theorem item_of {a : Spec.Icao.Navdata} {b1 b2 b3 k r : Str} (h1 : IsSpaces b1)
    (n1 : b1 = [] → ∀ c, a.lat.head? = some c → isAsciiDigit c = false) (h2 : IsSpaces b2) (n2 : Stops a.lat (b2 ++ a.lng))
    (h3 : IsSpaces b3) (n3 : Stops a.lng (b3 ++ a.name)) (hne : a.name ≠ []) (hl : AtLineEnd (k ++ r)) (hd : IsDesignator a.designator) (hx : IsDecimal a.lat) (hy : IsDecimal a.lng) (hp : Plain isSpTab commentMarks (a.name ++ k ++ r))
    (hk : Blk skip K (name ⬝ (.opt Base.NL)) (a.name ++ k) r [.node .name a.name []]) :
    ∃ t, Blk skip K item (a.designator ++ b1 ++ a.lat ++ b2 ++ a.lng ++ b3 ++ a.name ++ k) r [t] ∧ Good num a t := by
  have s1 := blk_seq (u1 := [.node .decimal a.lng []]) (blk_gap (out_decimal hy (by
    have := stops_append (r := k ++ r) h3 n3 hne (fun _ => (atLineEnd_not apart_digit hl).1)
    simpa using this)) (tabSkip.spaces (isSpaces_spTab h3) hp)) hk
  have s2 := blk_seq (u1 := [.node .decimal a.lat []]) (blk_gap (out_decimal hx (by
    have := stops_append (r := b3 ++ a.name ++ k ++ r) h2 n2 (decimal_ne hy).1 (fun e => absurd e (decimal_ne hy).2)
    simpa using this)) (tabSkip.spaces (isSpaces_spTab h2) (by
    rw [List.append_assoc, List.append_assoc]; exact (starts_decimal hy).1))) s1
  obtain ⟨s, s3⟩ := blk_rule (q := Rule.definition) (blk_seq (u1 := [.node .designator a.designator []])
    (blk_gap (out_designator_plus (q := Rule.designator) tabSkip.uniform hd (by
      have := des_end (r := b2 ++ a.lng ++ b3 ++ a.name ++ k ++ r) h1 hx n1
      simpa using this))
      (tabSkip.spaces (isSpaces_spTab h1) (by rw [List.append_assoc, List.append_assoc]; exact (starts_decimal hx).1))) s2)
  have e : a.designator ++ b1 ++ a.lat ++ b2 ++ a.lng ++ b3 ++ a.name ++ k = (a.designator ++ b1) ++ ((a.lat ++ b2) ++ ((a.lng ++ b3) ++ (a.name ++ k))) := by simp
  rw [e]
  refine ⟨_, blk_alt_right (y := definition) (fails_comment tabSkip.uniform ?_) s3, ?_⟩
  · rw [List.append_assoc, List.append_assoc]
    exact (starts_designator tabSkip hd).1.2
  · intro m
    have e1 : unwrap (F64.ofText (F := F) a.lat) = .ok (num a.lat) := by rw [hnum _ hx]; rfl
    have e2 : unwrap (F64.ofText (F := F) a.lng) = .ok (num a.lng) := by rw [hnum _ hy]; rfl
    simp only [stepNavdata, Tree.asRule, Tree.inner, Tree.asStr, List.cons_append, List.nil_append, next, run_ok_bind, if_true, e1, e2]
    rfl

theorem items : Items skip K isSpTab item NavdataText NavdataText (Good num) where
  line := by
    rintro d s c t fin r ⟨b0, b1, b2, b3, rfl, h0, h1, n1, h2, n2, h3, n3, hd, hx, hy, v1, v2, v3, v4⟩ hc ht hk hb hr
    have hl : AtLineEnd (c :: t ++ fin ++ r) := headNot_cons.2 (by rcases hc with rfl | rfl <;> decide)
    obtain ⟨m, u, e, k, hu, _⟩ := blk_lines (R := Rule) tabSkip (Lns.cons [] [] c t (by simp) (Or.inl rfl) hc ht) (by simp) hk hb hr
    have e : c :: t ++ fin = m ++ u := e
    have hn : Blk skip K (name ⬝ (.opt Base.NL)) (d.name ++ (c :: t ++ fin)) r [.node .name d.name []] := by
      rw [e, ← List.append_assoc]
      refine blk_seq (u1 := [.node .name d.name []]) (blk_gap (out_name v1 v2 ?_) k) (blk_opt_some hu)
      rw [← List.append_assoc, ← e]
      exact hl
    obtain ⟨tr, h6, h7⟩ := item_of num hnum h1 n1 h2 n2 h3 n3 v1 hl hd hx hy (by rw [List.append_assoc]; exact plain_name v1 v3 v4 hl) hn
    refine ⟨b0, d.designator ++ b1 ++ d.lat ++ b2 ++ d.lng ++ b3 ++ d.name, tr, by simp, isSpaces_spTab h0, ?_, h6, h7⟩
    intro r
    simpa using starts_designator (r := b1 ++ d.lat ++ b2 ++ d.lng ++ b3 ++ d.name ++ c :: r) tabSkip hd
  last := by
    rintro d s ⟨b0, b1, b2, b3, rfl, h0, h1, n1, h2, n2, h3, n3, hd, hx, hy, v1, v2, v3, v4⟩
    have hk0 : K [] [] := tabSkip.nil (tabSkip.lineEnd lineEnd_nil)
    have hn : Blk skip K (name ⬝ (.opt Base.NL)) (d.name ++ []) [] [.node .name d.name []] :=
      blk_seq (u1 := [.node .name d.name []]) (u2 := []) (blk_of_out (out_name v1 v2 lineEnd_nil) hk0) (blk_opt_none (fails_NL_nil tabSkip) hk0)
    obtain ⟨tr, h6, h7⟩ := item_of num hnum h1 n1 h2 n2 h3 n3 v1 lineEnd_nil hd hx hy (by rw [List.append_assoc]; exact plain_name v1 v3 v4 lineEnd_nil) hn
    refine ⟨b0, d.designator ++ b1 ++ d.lat ++ b2 ++ d.lng ++ b3 ++ d.name, tr, by simp, isSpaces_spTab h0, ?_, by simpa using h6, h7⟩
    simpa using starts_designator (r := b1 ++ d.lat ++ b2 ++ d.lng ++ b3 ++ d.name) tabSkip hd

omit hnum in
theorem fails_item_nil : Fails skip item .nonAtomic [] := by
  refine (fails_alt_iff (uniform_eval tabSkip.uniform _ rfl _)).2 ⟨fails_comment tabSkip.uniform not_comment_nil, ?_⟩
  exact fails_rule (fails_seq_left (fails_rule (fails_plus (((likeDes (K := K) tabSkip.uniform .atomic).fails _).2 (headNot_nil _)))))

theorem file {content : Str} {ds : List Spec.Icao.Navdata} (hf : IsFile IsBlank NavdataText NavdataText content ds) :
    parseNavdataAirports content = .ok (ds.foldl (upd num) []) := by
  obtain ⟨trees, o, hg⟩ := file_out (rep := .star item) tabSkip (items num hnum) (fun _ => blank_gap) hf Rule.airports Rule.EOI (fun bs _ hb =>
    blk_star tabSkip.exact (uniform_eval tabSkip.uniform _ rfl _) hb fails_item_nil (tabSkip.nil (tabSkip.lineEnd lineEnd_nil)))
  have hr := run_of_out tabSkip.uniform tabSkip.exact (by rfl) (by rfl) o
  unfold parseNavdataAirports
  rw [show run skip airports content = _ from hr, run_ok_bind]
  show (trees ++ [Tree.node Rule.EOI [] []]).foldlM stepNavdata [] = _
  exact fold_snoc (fold_each hg []) rfl

end Navdata

/-! ## Aircraft -/

namespace Aircraft
open Verif.Peg.IcaoAircraft Verif.Parse.Icao
variable [UnicodeTables]

abbrev K : Str → Str → Prop := Blank [WHITESPACE, COMMENT]

theorem like_ws : LikeCls noSkip NoGap WHITESPACE .atomic isSpace := (likeCls_char ' ' .atomic).quiet

theorem tabSkip : TabSkip skip K isSpace commentMarks :=
  tabSkip_space (skipBoth_ok rfl rfl)
    (skipBoth_exact rfl rfl rfl rfl (disjoint_of like_ws likeComment_std apart_space rfl)) (uniform_skipBoth rfl rfl)
    (blank_iff like_ws likeComment_std apart_space)

abbrev item : Expr Rule := COMMENT ∥ definition ∥ continued_name

/-- The categories by their letters. -/
def wtcOf (c : Char) : Wtc :=
  if c = 'L' then .light else if c = 'M' then .medium else if c = 'H' then .heavy else if c = 'J' then .super else .unknown

/-- The kinds of aircraft by their letters. -/
def kindOf (c : Char) : AircraftType :=
  if c = 'L' then .landplane else if c = 'S' then .seaplane else if c = 'A' then .amphibian else if c = 'G' then .gyrocopter
  else if c = 'H' then .helicopter else if c = 'T' then .tiltrotor else .unknown

/-- The kinds of engines by their letters. -/
def engineOf (c : Char) : EngineType :=
  if c = 'J' then .jet else if c = 'T' then .turboprop else if c = 'P' then .piston else if c = 'E' then .electric
  else if c = 'R' then .rocket else .unknown

/-- The number of engines: the digit, or 0. -/
def enginesOf (c : Char) : Nat := if isAsciiDigit c then c.toNat - 48 else 0

/-- What is stored for a definition. -/
def value (a : Spec.Icao.Aircraft) : Parse.Icao.Aircraft :=
  ⟨a.designator, wtcOf a.wtc, kindOf a.kind, enginesOf a.engines, engineOf a.engine, a.manufacturer, a.name⟩

def upd (m : AircraftMap) : Option Spec.Icao.Aircraft → AircraftMap
  | some a => Map.insertIfNew m a.designator (value a)
  | none => m

def Good (d : Option Spec.Icao.Aircraft) (t : Tree Rule) : Prop := ∀ m, stepAircraft m t = .ok (upd m d)

theorem wtc_from {c : Char} (h : c ∈ c!"LMHJ-") : Wtc.fromStr [c] = some (wtcOf c) := by
  simp only [List.mem_cons, List.not_mem_nil, or_false] at h
  rcases h with rfl | rfl | rfl | rfl | rfl <;> rfl

theorem kind_from {c : Char} (h : c ∈ c!"LSAGHT-") : AircraftType.fromStr [c] = some (kindOf c) := by
  simp only [List.mem_cons, List.not_mem_nil, or_false] at h
  rcases h with rfl | rfl | rfl | rfl | rfl | rfl | rfl <;> rfl

theorem engine_from {c : Char} (h : c ∈ c!"PTJER-") : EngineType.fromStr [c] = some (engineOf c) := by
  simp only [List.mem_cons, List.not_mem_nil, or_false] at h
  rcases h with rfl | rfl | rfl | rfl | rfl | rfl <;> rfl

theorem engines_from (c : Char) : (parseUnsigned 10 256 [c]).getD 0 = enginesOf c := by
  by_cases hp : c = '+'
  · subst hp; decide
  have e1 : stripPlus [c] = [c] := by
    unfold stripPlus
    split
    · next h => exact absurd (List.cons.inj h).1 hp
    · rfl
  have e2 : digitsIn 10 [c] = if isAsciiDigit c then some (c.toNat - 48) else none := by
    show (toDigit 10 c).map (10 * 0 + ·) = _
    unfold toDigit
    by_cases h1 : isAsciiDigit c = true
    · have h1' := h1
      simp only [isAsciiDigit, Bool.and_eq_true, decide_eq_true_eq] at h1'
      have h2 : c.toNat ≤ 57 := h1'.2
      have h3 : c.toNat - 48 < 10 := by omega
      simp [h1, h3]
    · simp only [h1, if_false, Bool.false_eq_true]
      by_cases h2 : isAsciiLower c = true
      · have h2' := h2
        simp only [isAsciiLower, Bool.and_eq_true, decide_eq_true_eq] at h2'
        have h3 : 97 ≤ c.toNat := h2'.1
        have h4 : ¬ c.toNat - 87 < 10 := by omega
        simp [h2]; omega
      · by_cases h5 : isAsciiUpper c = true
        · have h5' := h5
          simp only [isAsciiUpper, Bool.and_eq_true, decide_eq_true_eq] at h5'
          have h3 : 65 ≤ c.toNat := h5'.1
          have h4 : ¬ c.toNat - 55 < 10 := by omega
          simp [h2, h5]; omega
        · simp [h2, h5]
  unfold parseUnsigned enginesOf
  rw [e1, e2]
  by_cases h1 : isAsciiDigit c = true
  · have h1' := h1
    simp only [isAsciiDigit, Bool.and_eq_true, decide_eq_true_eq] at h1'
    have h2 : c.toNat ≤ 57 := h1'.2
    have h3 : c.toNat - 48 < 256 := by omega
    simp [h1, Option.filter, h3]
  · simp [h1]

/-! ### The letters -/

theorem out_letter {q : Rule} {x : Expr Rule} {p : Char → Bool} (h : LikeCls skip K x .atomic p) {c : Char} {r : Str} (hc : p c = true) :
    Out skip K (.rule q .atomic x) .nonAtomic [c] r [.node q [c] []] := ⟨[], (h.out _ _ _).2 ⟨c, rfl, hc, rfl⟩, rfl⟩

theorem un {x : Expr Rule} (h : plain x = true) : Uniform (eval skip x .atomic) := uniform_eval tabSkip.uniform _ h _

theorem out_wtc {c : Char} {r : Str} (h : c ∈ c!"LMHJ-") : Out skip K wtc .nonAtomic [c] r [.node .wtc [c] []] := by
  refine out_letter ((likeCls_char 'L' .atomic).alt ((likeCls_char 'M' .atomic).alt ((likeCls_char 'H' .atomic).alt ((likeCls_char 'J' .atomic).alt
    (likeCls_char '-' .atomic) (un rfl)) (un rfl)) (un rfl)) (un rfl)) ?_
  simp only [List.mem_cons, List.not_mem_nil, or_false] at h
  rcases h with rfl | rfl | rfl | rfl | rfl <;> decide

theorem out_kind {c : Char} {r : Str} (h : c ∈ c!"LSAGHT-") : Out skip K aircrafttype .nonAtomic [c] r [.node .aircrafttype [c] []] := by
  refine out_letter ((likeCls_char 'L' .atomic).alt ((likeCls_char 'S' .atomic).alt ((likeCls_char 'A' .atomic).alt ((likeCls_char 'G' .atomic).alt
    ((likeCls_char 'H' .atomic).alt ((likeCls_char 'T' .atomic).alt (likeCls_char '-' .atomic) (un rfl)) (un rfl)) (un rfl)) (un rfl)) (un rfl)) (un rfl)) ?_
  simp only [List.mem_cons, List.not_mem_nil, or_false] at h
  rcases h with rfl | rfl | rfl | rfl | rfl | rfl | rfl <;> decide

theorem out_engines {c : Char} {r : Str} (h : UnicodeTables.number c = true ∨ c ∈ c!"C-") :
    Out skip K num_engines .nonAtomic [c] r [.node .num_engines [c] []] := by
  refine out_letter ((likeCls_cls UnicodeTables.number .atomic).alt ((likeCls_char 'C' .atomic).alt (likeCls_char '-' .atomic) (un rfl)) (un rfl)) ?_
  rcases h with h | h
  · simp [h]
  · simp only [List.mem_cons, List.not_mem_nil, or_false] at h
    rcases h with rfl | rfl <;> simp

theorem out_engine {c : Char} {r : Str} (h : c ∈ c!"PTJER-") : Out skip K enginetype .nonAtomic [c] r [.node .enginetype [c] []] := by
  refine out_letter ((likeCls_char 'P' .atomic).alt ((likeCls_char 'T' .atomic).alt ((likeCls_char 'J' .atomic).alt ((likeCls_char 'E' .atomic).alt
    ((likeCls_char 'R' .atomic).alt (likeCls_char '-' .atomic) (un rfl)) (un rfl)) (un rfl)) (un rfl)) (un rfl)) ?_
  simp only [List.mem_cons, List.not_mem_nil, or_false] at h
  rcases h with rfl | rfl | rfl | rfl | rfl | rfl <;> decide

theorem plain_letter {c : Char} {r : Str} {l : Str} (h : c ∈ l) (hl : ∀ d ∈ c!" \t\n\r;/", d ∉ l) : Plain isSpace commentMarks (c :: r) :=
  (starts_of_not (p := fun c => l.contains c) (fun d hd => by simpa using hl d hd) tabSkip (by simpa using h)).1

theorem plain_engines {c : Char} {r : Str} (h : UnicodeTables.number c = true ∨ c ∈ c!"C-") : Plain isSpace commentMarks (c :: r) := by
  rcases h with h | h
  · refine (starts_of_not (p := UnicodeTables.number) (fun d hd => ?_) tabSkip h).1
    simp only [List.mem_cons, List.not_mem_nil, or_false] at hd
    rcases hd with rfl | rfl | rfl | rfl | rfl | rfl <;> rw [UnicodeTables.number_ascii _ (by decide)] <;> decide
  · exact plain_letter h (by decide)

theorem out_designator {d r : Str} (h : IsDesignator d ∧ d.length ≤ 4) (hr : HeadNot des r) :
    Out skip K designator .nonAtomic d r [.node .designator d []] := by
  obtain ⟨h1, h2⟩ := h
  rw [isDesignator_iff] at h1
  have like := likeDes (R := Rule) (K := K) tabSkip.uniform .atomic
  have one : ∀ (c : Char) (r : Str), des c = true → Out skip K ((.cls UnicodeTables.letter) ∥ (.cls isAsciiDigit)) .atomic [c] r [] :=
    fun c r hc => (like.out _ _ _).2 ⟨c, rfl, hc, rfl⟩
  have some' : ∀ (c : Char) (r : Str), des c = true → Out skip K (.opt ((.cls UnicodeTables.letter) ∥ (.cls isAsciiDigit))) .atomic [c] r [] :=
    fun c r hc => Or.inl (one c r hc)
  have none' : Out skip K (.opt ((.cls UnicodeTables.letter) ∥ (.cls isAsciiDigit))) .atomic [] r [] := Or.inr ⟨rfl, rfl, (like.fails _).2 hr⟩
  refine ⟨[], ?_, rfl⟩
  match d, h1, h2 with
  | [], h, _ => exact absurd rfl h.1
  | [x], h, _ =>
    exact ⟨[x], [], [], [], [], rfl, rfl, one x _ (h.2 x (by simp)), ⟨[], [], [], [], [], rfl, rfl, none', ⟨[], [], [], [], [], rfl, rfl, none', none', rfl⟩, rfl⟩, rfl⟩
  | [x, y], h, _ =>
    exact ⟨[x], [], [y], [], [], rfl, rfl, one x _ (h.2 x (by simp)), ⟨[y], [], [], [], [], rfl, rfl, some' y _ (h.2 y (by simp)),
      ⟨[], [], [], [], [], rfl, rfl, none', none', rfl⟩, rfl⟩, rfl⟩
  | [x, y, z], h, _ =>
    exact ⟨[x], [], [y, z], [], [], rfl, rfl, one x _ (h.2 x (by simp)), ⟨[y], [], [z], [], [], rfl, rfl, some' y _ (h.2 y (by simp)),
      ⟨[z], [], [], [], [], rfl, rfl, some' z _ (h.2 z (by simp)), none', rfl⟩, rfl⟩, rfl⟩
  | [x, y, z, w], h, _ =>
    exact ⟨[x], [], [y, z, w], [], [], rfl, rfl, one x _ (h.2 x (by simp)), ⟨[y], [], [z, w], [], [], rfl, rfl, some' y _ (h.2 y (by simp)),
      ⟨[z], [], [w], [], [], rfl, rfl, some' z _ (h.2 z (by simp)), some' w _ (h.2 w (by simp)), rfl⟩, rfl⟩, rfl⟩
  | _ :: _ :: _ :: _ :: _ :: _, _, h => exact absurd h (by simp)

/-! ### Definitions -/

theorem def_of {a : Spec.Icao.Aircraft} {b1 b2 b3 b4 b5 b6 m n r : Str} (s1 : Spaces b1) (s2 : Spaces b2) (s3 : Spaces b3) (s4 : Spaces b4)
    (s5 : Spaces b5) (s6 : Spaces b6) (hd : IsDesignator a.designator ∧ a.designator.length ≤ 4) (h1 : a.wtc ∈ c!"LMHJ-") (h2 : a.kind ∈ c!"LSAGHT-")
    (h3 : UnicodeTables.number a.engines = true ∨ a.engines ∈ c!"C-") (h4 : a.engine ∈ c!"PTJER-") (hm : Inner a.manufacturer m)
    (hk : Blk skip K ((.str ['\t']) ⬝ fieldE Rule.name .tab_delimited_text ⬝ (.opt Base.NL)) ('\t' :: n) r [.node .name a.name []]) :
    ∃ t, Blk skip K item (a.designator ++ b1 ++ ['\t'] ++ b2 ++ [a.wtc] ++ b3 ++ [a.kind] ++ b4 ++ [a.engines] ++ b5 ++
      [a.engine] ++ b6 ++ ['\t'] ++ m ++ n) r [t] ∧ Good (some a) t := by
  have sp : ∀ {b r : Str}, Spaces b → Plain isSpace commentMarks r → K b r := fun hb hr => tabSkip.spaces (spaces_sp tabSkip hb) hr
  have t0 := tab_inner (q := Rule.manufacturer) (tq := .tab_delimited_text) tabSkip (by decide) hm hk
  have t1 := blk_seq (blk_gap (out_engine h4) (sp s6 (tabSkip.tab_plain (by decide)))) t0
  have t2 := blk_seq (blk_gap (out_engines h3) (sp s5 (plain_letter h4 (by decide)))) t1
  have t3 := blk_seq (blk_gap (out_kind h2) (sp s4 (plain_engines h3))) t2
  have t4 := blk_seq (blk_gap (out_wtc h1) (sp s3 (plain_letter h2 (by decide)))) t3
  have t5 := blk_seq (u1 := []) (blk_gap (out_str0 (w := ['\t'])) (sp s2 (plain_letter h1 (by decide)))) t4
  obtain ⟨s, t6⟩ := blk_rule (q := Rule.definition) (blk_seq (blk_gap (out_designator hd
    (headNot_spaces (des_not (by decide)) s1 (headNot_cons.2 (des_not (by decide))))) (sp s1 (tabSkip.tab_plain (by decide)))) t5)
  have e : a.designator ++ b1 ++ ['\t'] ++ b2 ++ [a.wtc] ++ b3 ++ [a.kind] ++ b4 ++ [a.engines] ++ b5 ++ [a.engine] ++ b6 ++ ['\t'] ++ m ++ n =
      (a.designator ++ b1) ++ ((['\t'] ++ b2) ++ (([a.wtc] ++ b3) ++ (([a.kind] ++ b4) ++ (([a.engines] ++ b5) ++ (([a.engine] ++ b6) ++ ('\t' :: m ++ n)))))) := by simp
  rw [e]
  refine ⟨_, blk_alt_right (fails_comment tabSkip.uniform ?_) (blk_alt_left (x := definition) (y := continued_name) t6), ?_⟩
  · simp only [List.append_assoc]
    exact (starts_designator tabSkip hd.1).1.2
  · intro acc
    have e1 : unwrap (Wtc.fromStr [a.wtc]) = .ok (wtcOf a.wtc) := by rw [wtc_from h1]; rfl
    have e2 : unwrap (AircraftType.fromStr [a.kind]) = .ok (kindOf a.kind) := by rw [kind_from h2]; rfl
    have e3 : unwrap (EngineType.fromStr [a.engine]) = .ok (engineOf a.engine) := by rw [engine_from h4]; rfl
    simp only [stepAircraft, Tree.asRule, Tree.inner, Tree.asStr, List.cons_append, List.nil_append, next, run_ok_bind, if_true, e1, e2, e3, engines_from]
    rfl

/-! ### Continued names -/

abbrev more : Expr Rule := (.not ((.str ['\t']) ∥ .newline)) ⬝ .any

theorem fails_tabNl {r : Str} (h1 : r.head? ≠ some '\t') (h2 : HeadNot isNewlineChar r) : Fails skip ((.str ['\t']) ∥ .newline : Expr Rule) .nonAtomic r := by
  refine (fails_alt_iff (uniform_eval tabSkip.uniform _ rfl _)).2 ⟨fails_str.2 ?_, fails_newline.2 h2⟩
  rintro ⟨t, rfl⟩
  exact h1 rfl

theorem out_more {c : Char} {r : Str} (h1 : c ≠ '\t') (h2 : ¬ IsNewline c) (hp : Plain isSpace commentMarks (c :: r)) : Out skip K more .nonAtomic [c] r [] := by
  refine ⟨[], [], [c], [], [], rfl, tabSkip.nil hp, ⟨rfl, rfl, fails_tabNl (by simpa using h1) (headNot_cons.2 ?_)⟩, ⟨c, rfl, rfl, rfl⟩, rfl⟩
  simpa [isNewlineChar, IsNewline] using h2

theorem fails_more_nil : Fails skip more .nonAtomic [] := by
  refine fails_of_not_out tabSkip.ok rfl ?_
  rintro s r' ts e ⟨s1, m, s2, t1, t2, rfl, _, _, ⟨c, rfl, _⟩, _⟩
  simp at e

theorem fails_more_of {c : Char} {r : Str} (h : c = '\t' ∨ IsNewline c) : Fails skip more .nonAtomic (c :: r) := by
  refine fails_seq_left (fails_of_not_out tabSkip.ok rfl ?_)
  rintro s r' ts e ⟨rfl, _, hf⟩
  have hf := (fails_alt_iff (uniform_eval tabSkip.uniform _ rfl _)).1 hf
  rw [fails_str, fails_newline] at hf
  have e : c :: r = r' := e
  subst e
  rcases h with rfl | h
  · exact hf.1 ⟨r, rfl⟩
  · have := headNot_cons.1 hf.2
    rcases h with rfl | rfl <;> exact absurd this (by decide)

theorem spaces_split (s : Str) : ∃ b t, s = b ++ t ∧ Spaces b ∧ t.head? ≠ some ' ' := by
  induction s with
  | nil => exact ⟨[], [], rfl, by simp [Spaces], by simp⟩
  | cons c s ih =>
    by_cases hc : c = ' '
    · obtain ⟨b, t, rfl, h1, h2⟩ := ih
      refine ⟨c :: b, t, rfl, ?_, h2⟩
      intro d hd
      rcases List.mem_cons.1 hd with rfl | hd
      · exact hc
      · exact h1 d hd
    · exact ⟨[], c :: s, rfl, by simp [Spaces], by simpa using hc⟩

/-- The characters of a continued name, each with the blanks behind it. -/
theorem more_blks {m r : Str} (hk : K m r) : ∀ (n : Nat) (s : Str), s.length ≤ n → s ≠ [] → s.head? ≠ some ' ' → s.getLast? ≠ some ' ' →
    (∀ c ∈ s, c ≠ '\t' ∧ ¬ IsNewline c) → (∀ p q, s = p ++ q → q ≠ [] → ¬ StartsComment (q ++ (m ++ r))) →
    ∃ l : List (Str × List (Tree Rule)), l ≠ [] ∧ Blks skip K more l r ∧ l.flatMap (·.1) = s ++ m ∧ l.flatMap (·.2) = [] := by
  intro n
  induction n with
  | zero => intro s h hne; exact absurd (List.eq_nil_of_length_eq_zero (by omega)) hne
  | succ n ih =>
    intro s hn hne hh hl hv hc
    cases s with
    | nil => exact absurd rfl hne
    | cons c s =>
      have pl : Plain isSpace commentMarks (c :: s ++ (m ++ r)) := by
        refine ⟨headNot_cons.2 (by simpa using hh), ?_⟩
        rw [commentStart_iff]
        exact hc [] (c :: s) rfl (by simp)
      obtain ⟨b, t, rfl, h1, h2⟩ := spaces_split s
      by_cases ht : t = []
      · subst ht
        have hb : b = [] := by
          cases b with
          | nil => rfl
          | cons d b =>
            refine absurd ?_ hl
            rw [List.append_nil, List.getLast?_cons_cons]
            rw [List.getLast?_eq_some_getLast (by simp)]
            exact congrArg some (h1 _ (List.getLast_mem (by simp)))
        subst hb
        exact ⟨[([c] ++ m, [])], by simp, ⟨blk_gap (out_more (hv c (by simp)).1 (hv c (by simp)).2 (by simpa using pl)) (by simpa using hk), trivial⟩, by simp, rfl⟩
      · have hg : t.getLast? ≠ some ' ' := by
          intro hg
          apply hl
          rw [← List.cons_append, List.getLast?_append, hg]
          rfl
        obtain ⟨l, l1, l2, l3, l4⟩ := ih t (by simp at hn; omega) ht h2 hg (fun d hd => hv d (by simp [hd]))
          (fun p q e hq => by
            have := hc (c :: b ++ p) q (by simp [e]) hq
            exact this)
        refine ⟨([c] ++ b, []) :: l, by simp, ⟨blk_gap (out_more (hv c (by simp)).1 (hv c (by simp)).2 ?_) ?_, l2⟩, by simp [l3], by simpa using l4⟩
        · simp only [l3]
          simpa using pl
        · rw [l3]
          refine tabSkip.spaces (spaces_sp tabSkip h1) ?_
          refine ⟨?_, ?_⟩
          · cases t with
            | nil => exact absurd rfl ht
            | cons d t => exact headNot_cons.2 (by simpa using h2)
          · rw [commentStart_iff, List.append_assoc]
            exact hc (c :: b) t rfl ht

/-- A comment mark does not start behind text that is followed by a line end or the end of the file. -/
theorem no_comment_end {q e : Str} (hne : q ≠ []) (h : ¬ StartsComment q) (he : e.head? ≠ some '/') : ¬ StartsComment (q ++ e) := by
  cases q with
  | nil => exact absurd rfl hne
  | cons c q =>
    rintro (hp | hp)
    · exact h (Or.inl (by simpa using hp))
    · cases q with
      | nil =>
        rw [List.singleton_append, List.cons_prefix_cons] at hp
        obtain ⟨_, t, rfl⟩ := hp
        exact he rfl
      | cons d q => exact h (Or.inr (by simpa [List.cons_prefix_cons] using hp))

/-- What the letter of the wake turbulence category starts with. -/
theorem wtc_letter {s r : Str} {ts : List (Tree Rule)} (h : Out skip K wtc .nonAtomic s r ts) : ∃ c, s = [c] ∧ c ∈ c!"LMHJ-" := by
  obtain ⟨_, h, _⟩ := h
  obtain ⟨c, rfl, hc, _⟩ := (((likeCls_char 'L' .atomic).alt ((likeCls_char 'M' .atomic).alt ((likeCls_char 'H' .atomic).alt ((likeCls_char 'J' .atomic).alt
    (likeCls_char '-' .atomic) (un rfl)) (un rfl)) (un rfl)) (un rfl) : LikeCls skip K _ .atomic _).out _ _ _).1 h
  exact ⟨c, rfl, by simpa using hc⟩

/-- A line without tabs but at its end is no definition. -/
theorem fails_definition {s tr e : Str} (hs : ∀ c ∈ s, c ≠ '\t') (ht : IsBlank tr) (he : e = [] ∨ ∃ c t, e = c :: t ∧ IsNewline c) :
    Fails skip definition .nonAtomic (s ++ tr ++ e) := by
  refine fails_of_not_out tabSkip.ok rfl ?_
  rintro w r' ts e1 ⟨_, ⟨s1, m, s2, t1, t2, rfl, hg, ⟨_, o1, _⟩, o2, _⟩, _⟩
  obtain ⟨x1, x2, x3, _, _, rfl, hg2, ⟨rfl, _⟩, ⟨x4, x5, x6, _, _, rfl, _, o4, _⟩, _⟩ := o2
  obtain ⟨l, rfl, hl⟩ := wtc_letter o4
  have hx2 : ∀ c ∈ x2, c = ' ' := by
    obtain ⟨sp, cm, rfl, h1, h2⟩ := (tabSkip.iff _ _).1 hg2
    rcases h2 with ⟨rfl, _⟩ | ⟨_, h2⟩
    · intro c hc
      simpa using h1 c (by simpa using hc)
    · have := headNot_cons.1 (show HeadNot _ (l :: (x5 ++ x6 ++ r')) by simpa [AtLineEnd] using h2)
      simp only [List.mem_cons, List.not_mem_nil, or_false] at hl
      rcases hl with rfl | rfl | rfl | rfl | rfl <;> exact absurd this (by decide)
  generalize hx3 : [l] ++ x5 ++ x6 = x3 at *
  have hg : K m ('\t' :: (x2 ++ x3) ++ r') := by simpa using hg
  -- the designator
  have hd : ∀ c ∈ s1, des c = true := by
    have like := likeDes (R := Rule) (K := K) tabSkip.uniform .atomic
    have ho : ∀ {s r : Str} {ts : List (Tree Rule)}, Out skip K (.opt ((.cls UnicodeTables.letter) ∥ (.cls isAsciiDigit))) .atomic s r ts → ∀ c ∈ s, des c = true := by
      rintro s r ts (h | ⟨rfl, _⟩)
      · obtain ⟨c, rfl, hc, _⟩ := (like.out _ _ _).1 h
        simpa using hc
      · simp
    obtain ⟨y1, g1, z1, _, _, rfl, hy1, p1, ⟨y2, g2, z2, _, _, rfl, hy2, p2, ⟨y3, g3, y4, _, _, rfl, hy3, p3, p4, _⟩, _⟩, _⟩ := o1
    have e1 : g1 = [] := hy1
    have e2 : g2 = [] := hy2
    have e3 : g3 = [] := hy3
    subst e1 e2 e3
    obtain ⟨c, rfl, hc, _⟩ := (like.out _ _ _).1 p1
    have q2 := ho p2
    have q3 := ho p3
    have q4 := ho p4
    intro d hd
    simp only [List.append_nil, List.mem_append, List.mem_singleton] at hd
    rcases hd with rfl | hd | hd | hd
    · exact hc
    · exact q2 d hd
    · exact q3 d hd
    · exact q4 d hd
  -- the blanks behind it
  have hm : ∀ c ∈ m, c = ' ' := by
    obtain ⟨sp, cm, rfl, h1, h2⟩ := (tabSkip.iff _ _).1 hg
    rcases h2 with ⟨rfl, _⟩ | ⟨_, h2⟩
    · intro c hc
      simpa using h1 c (by simpa using hc)
    · exact absurd (headNot_cons.1 (show HeadNot _ ('\t' :: (x2 ++ x3) ++ r') from h2)) (by decide)
  obtain ⟨sp, cm, rfl, h1, h2⟩ := ht
  have hA : ∀ c ∈ s1 ++ m, c ∉ c!"\n\r;/" := by
    intro c hc hb
    rcases List.mem_append.1 hc with hc | hc
    · have := des_not (c := c) (by
        simp only [List.mem_cons, List.not_mem_nil, or_false] at hb ⊢
        rcases hb with rfl | rfl | rfl | rfl <;> simp)
      rw [hd c hc] at this
      cases this
    · rw [hm c hc] at hb
      exact absurd hb (by decide)
  have hY : ∀ c, (cm ++ e).head? = some c → c ∈ c!"\n\r;/" := by
    intro c hc
    rcases h2 with rfl | h2
    · rcases he with rfl | ⟨d, t, rfl, hd⟩
      · simp at hc
      · have : d = c := by simpa using hc
        subst this
        rcases hd with rfl | rfl <;> decide
    · rw [Verif.Parse.Isec.isComment_iff] at h2
      obtain ⟨w, hw, body, rfl, _⟩ := h2
      simp only [commentMarks, List.mem_cons, List.not_mem_nil, or_false] at hw
      rcases hw with rfl | rfl
      · have : ';' = c := by simpa using hc
        subst this; decide
      · have : '/' = c := by simpa using hc
        subst this; decide
  have e2 : (s1 ++ m) ++ '\t' :: ((x2 ++ x3) ++ r') = (s ++ sp) ++ (cm ++ e) := by
    have := e1.symm
    simpa using this
  -- no letter behind the blanks
  have hZ : ∀ q, (∀ c ∈ q, c = ' ' ∨ c = '\t') → (x2 ++ x3) ++ r' ≠ q ++ (cm ++ e) := by
    intro q hq e3
    have e3 : x2 ++ l :: (x5 ++ x6 ++ r') = q ++ (cm ++ e) := by
      rw [← e3, ← hx3]; simp
    rcases List.append_eq_append_iff.1 e3 with ⟨w, e4, e5⟩ | ⟨w, e4, e5⟩
    · cases w with
      | nil =>
        have h3 := hY l (by rw [← List.nil_append (cm ++ e), ← e5]; rfl)
        simp only [List.mem_cons, List.not_mem_nil, or_false] at hl
        rcases hl with rfl | rfl | rfl | rfl | rfl <;> exact absurd h3 (by decide)
      | cons d w =>
        have : l = d := (List.cons.inj e5).1
        subst this
        have h3 := hq l (by rw [e4]; simp)
        simp only [List.mem_cons, List.not_mem_nil, or_false] at hl
        rcases hl with rfl | rfl | rfl | rfl | rfl <;> exact absurd h3 (by decide)
    · cases w with
      | nil =>
        have h3 := hY l (by rw [e5]; rfl)
        simp only [List.mem_cons, List.not_mem_nil, or_false] at hl
        rcases hl with rfl | rfl | rfl | rfl | rfl <;> exact absurd h3 (by decide)
      | cons d w =>
        have h3 := hY d (by rw [e5]; rfl)
        rw [hx2 d (by rw [e4]; simp)] at h3
        exact absurd h3 (by decide)
  rcases List.append_eq_append_iff.1 e2 with ⟨w, e3, e4⟩ | ⟨w, e3, e4⟩
  · cases w with
    | nil => exact absurd (hY '\t' (by rw [← List.nil_append (cm ++ e), ← e4]; rfl)) (by decide)
    | cons d w =>
      have : '\t' = d := by simpa using (List.cons.inj e4).1
      subst this
      rcases List.append_eq_append_iff.1 e3 with ⟨v, e5, e6⟩ | ⟨v, e5, e6⟩
      · exact hZ w (fun c hc => h1 c (by rw [e6]; simp [hc])) (List.cons.inj e4).2
      · cases v with
        | nil =>
          have e6 : '\t' :: w = sp := e6
          exact hZ w (fun c hc => h1 c (by rw [← e6]; simp [hc])) (List.cons.inj e4).2
        | cons d v =>
          have : '\t' = d := (List.cons.inj e6).1
          subst this
          exact hs '\t' (by rw [e5]; simp) rfl
  · cases w with
    | nil => exact absurd (hY '\t' (by rw [e4]; rfl)) (by decide)
    | cons d w =>
      exact hA d (by rw [e3]; simp) (hY d (by rw [e4]; rfl))

/-- Continued names. -/
theorem more_of {s tr e m u r : Str} (hs : IsField s) (hne : s ≠ []) (hl : s.getLast? ≠ some ' ') (ht : IsBlank tr)
    (hc : ∀ p q, s = p ++ q → q ≠ [] → ¬ StartsComment (q ++ tr)) (he : e = [] ∨ ∃ c t, e = c :: t ∧ IsNewline c) (e1 : tr ++ e = m ++ (u ++ r))
    (hk : K m (u ++ r)) (hf : Fails skip more .nonAtomic (u ++ r)) (hu : Blk skip K (.opt (Base.NL : Expr Rule)) u r []) :
    ∃ t, Blk skip K item (s ++ (m ++ u)) r [t] ∧ Good none t := by
  have hh : e.head? ≠ some '/' := by
    rcases he with rfl | ⟨c, t, rfl, hc⟩
    · simp
    · rcases hc with rfl | rfl <;> simp
  have nc : ∀ p q, s = p ++ q → q ≠ [] → ¬ StartsComment (q ++ (m ++ (u ++ r))) := by
    intro p q h1 h2
    rw [← e1, ← List.append_assoc]
    exact no_comment_end (by simp [h2]) (hc p q h1 h2) hh
  obtain ⟨l, l1, l2, l3, l4⟩ := more_blks hk _ s (Nat.le_refl _) hne hs.2.1 hl hs.1 nc
  have b1 := blk_plus tabSkip.exact (uniform_eval tabSkip.uniform _ rfl _) tabSkip.knil l1 l2 hf
  rw [l3, l4] at b1
  obtain ⟨w, b2⟩ := blk_rule (q := Rule.continued_name) (blk_seq b1 hu)
  rw [← List.append_assoc]
  refine ⟨_, blk_alt_right (fails_comment tabSkip.uniform ?_) (blk_alt_right (y := continued_name) ?_ b2), fun acc => rfl⟩
  · rw [commentStart_iff]
    have := nc [] s rfl hne
    simpa using this
  · have : s ++ m ++ u ++ r = s ++ tr ++ e := by
      rw [List.append_assoc, List.append_assoc, List.append_assoc, e1]
    rw [this]
    exact fails_definition (fun c hc => (hs.1 c hc).1) ht he

theorem rest_blank {tr : Str} (h : IsRest tr) : IsBlank tr := by
  obtain ⟨sp, cm, rfl, h1, h2⟩ := h
  exact ⟨sp, cm, rfl, spaces_isSpaces h1, h2⟩

theorem starts_more {s e : Str} (hs : IsField s) (hne : s ≠ []) (h : ¬ StartsComment (s ++ e)) : Starts isSpace (s ++ e) := by
  cases s with
  | nil => exact absurd rfl hne
  | cons c s =>
    have h1 : c ≠ ' ' := by simpa using hs.2.1
    have h2 := hs.1 c (by simp)
    refine ⟨⟨headNot_cons.2 (by simpa using h1), by rwa [commentStart_iff]⟩, headNot_cons.2 (by simp [isSpTab, h1, h2.1]), headNot_cons.2 ?_⟩
    simpa [isNewlineChar, IsNewline] using h2.2

theorem items : Items skip K isSpace item (AircraftLine IsBlank Final) (AircraftLine IsRest AtEnd) Good where
  line := by
    intro d s c t fin r h hc ht hk hb hr
    cases d with
    | some d =>
      obtain ⟨b0, b1, b2, b3, b4, b5, b6, m, n, rfl, s0, s1, s2, s3, s4, s5, s6, h1, h2, h3, h4, h5, h6, h7⟩ := h
      obtain ⟨tr, h8, h9⟩ := def_of (n := n ++ (c :: t ++ fin)) s1 s2 s3 s4 s5 s6 h1 h2 h3 h4 h5 h6 (tab_final tabSkip h7 hc ht hk hb hr)
      refine ⟨b0, d.designator ++ b1 ++ ['\t'] ++ b2 ++ [d.wtc] ++ b3 ++ [d.kind] ++ b4 ++ [d.engines] ++ b5 ++ [d.engine] ++ b6 ++ ['\t'] ++ m ++ n, tr,
        by simp only [List.append_assoc], spaces_sp tabSkip s0, ?_, by simpa using h8, h9⟩
      intro r
      simp only [List.append_assoc]
      exact starts_designator tabSkip h1.1
    | none =>
      obtain ⟨b, s, tr, rfl, h1, h2, h3, h4, h5, h6⟩ := h
      obtain ⟨m, u, e, k, hu, d, v, rfl, hd⟩ := blk_lines (R := Rule) tabSkip (lns_blank h5 hc ht) (by simp) hk hb hr
      have hd' : d = '\t' ∨ IsNewline d := by
        rcases hd with hd | hd
        · exact Or.inl hd.1
        · exact Or.inr hd
      obtain ⟨t', h7, h8⟩ := more_of (e := c :: t ++ fin ++ r) h2 h3 h4 h5 h6 (Or.inr ⟨c, _, rfl, hc⟩) (by rw [← List.append_assoc m, ← e]; simp) k
        (fails_more_of hd') (blk_opt_some hu)
      refine ⟨b, s ++ tr, t', by simp, spaces_sp tabSkip h1, ?_, ?_, h8⟩
      · intro r
        rw [List.append_assoc]
        refine starts_more h2 h3 ?_
        rw [← List.append_assoc]
        exact no_comment_end (by simp [h3]) (h6 [] s rfl h3) (by rcases hc with rfl | rfl <;> simp)
      · have : s ++ tr ++ (c :: t ++ fin) = s ++ (m ++ d :: v) := by rw [← e]; simp
        rw [this]
        exact h7
  last := by
    intro d s h
    cases d with
    | some d =>
      obtain ⟨b0, b1, b2, b3, b4, b5, b6, m, n, rfl, s0, s1, s2, s3, s4, s5, s6, h1, h2, h3, h4, h5, h6, h7⟩ := h
      obtain ⟨tr, h8, h9⟩ := def_of (n := n) s1 s2 s3 s4 s5 s6 h1 h2 h3 h4 h5 h6 (tab_end tabSkip h7)
      refine ⟨b0, d.designator ++ b1 ++ ['\t'] ++ b2 ++ [d.wtc] ++ b3 ++ [d.kind] ++ b4 ++ [d.engines] ++ b5 ++ [d.engine] ++ b6 ++ ['\t'] ++ m ++ n, tr,
        by simp only [List.append_assoc], spaces_sp tabSkip s0, ?_, h8, h9⟩
      simp only [List.append_assoc]
      exact starts_designator tabSkip h1.1
    | none =>
      obtain ⟨b, s, tr, rfl, h1, h2, h3, h4, h5, h6⟩ := h
      have hk : K tr [] := by
        obtain ⟨sp, cm, rfl, g1, g2⟩ := h5
        exact tabSkip.gapEnd (spaces_sp tabSkip g1) (isComment_text.1 g2) lineEnd_nil
      obtain ⟨t', h7, h8⟩ := more_of (e := []) (u := []) (r := []) h2 h3 h4 (rest_blank h5) h6 (Or.inl rfl) (by simp) hk fails_more_nil
        (blk_opt_none (fails_NL_nil tabSkip) (tabSkip.knil _ _ hk))
      refine ⟨b, s ++ tr, t', by simp, spaces_sp tabSkip h1, starts_more h2 h3 (h6 [] s rfl h3), by simpa using h7, h8⟩

theorem fails_item_nil : Fails skip item .nonAtomic [] := by
  refine (fails_alt_iff (uniform_eval tabSkip.uniform _ rfl _)).2 ⟨fails_comment tabSkip.uniform not_comment_nil, ?_⟩
  refine (fails_alt_iff (uniform_eval tabSkip.uniform _ rfl _)).2 ⟨?_, fails_rule (fails_seq_left (fails_plus fails_more_nil))⟩
  exact fails_rule (fails_seq_left (fails_rule (fails_seq_left (((likeDes (K := K) tabSkip.uniform .atomic).fails _).2 (headNot_nil _)))))

theorem file {content : Str} {ds : List (Option Spec.Icao.Aircraft)} (hf : IsFile IsRest (AircraftLine IsBlank Final) (AircraftLine IsRest AtEnd) content ds) (hne : ds ≠ []) :
    parseAircraft content = .ok (ds.foldl upd []) := by
  obtain ⟨trees, o, hg⟩ := file_out (rep := .plus item) tabSkip items (fun _ => rest_gap tabSkip) hf Rule.aircraft Rule.EOI (fun bs hbs hb =>
    blk_plus tabSkip.exact (uniform_eval tabSkip.uniform _ rfl _) tabSkip.knil (fun e => hne (hbs.1 e)) hb fails_item_nil)
  have hr := run_of_out tabSkip.uniform tabSkip.exact (by rfl) (by rfl) o
  unfold parseAircraft
  rw [show run skip aircraft content = _ from hr, run_ok_bind]
  show (trees ++ [Tree.node Rule.EOI [] []]).foldlM stepAircraft [] = _
  exact fold_snoc (fold_each hg []) rfl

theorem upd_filter (ds : List (Option Spec.Icao.Aircraft)) : ∀ m, ds.foldl upd m =
    (ds.filterMap id).foldl (fun m a => Map.insertIfNew m a.designator (value a)) m := by
  induction ds with
  | nil => intro m; rfl
  | cons d ds ih =>
    intro m
    cases d with
    | none => exact ih m
    | some a => exact ih _

end Aircraft

end Verif.Proofs.Icao
