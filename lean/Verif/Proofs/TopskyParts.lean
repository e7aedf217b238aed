import Verif.Proofs.TopskySegs
/-!
# Numbers, positions, runways and lists in TopSky files
-/

namespace Verif.Proofs.Topsky
open Verif.Peg Verif.Peg.Topsky Verif.Spec Verif.Spec.Topsky
open Verif.Spec.Ese (DmsText IsRunway)
open Verif.Parse.Topsky (RunwayIdentifier ActiveMapOperator)

/-! ## Numbers -/

theorem digit_visible {c : Char} (h : isAsciiDigit c = true) : visible c = true := by
  have h1 := isDigit_ne h (d := ' ') (by decide)
  have h2 := isDigit_ne h (d := '\t') (by decide)
  have h3 := isDigit_ne h (d := '\n') (by decide)
  have h4 := isDigit_ne h (d := '\r') (by decide)
  have h5 := isDigit_ne h (d := '/') (by decide)
  have h6 := isDigit_ne h (d := ';') (by decide)
  have h7 : isNewlineChar c = false := by
    cases hn : isNewlineChar c with
    | false => rfl
    | true => rcases newline_iff.1 hn with rfl | rfl <;> exact absurd h (by decide)
  simp [visible, h1, h2, h5, h6, h7]

theorem decimal_head {v : Str} (h : IsDecimal v) : ∃ c t, v = c :: t ∧ (isAsciiDigit c = true ∨ c ∈ c!"+-.") := by
  obtain ⟨sg, ds, fs, rfl, h1, h2, h3⟩ := h
  rcases h1 with rfl | rfl | rfl
  · cases ds with
    | cons c t => exact ⟨c, t ++ fs, rfl, Or.inl (h2 c List.mem_cons_self)⟩
    | nil =>
      rcases h3 with ⟨_, h⟩ | ⟨d, rfl, _⟩
      · exact absurd rfl h
      · exact ⟨'.', d, rfl, Or.inr (by simp)⟩
  · exact ⟨'-', ds ++ fs, rfl, Or.inr (by simp)⟩
  · exact ⟨'+', ds ++ fs, rfl, Or.inr (by simp)⟩

theorem visible_decimal {v : Str} (h : IsDecimal v) : visibleHead v = true := by
  obtain ⟨c, t, rfl, hc | hc⟩ := decimal_head h
  · exact digit_visible hc
  · simp only [List.mem_cons, List.not_mem_nil, or_false] at hc
    rcases hc with rfl | rfl | rfl <;> rfl

theorem seg_integer {v : Str} (h : IsInteger v) : S NumEnd integer v [.node .integer v []] :=
  seg_atomic (fun _ hr => out_integer_build good.uniform (by decide) h hr.digit) fun _ _ => k_head (visible_decimal h.isDecimal)

theorem seg_decimal {v : Str} (h : IsDecimal v) : S NumEnd decimal v [.node .decimal v []] :=
  seg_atomic (fun _ hr => out_decimal_build good.ok good.uniform (by decide) h hr) fun _ _ => k_head (visible_decimal h)

/-! ## Positions -/

def partTree : Part → Tr
  | .decimal s => .node .coord_part s [.node .decimal s []]
  | .dms d => .node .coord_part d.text [.node .sct_coord_part d.text
    [.node .hemi [d.hemi] [], .node .deg d.deg [], .node .min d.min [], .node .sec d.sec []]]

theorem hemi_visible : ∀ c ∈ c!"NSWEnswe", visible c = true := by decide

theorem part_visible {p : Part} (h : p.Valid) : visibleHead p.text = true := by
  cases p with
  | decimal s => exact visible_decimal h
  | dms d => exact hemi_visible _ h.1

theorem like_hemi : LikeCls skip K (Base.hemi : Expr Rule) .atomic (fun c => decide (c ∈ c!"NSWEnswe")) := by
  have hc := fun (d : Char) => likeCls_char (sk := skip) (K := K) (R := Rule) d .atomic
  have : LikeCls skip K (Base.hemi : Expr Rule) .atomic _ :=
    (hc 'N').alt ((hc 'S').alt ((hc 'W').alt ((hc 'E').alt ((hc 'n').alt ((hc 's').alt ((hc 'w').alt (hc 'e')
      (hu _ rfl)) (hu _ rfl)) (hu _ rfl)) (hu _ rfl)) (hu _ rfl)) (hu _ rfl)) (hu _ rfl)
  refine ⟨fun s r ts => (this.out s r ts).trans ?_, fun r => (this.fails r).trans ?_⟩
  · simp
  · unfold HeadNot
    simp

theorem seg_part {p : Part} (h : p.Valid) : S NumEnd coord_part p.text [partTree p] := by
  cases p with
  | decimal s =>
    refine seg_rule (seg_alt_right (fun r _ => ?_) (seg_decimal h))
    refine fails_rule (fails_seq_left (fails_rule ((like_hemi.fails _).2 ?_)))
    obtain ⟨c, t, e, hc⟩ := decimal_head h
    show HeadNot _ (s ++ r)
    rw [e]
    refine headNot_cons.2 ?_
    simp only [decide_eq_false_iff_not]
    intro hm
    rcases hc with hc | hc
    · revert hc; clear e; revert c; decide
    · clear e; revert c; decide
  | dms d =>
    obtain ⟨h1, h2, h3, h4⟩ := h
    have dot : ∀ r, HeadNot isAsciiDigit ('.' :: r) := fun r => headNot_cons.2 (by decide)
    refine seg_rule (seg_alt_left fun r hr => ⟨⟨_, ?_, rfl⟩, k_cons (hemi_visible _ h1)⟩)
    show Out skip K _ .compound _ _ _
    have b5 : Out skip K sec .compound d.sec r [.node .sec d.sec []] :=
      ⟨[], ⟨[], out_decimal_build good.ok good.uniform (by decide) h4 hr, rfl⟩, rfl⟩
    have b3 : ∀ r, Out skip K Peg.Topsky.min .compound d.min ('.' :: r) [.node .min d.min []] := fun r =>
      ⟨[], out_digits_build (by decide) h3 (dot _), rfl⟩
    have b2 : ∀ r, Out skip K deg .compound d.deg ('.' :: r) [.node .deg d.deg []] := fun r =>
      ⟨[], out_digits_build (by decide) h2 (dot _), rfl⟩
    have b1 : ∀ r, Out skip K hemi .compound [d.hemi] r [.node .hemi [d.hemi] []] := fun r =>
      ⟨[], out_hemi_build good.uniform h1, rfl⟩
    have b0 : ∀ r, Out skip K (.str c!".") .compound ['.'] r ([] : List Tr) := fun r => out_str0
    have sq : ∀ {x y : Expr Rule} {s1 s2 r : Str} {u1 u2 : List Tr}, Out skip K x .compound s1 (s2 ++ r) u1 →
        Out skip K y .compound s2 r u2 → Out skip K (x ⬝ y) .compound (s1 ++ s2) r (u1 ++ u2) := fun a b =>
      (out_seq_atomic (by decide)).2 ⟨_, _, _, _, rfl, rfl, a, b⟩
    have c5 := sq (b0 _) b5
    have c4 := sq (s2 := '.' :: d.sec) (r := r) (b3 _) c5
    have c3 := sq (b0 _) c4
    have c2 := sq (s2 := '.' :: (d.min ++ '.' :: d.sec)) (r := r) (b2 _) c3
    exact sq (b1 _) c2

def coordTree (lat lng : Part) : Tr := .node .coordinate (lat.text ++ ':' :: lng.text) [partTree lat, partTree lng]

theorem seg_coord {lat lng : Part} (h1 : lat.Valid) (h2 : lng.Valid) :
    S NumEnd coordinate (lat.text ++ ':' :: lng.text) [coordTree lat lng] :=
  seg_rule (seg_colon k_colon (seg_mono (seg_part h1) colon_num) (seg_part h2))

/-- What `coord_part` matches. -/
theorem coordPart_token {s r : Str} {ts : List Tr} (h : Out skip K coord_part .nonAtomic s r ts) :
    ∃ p : Part, p.Valid ∧ s = p.text ∧ ts = [partTree p] := by
  obtain ⟨kids, ho, rfl⟩ := h
  rcases ho with ⟨ks, ho, rfl⟩ | ⟨⟨ks, ho, rfl⟩, _⟩
  · obtain ⟨s1, s2, t1, t2, rfl, rfl, h1, h2⟩ := (out_seq_atomic (by decide)).1 ho
    obtain ⟨s3, s4, t3, t4, rfl, rfl, h3, h4⟩ := (out_seq_atomic (by decide)).1 h2
    obtain ⟨s5, s6, t5, t6, rfl, rfl, ⟨rfl, rfl⟩, h6⟩ := (out_seq_atomic (by decide)).1 h4
    obtain ⟨s7, s8, t7, t8, rfl, rfl, h7, h8⟩ := (out_seq_atomic (by decide)).1 h6
    obtain ⟨s9, s10, t9, t10, rfl, rfl, ⟨rfl, rfl⟩, h10⟩ := (out_seq_atomic (by decide)).1 h8
    obtain ⟨k1, h1, rfl⟩ := h1
    obtain ⟨k3, h3, rfl⟩ := h3
    obtain ⟨k7, h7, rfl⟩ := h7
    obtain ⟨k10, ⟨k11, h10, e⟩, rfl⟩ := h10
    obtain ⟨c, rfl, hc, rfl⟩ := (like_hemi.out _ _ _).1 h1
    have e3 := out_digits (by decide) h3
    have e7 := out_digits (by decide) h7
    have e10 := out_decimal (by decide) h10
    refine ⟨.dms ⟨c, s3, s7, s10⟩, ⟨by simpa using hc, e3.2, e7.2, e10.2⟩, by simp [Part.text, DmsText.text], ?_⟩
    rw [e3.1, e7.1, e, e10.1]
    simp [emits, inside, partTree, DmsText.text]
  · have := out_decimal (by decide) ho
    refine ⟨.decimal s, this.2, rfl, ?_⟩
    rw [this.1]
    rfl

/-- A position written with degrees contains neither colons nor line ends. -/
def partChar (c : Char) : Bool := isAsciiDigit c || decide (c ∈ c!"+-.NSWEnswe")

theorem decimal_chars {s : Str} (h : IsDecimal s) : ∀ c ∈ s, partChar c = true := by
  obtain ⟨sg, ds, fs, rfl, h1, h2, h3⟩ := h
  have hd : ∀ l : Str, (∀ c ∈ l, isAsciiDigit c = true) → ∀ c ∈ l, partChar c = true := fun l h c hc => by
    simp [partChar, h c hc]
  intro c hc
  rcases List.mem_append.1 hc with hc | hc
  · rcases List.mem_append.1 hc with hc | hc
    · rcases h1 with rfl | rfl | rfl
      · cases hc
      · rw [List.mem_singleton.1 hc]; decide
      · rw [List.mem_singleton.1 hc]; decide
    · exact hd _ h2 c hc
  · rcases h3 with ⟨rfl, _⟩ | ⟨t, rfl, ht⟩
    · cases hc
    · rcases List.mem_cons.1 hc with rfl | hc
      · decide
      · exact hd _ ht.2 c hc

theorem part_chars {p : Part} (h : p.Valid) : ∀ c ∈ p.text, partChar c = true := by
  cases p with
  | decimal s => exact decimal_chars h
  | dms d =>
    obtain ⟨h1, h2, h3, h4⟩ := h
    intro c hc
    have hdot : partChar '.' = true := by decide
    have hd : ∀ l : Str, IsDigits l → c ∈ l → partChar c = true := fun l h hc => by
      simp [partChar, h.2 c hc]
    simp only [Part.text, DmsText.text, List.mem_cons, List.mem_append] at hc
    rcases hc with rfl | hc | rfl | hc | rfl | hc
    · clear h2 h3 h4 hd
      have : ∀ c ∈ c!"NSWEnswe", partChar c = true := by decide
      exact this _ h1
    · exact hd _ h2 hc
    · exact hdot
    · exact hd _ h3 hc
    · exact hdot
    · exact decimal_chars h4 c hc

/-- The first character of a kind is where it is. -/
theorem first_unique {p : Char → Bool} : ∀ {a b : Str} {c d : Char} {x y : Str}, a ++ c :: x = b ++ d :: y → p c = true → p d = true →
    (∀ e ∈ a, p e = false) → (∀ e ∈ b, p e = false) → a = b ∧ c = d
  | [], [], _, _, _, _, e, _, _, _, _ => ⟨rfl, (List.cons.inj e).1⟩
  | [], g :: b, c, d, x, y, e, hc, _, _, hb => by
    have : c = g := (List.cons.inj e).1
    rw [this, hb g List.mem_cons_self] at hc
    cases hc
  | g :: a, [], c, d, x, y, e, _, hd, ha, _ => by
    have : g = d := (List.cons.inj e).1
    rw [← this, ha g List.mem_cons_self] at hd
    cases hd
  | g :: a, k :: b, c, d, x, y, e, hc, hd, ha, hb => by
    simp only [List.cons_append, List.cons.injEq] at e
    obtain ⟨h1, h2⟩ := first_unique e.2 hc hd (fun e he => ha e (List.mem_cons_of_mem _ he)) fun e he => hb e (List.mem_cons_of_mem _ he)
    exact ⟨by rw [e.1, h1], h2⟩

/-- A name that does not look like degrees is not the start of a position. -/
theorem fails_coord {name r : Str} (h : IsName name) (hn : ∀ p : Part, p.Valid → p.text ≠ name) (hr : Stop isColon name r) :
    Fails skip coordinate .nonAtomic (name ++ r) := by
  refine fails_rule (fails_of_not_out good.ok (by rfl) ?_)
  rintro s r' ts e ⟨s1, m, s2, t1, t2, rfl, hg, h1, ⟨s3, m2, s4, t3, t4, rfl, _, ⟨rfl, rfl⟩, _, _⟩, _⟩
  obtain ⟨p, hp, rfl, _⟩ := coordPart_token h1
  have hm : m = [] := by
    have hg : K m (c!":" ++ m2 ++ s4 ++ r') := hg
    rcases (k_cases hg).2 with h | ⟨_, h⟩
    · exact h
    · have := over_not (p := isColon) (by decide) h ':' rfl
      exact absurd this (by decide)
  subst hm
  have e : name ++ r = p.text ++ ':' :: (m2 ++ s4 ++ r') := by simpa using e
  let q : Char → Bool := fun c => c == ':' || isNewlineChar c
  have hq : ∀ e ∈ p.text, q e = false := fun c hc => by
    have := part_chars hp c hc
    cases hqc : q c with
    | false => rfl
    | true =>
      exfalso
      simp only [q, Bool.or_eq_true, beq_iff_eq] at hqc
      rcases hqc with rfl | hqc
      · exact absurd this (by decide)
      · rcases newline_iff.1 hqc with rfl | rfl <;> exact absurd this (by decide)
  have hname : ∀ e ∈ name, q e = false := fun c hc => by
    simp [q, (h.1 c hc).1, not_newline_iff.2 (h.1 c hc).2]
  rcases hr with ⟨c, t, rfl, hc, _⟩ | ⟨_, rfl | ⟨sp, c, t, rfl, h2, h3⟩⟩
  · have hc : c = ':' := by simpa using hc
    subst hc
    exact hn p hp (first_unique (p := q) e rfl rfl hname hq).1.symm
  · rw [List.append_nil] at e
    have : q ':' = false := hname ':' (by rw [e]; simp)
    exact absurd this (by decide)
  · have e' : (name ++ sp) ++ c :: t = p.text ++ ':' :: (m2 ++ s4 ++ r') := by simpa using e
    have hsp : ∀ e ∈ name ++ sp, q e = false := fun d hd => by
      rcases List.mem_append.1 hd with hd | hd
      · exact hname d hd
      · rcases blankChar_iff.1 (h2 d hd) with rfl | rfl <;> decide
    have := (first_unique (p := q) e' (by simp [q, h3]) rfl hsp hq).2
    subst this
    exact absurd h3 (by decide)

def locTree : Location → Tr
  | .fix name => text name
  | .coordinate lat lng => coordTree lat lng

/-- What may follow a position. -/
def LocEnd : Location → Str → Prop
  | .fix name => Stop isColon name
  | .coordinate _ _ => NumEnd

theorem seg_loc {l : Location} (h : l.Valid) : S (LocEnd l) (coordinate ∥ colon_delimited_text) l.text [locTree l] := by
  cases l with
  | fix name => exact seg_alt_right (fun r hr => fails_coord h.1 h.2 hr) (seg_name h.1)
  | coordinate lat lng => exact seg_alt_left (seg_coord h.1 h.2)

theorem locEnd_colon {l : Location} (r : Str) (h : Colon r) : LocEnd l r := by
  cases l with
  | fix name => exact stop_colon (by decide) r h
  | coordinate lat lng => exact colon_num r h

theorem seg_locC {l : Location} (h : l.Valid) : S Colon (coordinate ∥ colon_delimited_text) l.text [locTree l] :=
  seg_mono (seg_loc h) locEnd_colon

/-! ## Lists -/

def namesTree (l : List Str) : Tr := .node .names (joined l) (l.map item)

theorem sep_k {v r : Str} (h : Stop isColon v r) : K [] r ∧ HeadNot (· == ',') r := by
  rcases h with ⟨c, t, rfl, h1, h2⟩ | ⟨_, h2⟩
  · have : c = ':' := by simpa using h1
    subst this
    exact ⟨k_colon _, headNot_cons.2 (by decide)⟩
  · exact ⟨k_nil (starts_over h2), over_not (by decide) h2⟩

theorem joined_last : ∀ (a : Str) (l : List Str), ∃ p v, (a :: l).getLast? = some v ∧ joined (a :: l) = p ++ v
  | a, [] => ⟨[], a, rfl, by simp [joined]⟩
  | a, b :: l => by
    obtain ⟨p, v, h1, h2⟩ := joined_last b l
    refine ⟨a ++ ',' :: p, v, by rw [List.getLast?_cons_cons]; exact h1, ?_⟩
    simp only [joined, List.flatMap_cons] at h2 ⊢
    rw [List.append_assoc, List.cons_append, List.cons_append, h2]

theorem seg_names {l : List Str} (h : AreItems l) : S (Stop isColon (joined l)) names (joined l) [namesTree l] := by
  obtain ⟨hne, h⟩ := h
  cases l with
  | nil => exact absurd rfl hne
  | cons a l =>
    refine seg_rule ?_
    have e : a :: l = (a :: l).map id := by simp
    rw [show joined (a :: l) = joined ((a :: l).map id) by simp]
    refine seg_joined (C0 := fun r => ∃ t, r = ',' :: t) rfl (fun t => ⟨t, rfl⟩) (txt := id) (tok := item) ?_ ?_ fun r hr => sep_k hr
    · intro v hv
      refine seg_mono (seg_item (h v hv)) ?_
      rintro r ⟨t, rfl⟩
      exact Or.inl ⟨_, _, rfl, by decide, by decide⟩
    · intro v hv
      obtain ⟨p, v', h1, h2⟩ := joined_last a l
      rw [h1] at hv
      cases hv
      refine seg_mono (seg_item (h v (List.mem_of_getLast? h1))) ?_
      rw [← e]
      rintro r (⟨c, t, rfl, h3, h4⟩ | ⟨h3, h4⟩)
      · have : c = ':' := by simpa using h3
        subst this
        exact Or.inl ⟨_, _, rfl, by decide, h4⟩
      · exact Or.inr ⟨noTrail_suffix (h2 ▸ h3), h4⟩

def choiceTree : Option (List Str) → Tr
  | none => .node .wildcard c!"*" []
  | some l => namesTree l

/-- What may follow a list or `*`. -/
def ChoiceEnd : Option (List Str) → Str → Prop
  | none => fun _ => True
  | some l => Stop isColon (joined l)

theorem seg_choice {x : Option (List Str)} (h : IsChoice x) : S (ChoiceEnd x) (wildcard ∥ names) (choice x) [choiceTree x] := by
  cases x with
  | none => exact seg_alt_left (seg_rule (seg_str (by decide)))
  | some l =>
    refine seg_alt_right (fun r hr => fails_rule (fails_str.2 ?_)) (seg_names h.1)
    show ¬ c!"*" <+: joined l ++ r
    have h2 := h.2
    revert h2
    cases joined l with
    | nil =>
      intro _ hp
      obtain ⟨t, e⟩ := hp
      rcases hr with ⟨c, u, rfl, hc, _⟩ | ⟨_, ho⟩
      · cases e; exact absurd hc (by decide)
      · exact absurd (over_not (p := (· == '*')) (by decide) ho '*' (by rw [← List.nil_append r, ← e]; rfl)) (by decide)
    | cons c t =>
      intro h2 hp
      rw [List.cons_append, List.cons_prefix_cons] at hp
      exact h2 (by rw [hp.1]; rfl)

theorem choiceEnd_colon {x : Option (List Str)} (r : Str) (h : Colon r) : ChoiceEnd x r := by
  cases x with
  | none => trivial
  | some l => exact stop_colon (by decide) r h

theorem seg_choiceC {x : Option (List Str)} (h : IsChoice x) : S Colon (wildcard ∥ names) (choice x) [choiceTree x] :=
  seg_mono (seg_choice h) choiceEnd_colon

/-! ## Runways -/

theorem upper_visible {c : Char} (h : isAsciiUpper c = true) : visible c = true := by
  have h7 : isNewlineChar c = false := by
    cases hn : isNewlineChar c with
    | false => rfl
    | true => rcases newline_iff.1 hn with rfl | rfl <;> exact absurd h (by decide)
  have h6 : isSpTab c = false := by
    cases hn : isSpTab c with
    | false => rfl
    | true => rcases blankChar_iff.1 hn with rfl | rfl <;> exact absurd h (by decide)
  have h5 : c ≠ '/' := by rintro rfl; exact absurd h (by decide)
  have h4 : c ≠ ';' := by rintro rfl; exact absurd h (by decide)
  unfold visible
  rw [h7, h6]
  simp [h5, h4]

abbrev icaoTree (v : Str) : Tr := .node .icao v []

theorem seg_cls {C : Str → Prop} {p : Char → Bool} {c : Char} (h : p c = true) (hv : visible c = true) : S C (.cls p) [c] [] :=
  fun _ _ => ⟨⟨c, rfl, h, rfl⟩, k_cons hv⟩

theorem seg_icao {C : Str → Prop} {v : Str} (h : IsIcao v) : S C icao v [icaoTree v] := by
  obtain ⟨hl, h⟩ := h
  match v, hl, h with
  | [a, b, c, d], _, h =>
    have hx : ∀ C : Str → Prop, ∀ e ∈ [a, b, c, d], S C (.cls isAsciiUpper) [e] [] := fun C e he =>
      seg_cls (h e he) (upper_visible (h e he))
    exact seg_rule (seg_seq (v := [a]) (w := [b, c, d]) (u1 := []) (u2 := []) (hx (fun _ => True) a (by simp)) (seg_seq (v := [b]) (w := [c, d]) (u1 := []) (u2 := [])
      (hx (fun _ => True) b (by simp)) (seg_seq (v := [c]) (w := [d]) (u1 := []) (u2 := []) (hx (fun _ => True) c (by simp)) (hx C d (by simp))
        fun _ _ => trivial) fun _ _ => trivial) fun _ _ => trivial)

/-- What may follow a runway. -/
def RunwayEnd (r : Str) : Prop := HeadNot (fun c => decide (c ∈ c!"LCRG")) r

theorem out_suffix {a : Atom} {t r : Str} (ht : t = [] ∧ RunwayEnd r ∨ ∃ c ∈ c!"LCRG", t = [c]) :
    Out skip K (.opt ((.str c!"L") ∥ (.str c!"C") ∥ (.str c!"R") ∥ (.str c!"G"))) a t r [] := by
  have hl : LikeCls skip K ((.str c!"L") ∥ (.str c!"C") ∥ (.str c!"R") ∥ (.str c!"G")) a _ :=
    (likeCls_char 'L' _).alt ((likeCls_char 'C' _).alt ((likeCls_char 'R' _).alt (likeCls_char 'G' _) (hu _ rfl)) (hu _ rfl)) (hu _ rfl)
  rcases ht with ⟨rfl, h⟩ | ⟨c, hc, rfl⟩
  · refine Or.inr ⟨rfl, rfl, (hl.fails _).2 ?_⟩
    intro c hc
    have := h c hc
    simpa using this
  · refine Or.inl ((hl.out _ _ _).2 ⟨c, rfl, ?_, rfl⟩)
    simpa using hc

theorem seg_designator {v : Str} (h : IsRunway v) : S RunwayEnd runway_designator v [.node .runway_designator v []] := by
  obtain ⟨x, y, t, rfl, hx, hy, ht⟩ := h
  refine seg_atomic (fun r hr => ?_) fun r _ => k_cons (digit_visible hx)
  refine (out_seq_atomic (by decide)).2 ⟨[x, y], t, [], [], rfl, rfl, ?_, out_suffix ?_⟩
  · exact (out_seq_atomic (by decide)).2 ⟨[x], [y], [], [], rfl, rfl, ⟨x, rfl, hx, rfl⟩, ⟨y, rfl, hy, rfl⟩⟩
  · rcases ht with rfl | h
    · exact Or.inl ⟨rfl, hr⟩
    · exact Or.inr h

def runwayTree (x : RunwayIdentifier) : Tr :=
  .node .runway (runwayText x) [icaoTree x.icao, .node .runway_designator x.designator []]

theorem seg_runway {x : RunwayIdentifier} (h : IsRunwayId x) : S RunwayEnd runway (runwayText x) [runwayTree x] :=
  seg_rule (seg_seq (seg_icao (C := fun _ => True) h.1) (seg_designator h.2) fun _ _ => trivial)

def runwaysTree (l : List RunwayIdentifier) : Tr := .node .runways (joined (l.map runwayText)) (l.map runwayTree)

def runwayChoiceTree : Option (List RunwayIdentifier) → Tr
  | none => .node .wildcard c!"*" []
  | some l => runwaysTree l

/-- What may follow a list of runways. -/
def RunwaysEnd (r : Str) : Prop := EndTail r ∨ Colon r

theorem runwaysEnd_num (r : Str) (h : RunwaysEnd r) : RunwayEnd r := by
  rcases h with h | ⟨t, rfl⟩
  · exact endTail_not (by decide) h
  · exact headNot_cons.2 (by decide)

end Verif.Proofs.Topsky
