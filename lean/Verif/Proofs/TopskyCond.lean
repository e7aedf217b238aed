import Verif.Proofs.TopskyParts
/-!
# Conditions in TopSky map files
-/

namespace Verif.Proofs.Topsky
open Verif.Peg Verif.Peg.Topsky Verif.Spec Verif.Spec.Topsky
open Verif.Spec.Ese (DmsText IsRunway)
open Verif.Parse.Topsky (RunwayIdentifier ActiveMapOperator parseRunways parseActive parseRunwayIdentifier nextStr)

/-! ## The end of a line -/

/-- At the end of a line, possibly in front of a comment, `x` matches `v` with tokens satisfying `U`.  Names
(`n`) do not end with blanks and no comment follows. -/
def Last (x : Expr Rule) (n : Bool) (v : Str) (U : List Tr → Prop) : Prop :=
  ∀ cm R, K cm R → LineOver R → (n = true → cm = [] ∧ NoTrail v) → ∃ u, U u ∧ P x (v ++ cm) R u

variable {x y : Expr Rule} {n : Bool} {v t : Str} {U V : List Tr → Prop} {u u1 : List Tr} {C : Str → Prop}

theorem last_mono (h : Last x n v U) (hv : ∀ u, U u → V u) : Last x n v V := fun cm R k o hn => by
  obtain ⟨u, h1, h2⟩ := h cm R k o hn
  exact ⟨u, hv u h1, h2⟩

theorem last_plain (h : S C x v u) (hc : ∀ r, EndTail r → C r) : Last x n v (· = u) := fun cm R k o _ => by
  obtain ⟨h1, h2⟩ := h (cm ++ R) (hc _ ⟨cm, R, rfl, k, o⟩)
  exact ⟨u, rfl, blk_gap h1 k, by simpa using h2⟩

theorem last_named (h : S C x v u) (hc : ∀ r, NoTrail v ∧ LineOver r → C r) : Last x true v (· = u) := fun cm R k o hn => by
  obtain ⟨rfl, ht⟩ := hn rfl
  have := pb_of_seg h (hc R ⟨ht, o⟩) k
  exact ⟨u, rfl, by simpa using this⟩

theorem last_name (h : IsName v) : Last colon_delimited_text true v (· = [text v]) := last_named (seg_name h) stop_over

theorem trail_of {a b cm : Str} (hn : n = true → cm = [] ∧ NoTrail (a ++ b)) : n = true → cm = [] ∧ NoTrail b := fun h =>
  ⟨(hn h).1, noTrail_suffix (hn h).2⟩

theorem last_key {w : Str} (hw : visibleHead w = true) (h : Last y n t U) : Last ((.str w) ⬝ y) n (w ++ t) U :=
  fun cm R k o hn => by
    obtain ⟨u, h1, h2⟩ := h cm R k o (trail_of hn)
    have := pb_key (w := w) (fun r => k_head hw) h2
    exact ⟨u, h1, by simpa using this⟩

theorem last_seg (h1 : S C x v u1) (hc : ∀ r, C (t ++ r)) (h2 : Last y n t U) :
    Last (x ⬝ y) n (v ++ t) (fun ts => ∃ u, U u ∧ ts = u1 ++ u) := fun cm R k o hn => by
  obtain ⟨u, hu, h3⟩ := h2 cm R k o (trail_of hn)
  refine ⟨_, ⟨u, hu, rfl⟩, ?_⟩
  have hk : K [] (t ++ (cm ++ R)) := by simpa using h3.2
  have := pb_seq (t2 := t ++ cm) (pb_of_seg h1 (hc (cm ++ R)) hk |> fun h => by simpa using h) h3.1
  simpa using this

theorem last_colon (h1 : S Colon x v u1) (h2 : Last y n t U) :
    Last (x ⬝ (.str c!":") ⬝ y) n (v ++ ':' :: t) (fun ts => ∃ u, U u ∧ ts = u1 ++ u) :=
  last_seg (t := ':' :: t) h1 (fun _ => ⟨_, rfl⟩) (last_key (w := c!":") (by decide) h2)

theorem last_rule {q : Rule} (h : Last x n v U) : Last (.rule q .normal x) n v (fun ts => ∃ s u, U u ∧ ts = [.node q s u]) :=
  fun cm R k o hn => by
    obtain ⟨u, hu, h1⟩ := h cm R k o hn
    obtain ⟨s, h2⟩ := pb_rule (q := q) h1
    exact ⟨_, ⟨s, u, hu, rfl⟩, h2⟩

/-- Parts that match nothing at the end of the line. -/
theorem last_then (h : Last x n v U) (hy : ∀ R, LineOver R → Blk skip K y [] R []) : Last (x ⬝ y) n v U :=
  fun cm R k o hn => by
    obtain ⟨u, hu, h1⟩ := h cm R k o hn
    have := pb_seq (t2 := []) (by simpa using h1) (hy R o)
    exact ⟨u, hu, by simpa using this⟩

theorem last_opt (h : Last x n v U) : Last (.opt x) n v U := fun cm R k o hn => by
  obtain ⟨u, hu, h1⟩ := h cm R k o hn
  exact ⟨u, hu, blk_opt_some h1.1, h1.2⟩

theorem last_alt_left (h : Last x n v U) : Last (x ∥ y) n v U := fun cm R k o hn => by
  obtain ⟨u, hu, h1⟩ := h cm R k o hn
  exact ⟨u, hu, pb_alt_left h1⟩

theorem last_alt_right' (hf : ∀ cm R, K cm R → LineOver R → (n = true → cm = [] ∧ NoTrail v) →
    Fails skip x .nonAtomic (v ++ (cm ++ R))) (h : Last y n v U) : Last (x ∥ y) n v U := fun cm R k o hn => by
  obtain ⟨u, hu, h1⟩ := h cm R k o hn
  exact ⟨u, hu, pb_alt_right (by simpa using hf cm R k o hn) h1⟩

theorem last_alt_right (hf : ∀ r, Fails skip x .nonAtomic (v ++ r)) (h : Last y n v U) : Last (x ∥ y) n v U :=
  last_alt_right' (fun _ _ _ _ _ => hf _) h

/-- An earlier alternative with another keyword. -/
theorem last_alt {w : Str} (hf : failsOn false x w = true) (h : Last y n (w ++ t) U) : Last (x ∥ y) n (w ++ t) U :=
  last_alt_right (fun r => by simpa using fails_on w (x := t ++ r) hf) h

theorem fails_over {c : Char} (hc : c ∉ c!" \t\n\r") {R : Str} (o : LineOver R) : Fails skip ((.str [c]) ⬝ y) .nonAtomic R := by
  refine fails_seq_left (((likeCls_char (K := K) c _).fails _).2 (over_not (fun d hd => ?_) o))
  cases h : d == c with
  | false => rfl
  | true => exact absurd (beq_iff_eq.1 h ▸ hd) hc

theorem opt_over {c : Char} (hc : c ∉ c!" \t\n\r") {R : Str} (o : LineOver R) : Blk skip K (.opt ((.str [c]) ⬝ y)) [] R [] :=
  blk_opt_none (fails_over hc o) (k_nil (starts_over o))

/-- A list with commas at the end of a line. -/
theorem last_joined (hx : plain x = true) {C0 : Str → Prop} {A : Type} {txt : A → Str} {tok : A → Tr}
    (hcomma : ∀ t, C0 (',' :: t)) {a : A} {l : List A}
    (h : ∀ v ∈ a :: l, S C0 x (txt v) [tok v]) (hlast : ∀ v ∈ a :: l, S EndTail x (txt v) [tok v]) :
    Last (x ⬝ (.star ((.str c!",") ⬝ x))) n (joined ((a :: l).map txt)) (· = (a :: l).map tok) := by
  intro cm R k o _
  refine ⟨_, rfl, ?_⟩
  have kr : K [] R := k_nil (starts_over o)
  have kc : ∀ t, K [] (',' :: t) := fun t => k_cons (by decide)
  have et : EndTail (cm ++ R) := ⟨cm, R, rfl, k, o⟩
  have key : ∀ l : List A, (∀ v ∈ l, S C0 x (txt v) [tok v]) → (∀ v ∈ l, S EndTail x (txt v) [tok v]) → l ≠ [] →
      ∃ bs, Blks skip K ((.str c!",") ⬝ x) bs R ∧ bs.flatMap (·.1) = (l.flatMap fun v => ',' :: txt v) ++ cm ∧
        bs.flatMap (·.2) = l.map tok := by
    intro l
    induction l with
    | nil => intro _ _ h; exact absurd rfl h
    | cons b l ih =>
      intro h1 h2 _
      cases l with
      | nil =>
        obtain ⟨o1, k1⟩ := h2 b List.mem_cons_self (cm ++ R) et
        refine ⟨[(',' :: (txt b ++ cm), [tok b])], ⟨?_, trivial⟩, by simp, by simp⟩
        exact blk_key (w := c!",") (by simpa using k1) (blk_gap o1 (by simpa using k))
      | cons d l =>
        obtain ⟨bs, b1, b2, b3⟩ := ih (fun v hv => h1 v (List.mem_cons_of_mem _ hv)) (fun v hv => h2 v (List.mem_cons_of_mem _ hv)) (by simp)
        refine ⟨(',' :: txt b, [tok b]) :: bs, ⟨?_, b1⟩, by simp [b2], by simp [b3]⟩
        show Blk skip K _ (',' :: txt b) (bs.flatMap (·.1) ++ R) _
        rw [b2]
        obtain ⟨o1, k1⟩ := h1 b List.mem_cons_self (',' :: (txt d ++ ((l.flatMap fun v => ',' :: txt v) ++ cm ++ R))) (hcomma _)
        exact blk_key (w := c!",") (by simpa using k1) (blk_of_out (by simpa using o1) (kc _))
  have hf : Fails skip ((.str c!",") ⬝ x) .nonAtomic R := fails_over (by decide) o
  cases l with
  | nil =>
    obtain ⟨o1, k1⟩ := hlast a List.mem_cons_self (cm ++ R) et
    have := pb_seq (x := x) (y := .star ((.str c!",") ⬝ x)) (t2 := []) (r := R) (u2 := []) ⟨blk_gap o1 k, by simpa using k1⟩
      (blk_star good.exact (hu _ (by simp [plain, hx])) (l := []) (r := R) trivial hf kr)
    simpa [joined] using this
  | cons b l =>
    obtain ⟨bs, b1, b2, b3⟩ := key (b :: l) (fun v hv => h v (List.mem_cons_of_mem _ hv)) (fun v hv => hlast v (List.mem_cons_of_mem _ hv)) (by simp)
    have b4 := blk_star good.exact (hu _ (by simp [plain, hx])) b1 hf kr
    rw [b2, b3] at b4
    obtain ⟨o1, k1⟩ := h a List.mem_cons_self (',' :: (txt b ++ ((l.flatMap fun v => ',' :: txt v) ++ cm ++ R))) (hcomma _)
    have := pb_seq (x := x) (t1 := txt a) (u1 := [tok a]) (u2 := (b :: l).map tok) (r := R)
      (t2 := ((b :: l).flatMap fun v => ',' :: txt v) ++ cm)
      ⟨blk_of_out (by simpa using o1) (kc _), by simpa using k1⟩ b4
    simpa [joined, List.flatMap_map] using this

/-! ## Runways -/

theorem seg_runwayChoiceC {x : Option (List RunwayIdentifier)} (h : IsRunwayChoice x) :
    S Colon (wildcard ∥ runways) (runwayChoice x) [runwayChoiceTree x] := by
  cases x with
  | none => exact seg_alt_left (seg_rule (seg_str (by decide)))
  | some l =>
    obtain ⟨hne, h⟩ := h
    cases l with
    | nil => exact absurd rfl hne
    | cons a l =>
      refine seg_alt_right (fun r hr => fails_rule (fails_str.2 ?_)) (seg_rule (seg_joined (C0 := RunwayEnd) rfl
        (fun t => headNot_cons.2 (by decide)) (fun v hv => seg_runway (h v hv))
        (fun v hv => seg_mono (seg_runway (h v (List.mem_of_getLast? hv))) ?_) ?_))
      · obtain ⟨⟨h1, h2⟩, _⟩ := h a List.mem_cons_self
        obtain ⟨c, t, e⟩ : ∃ c t, a.icao = c :: t := by
          cases hi : a.icao with
          | nil => rw [hi] at h1; cases h1
          | cons c t => exact ⟨c, t, rfl⟩
        simp only [runwayChoice, List.map_cons, joined, runwayText, e, List.cons_append, List.cons_prefix_cons]
        rintro ⟨rfl, _⟩
        exact absurd (h2 '*' (by simp [e])) (by decide)
      · rintro r ⟨t, rfl⟩
        exact headNot_cons.2 (by decide)
      · rintro r ⟨t, rfl⟩
        exact ⟨k_colon _, headNot_cons.2 (by decide)⟩

theorem read_runway (x : RunwayIdentifier) : parseRunwayIdentifier (runwayTree x) = .ok x := rfl

theorem mapM_ok {A B : Type} {f : A → Run B} {g : A → B} : ∀ {l : List A}, (∀ a ∈ l, f a = .ok (g a)) → l.mapM f = .ok (l.map g)
  | [], _ => rfl
  | a :: l, h => by
    rw [List.mapM_cons, h a List.mem_cons_self, mapM_ok fun b hb => h b (List.mem_cons_of_mem _ hb)]
    rfl

theorem read_runwayTrees (l : List RunwayIdentifier) : (l.map runwayTree).mapM parseRunwayIdentifier = .ok l := by
  have := mapM_of_map (f := parseRunwayIdentifier) (g := fun x => (.ok x : Run RunwayIdentifier)) (l := l.map runwayTree) (l' := l)
    (by simp [read_runway])
  rw [this, mapM_ok (f := fun x => (.ok x : Run RunwayIdentifier)) (g := fun x => x) fun a _ => rfl]
  simp

theorem read_runwayChoice (x : Option (List RunwayIdentifier)) : parseRunways (runwayChoiceTree x) = .ok x := by
  cases x with
  | none => rfl
  | some l =>
    show (List.mapM parseRunwayIdentifier (l.map runwayTree)).bind _ = _
    rw [read_runwayTrees]
    rfl

theorem last_runwayChoice {x : Option (List RunwayIdentifier)} (h : IsRunwayChoice x) :
    Last (wildcard ∥ runways) n (runwayChoice x) (fun ts => ∃ t, ts = [t] ∧ parseRunways t = .ok x) := by
  cases x with
  | none =>
    refine last_mono (last_alt_left (last_plain (C := fun _ => True) (seg_rule (seg_str (by decide))) fun _ _ => trivial)) ?_
    rintro u rfl
    exact ⟨_, rfl, rfl⟩
  | some l =>
    obtain ⟨hne, h⟩ := h
    cases l with
    | nil => exact absurd rfl hne
    | cons a l =>
      refine last_alt_right (fun r => fails_rule (fails_str.2 ?_)) (last_mono (last_rule (last_joined (C0 := RunwayEnd) rfl
        (fun t => headNot_cons.2 (by decide)) (fun v hv => seg_runway (h v hv))
        (fun v hv => seg_mono (seg_runway (h v hv)) fun r hr => endTail_not (by decide) hr))) ?_)
      · obtain ⟨⟨h1, h2⟩, _⟩ := h a List.mem_cons_self
        obtain ⟨c, t, e⟩ : ∃ c t, a.icao = c :: t := by
          cases hi : a.icao with
          | nil => rw [hi] at h1; cases h1
          | cons c t => exact ⟨c, t, rfl⟩
        simp only [runwayChoice, List.map_cons, joined, runwayText, e, List.cons_append, List.cons_prefix_cons]
        rintro ⟨rfl, _⟩
        exact absurd (h2 '*' (by simp [e])) (by decide)
      · rintro u ⟨s, u', rfl, rfl⟩
        refine ⟨_, rfl, ?_⟩
        show (List.mapM parseRunwayIdentifier ((a :: l).map runwayTree)).bind _ = _
        rw [read_runwayTrees]
        rfl

/-! ## Dates -/

theorem seg_two {C : Str → Prop} {a b : Char} (ha : isAsciiDigit a = true) (hb : isAsciiDigit b = true) :
    S C ((.cls isAsciiDigit) ⬝ (.cls isAsciiDigit)) [a, b] [] :=
  seg_seq (v := [a]) (w := [b]) (u1 := []) (u2 := []) (seg_cls (C := fun _ => True) ha (digit_visible ha)) (seg_cls hb (digit_visible hb))
    fun _ _ => trivial

theorem seg_four {q : Rule} {C : Str → Prop} {s : Str} (h : IsTime s) :
    S C (.rule q .normal (((.cls isAsciiDigit) ⬝ (.cls isAsciiDigit)) ⬝ ((.cls isAsciiDigit) ⬝ (.cls isAsciiDigit)))) s [.node q s []] := by
  obtain ⟨hl, h⟩ := h
  match s, hl, h with
  | [a, b, c, d], _, h =>
    exact seg_rule (seg_seq (v := [a, b]) (w := [c, d]) (u1 := []) (u2 := [])
      (seg_two (C := fun _ => True) (h a (by simp)) (h b (by simp))) (seg_two (h c (by simp)) (h d (by simp))) fun _ _ => trivial)

def dateTree (s : Str) : Tr := .node (if s.length = 4 then .md else .ymd) s []

theorem seg_date {s : Str} (h : IsDate s) : S Colon (ymd ∥ md) s [dateTree s] := by
  obtain ⟨hl, h⟩ := h
  match s, hl, h with
  | [a, b, c, d], _, h =>
    refine seg_alt_right ?_ (seg_four (q := .md) (s := [a, b, c, d]) ⟨rfl, h⟩)
    rintro r ⟨t, rfl⟩
    have h1 := seg_two (C := fun _ => True) (h a (by simp)) (h b (by simp))
    have h2 := seg_two (C := fun _ => True) (h c (by simp)) (h d (by simp))
    have b1 := (pb_of_seg h1 (r := c :: d :: ':' :: t) trivial (k_cons (digit_visible (h c (by simp))))).1
    have b2 := (pb_of_seg h2 (r := ':' :: t) trivial (k_colon _)).1
    refine fails_rule (fails_seq_right (t := [a, b]) (r := c :: d :: ':' :: t) good.uniform good.exact rfl rfl (hu _ rfl) b1
      (fails_seq_right (t := [c, d]) (r := ':' :: t) good.uniform good.exact rfl rfl (hu _ rfl) b2 ?_))
    exact fails_seq_left (fails_cls.2 (headNot_cons.2 (by decide)))
  | [a, b, c, d, e, f], _, h =>
    exact seg_alt_left (seg_rule (seg_seq (v := [a, b]) (w := [c, d, e, f]) (u1 := []) (u2 := [])
      (seg_two (C := fun _ => True) (h a (by simp)) (h b (by simp)))
      (seg_seq (v := [c, d]) (w := [e, f]) (u1 := []) (u2 := []) (seg_two (C := fun _ => True) (h c (by simp)) (h d (by simp)))
        (seg_two (h e (by simp)) (h f (by simp))) fun _ _ => trivial) fun _ _ => trivial))

theorem digits_starts {ds r : Str} (h : ∀ c ∈ ds, isAsciiDigit c = true) (hne : ds ≠ []) : K [] (ds ++ r) := by
  cases ds with
  | nil => exact absurd rfl hne
  | cons c t => exact k_cons (digit_visible (h c List.mem_cons_self))

/-- Digits, one by one. -/
theorem pb_digits {ds cm R : Str} (h : IsDigits ds) (k : K cm R) (hn : HeadNot isAsciiDigit R) :
    P (.plus (.cls isAsciiDigit)) (ds ++ cm) R [] := by
  obtain ⟨hne, h⟩ := h
  have key : ∀ ds : Str, ds ≠ [] → (∀ c ∈ ds, isAsciiDigit c = true) →
      ∃ bs, Blks skip K (.cls isAsciiDigit) bs R ∧ bs ≠ [] ∧ bs.flatMap (·.1) = ds ++ cm ∧ bs.flatMap (·.2) = [] := by
    intro ds
    induction ds with
    | nil => intro h; exact absurd rfl h
    | cons c t ih =>
      intro _ h
      have hc := h c List.mem_cons_self
      cases t with
      | nil => exact ⟨[([c] ++ cm, [])], ⟨blk_gap ⟨c, rfl, hc, rfl⟩ k, trivial⟩, by simp, by simp, by simp⟩
      | cons d t =>
        obtain ⟨bs, b1, _, b2, b3⟩ := ih (by simp) fun e he => h e (List.mem_cons_of_mem _ he)
        refine ⟨([c], []) :: bs, ⟨?_, b1⟩, by simp, by simp [b2], by simp [b3]⟩
        show Blk skip K _ [c] (bs.flatMap (·.1) ++ R) _
        rw [b2]
        exact blk_of_out ⟨c, rfl, hc, rfl⟩ (k_cons (digit_visible (h d (by simp))))
  obtain ⟨bs, b1, b2, b3, b4⟩ := key ds hne h
  have := blk_plus good.exact (hu _ rfl) knil b2 b1 (fails_cls.2 hn)
  rw [b3, b4] at this
  exact ⟨this, by simpa using digits_starts (r := cm ++ R) h hne⟩

/-! ## Conditions -/

theorem strings_items (l : List Str) : Parse.Topsky.strings (l.map item) = l := by
  have : Tree.asStr ∘ item = id := rfl
  simp [Parse.Topsky.strings, this]

theorem read_choice (x : Option (List Str)) : Parse.Topsky.parseNames (choiceTree x) = .ok x := by
  cases x with
  | none => rfl
  | some l =>
    show Except.ok (some (Parse.Topsky.strings (l.map item))) = _
    rw [strings_items]

theorem last_choice {x : Option (List Str)} (h : IsChoice x) : Last (wildcard ∥ names) x.isSome (choice x) (· = [choiceTree x]) := by
  cases x with
  | none => exact last_plain (seg_choice h) fun _ _ => trivial
  | some l => exact last_named (seg_choice h) stop_over

theorem last_names {l : List Str} (h : AreItems l) : Last names true (joined l) (· = [namesTree l]) :=
  last_named (seg_names h) stop_over

theorem seg_namesC {l : List Str} (h : AreItems l) : S Colon names (joined l) [namesTree l] :=
  seg_mono (seg_names h) (stop_colon (by decide))

theorem last_four {q : Rule} (h : IsTime t) :
    Last (.rule q .normal (((.cls isAsciiDigit) ⬝ (.cls isAsciiDigit)) ⬝ ((.cls isAsciiDigit) ⬝ (.cls isAsciiDigit)))) n t (· = [.node q t []]) :=
  last_plain (C := fun _ => True) (seg_four h) fun _ _ => trivial

/-- A token of the given kind. -/
def Is (q : Rule) (p : List Tr → Prop) (ts : List Tr) : Prop := ∃ s u, p u ∧ ts = [.node q s u]

theorem last_sched {a b d e f : Str} (h1 : IsDate a) (h2 : IsDate b) (h3 : IsDigits d) (h4 : IsTime e) (h5 : IsTime f) :
    Last active_sched n (Cond.schedule a b d e f).text (Is .active_sched fun _ => True) := by
  have b5 : Last (hm ⬝ (.str c!":") ⬝ hm) n (e ++ ':' :: f) _ := last_colon (seg_four h4) (last_four h5)
  have b4 : Last ((.plus (.cls isAsciiDigit)) ⬝ (.str c!":") ⬝ hm ⬝ (.str c!":") ⬝ hm) n (d ++ ':' :: (e ++ ':' :: f)) (fun _ => True) := by
    intro cm R k o hn
    obtain ⟨u, _, p⟩ := last_key (w := c!":") (by decide) b5 cm R k o (trail_of hn)
    have := pb_seq (pb_digits (cm := []) (R := ':' :: (e ++ ':' :: f) ++ cm ++ R) h3 (k_colon _) (headNot_cons.2 (by decide))
      |> fun h => by simpa using h) p.1
    exact ⟨_, trivial, by simpa using this⟩
  exact last_mono (last_rule (last_colon (seg_date h1) (last_colon (seg_date h2) b4))) fun u ⟨s, u', _, e⟩ => ⟨s, u', trivial, e⟩

/-- A setting with a condition. -/
def ReadAs (c : Cond) (ts : List Tr) : Prop := ∃ t, ts = [t] ∧ ∀ q s, parseActive (.node q s [t]) = .ok c.value

theorem digit_only {p : Char → Prop} (h : ∀ c ∈ c!"0123456789", p c) {c : Char} (hc : isAsciiDigit c = true) : p c := by
  refine h c ?_
  simp only [isAsciiDigit, inRange, Bool.and_eq_true, decide_eq_true_eq] at hc
  obtain ⟨h1, h2⟩ := hc
  have h1 : 48 ≤ c.toNat := h1
  have h2 : c.toNat ≤ 57 := h2
  have : c = Char.ofNat c.toNat := (Char.ofNat_toNat c).symm
  have hh : c.toNat = 48 ∨ c.toNat = 49 ∨ c.toNat = 50 ∨ c.toNat = 51 ∨ c.toNat = 52 ∨ c.toNat = 53 ∨ c.toNat = 54 ∨
    c.toNat = 55 ∨ c.toNat = 56 ∨ c.toNat = 57 := by omega
  rcases hh with e | e | e | e | e | e | e | e | e | e <;> rw [e] at this <;> rw [this] <;> decide

theorem last_cond {c : Cond} (h : c.Valid) : Last active_options c.named c.text (ReadAs c) := by
  cases c with
  | always =>
    refine last_mono (last_alt_right' ?_ (last_alt (w := c!"1") (t := []) (by decide) (last_alt (w := c!"1") (t := []) (by decide)
      (last_alt (w := c!"1") (t := []) (by decide) (last_alt (w := c!"1") (t := []) (by decide) (last_alt (w := c!"1") (t := []) (by decide)
      (last_alt (w := c!"1") (t := []) (by decide) (last_alt (w := c!"1") (t := []) (by decide) (last_alt (w := c!"1") (t := []) (by decide)
      (last_alt_left (last_plain (C := fun _ => True) (seg_rule (seg_str (w := c!"1") (by decide))) fun _ _ => trivial))))))))))) ?_
    · intro cm R k o _
      refine fails_rule (fails_seq_left ((fails_alt_iff (hu _ rfl)).2 ?_))
      have : Fails skip ((.cls isAsciiDigit) ⬝ (.cls isAsciiDigit)) .nonAtomic (c!"1" ++ (cm ++ R)) := by
        have := fails_seq_right (x := .cls isAsciiDigit) (y := .cls isAsciiDigit) (t := c!"1" ++ cm) (r := R) good.uniform good.exact
          rfl rfl (hu _ rfl) (blk_gap ⟨'1', rfl, by decide, rfl⟩ k) (fails_cls.2 (over_not (by decide) o))
        simpa using this
      exact ⟨fails_rule (fails_seq_left this), fails_rule (fails_seq_left this)⟩
    · rintro u rfl
      exact ⟨_, rfl, fun _ _ => rfl⟩
  | schedule a b d e f =>
    obtain ⟨h1, h2, h3, h4, h5⟩ := h
    refine last_mono (last_alt_left (last_sched h1 h2 h3 h4 h5)) ?_
    rintro u ⟨s, u', _, rfl⟩
    exact ⟨_, rfl, fun _ _ => rfl⟩
  | id a b c d =>
    obtain ⟨h1, h2, h3, h4⟩ := h
    refine last_mono (last_alt (by decide) (last_alt_left (last_rule (last_key (by decide) (last_colon (seg_choiceC h1)
      (last_colon (seg_choiceC h2) (last_colon (seg_choiceC h3) (last_choice h4)))))))) ?_
    rintro u ⟨s, _, ⟨_, ⟨_, ⟨_, rfl, rfl⟩, rfl⟩, rfl⟩, rfl⟩
    refine ⟨_, rfl, fun _ _ => ?_⟩
    show Except.bind (Except.bind (Except.bind (Parse.Topsky.parseNames (choiceTree a)) _) _) _ = _
    rw [read_choice]
    show Except.bind (Except.bind (Except.bind (Parse.Topsky.parseNames (choiceTree b)) _) _) _ = _
    rw [read_choice]
    show Except.bind (Except.bind (Except.bind (Parse.Topsky.parseNames (choiceTree c)) _) _) _ = _
    rw [read_choice]
    show Except.bind (Except.bind (Except.bind (Parse.Topsky.parseNames (choiceTree d)) _) _) _ = _
    rw [read_choice]
    rfl
  | callsign a b c d =>
    obtain ⟨h1, h2, h3, h4⟩ := h
    refine last_mono (last_alt (by decide) (last_alt (by decide) (last_alt (by decide) (last_alt (by decide) (last_alt (by decide) (last_alt (by decide)
      (last_alt_left (last_rule (last_key (by decide) (last_colon (seg_choiceC h1)
      (last_colon (seg_choiceC h2) (last_colon (seg_choiceC h3) (last_choice h4))))))))))))) ?_
    rintro u ⟨s, _, ⟨_, ⟨_, ⟨_, rfl, rfl⟩, rfl⟩, rfl⟩, rfl⟩
    refine ⟨_, rfl, fun _ _ => ?_⟩
    show Except.bind (Except.bind (Except.bind (Parse.Topsky.parseNames (choiceTree a)) _) _) _ = _
    rw [read_choice]
    show Except.bind (Except.bind (Except.bind (Parse.Topsky.parseNames (choiceTree b)) _) _) _ = _
    rw [read_choice]
    show Except.bind (Except.bind (Except.bind (Parse.Topsky.parseNames (choiceTree c)) _) _) _ = _
    rw [read_choice]
    show Except.bind (Except.bind (Except.bind (Parse.Topsky.parseNames (choiceTree d)) _) _) _ = _
    rw [read_choice]
    rfl
  | area l =>
    refine last_mono (last_alt (by decide) (last_alt (by decide) (last_alt (by decide) (last_alt (by decide)
      (last_alt_right' ?_ (last_alt_left (last_rule (last_key (by decide) (last_names h))))))))) ?_
    · intro cm R k o hn
      obtain ⟨rfl, ht⟩ := hn rfl
      have p := pb_of_seg (seg_names h) (stop_over R ⟨noTrail_suffix ht, o⟩) k
      have f := fails_seq_right (x := names) (y := (.str c!":") ⬝ names) good.uniform good.exact rfl (by decide) (hu _ rfl) p.1
        (fails_over (by decide) o)
      have := fails_seq_right (x := .str c!"AREA:") (t := c!"AREA:") good.uniform good.exact rfl rfl (hu _ rfl) (blk_of_out out_str0 p.2) f
      exact fails_rule (by simpa [Cond.text] using this)
    · rintro u ⟨s, _, rfl, rfl⟩
      refine ⟨_, rfl, fun _ _ => ?_⟩
      show Except.ok _ = _
      simp [strings_items, namesTree, Tree.inner, Cond.value]
  | areaExcept l ex =>
    refine last_mono (last_alt (by decide) (last_alt (by decide) (last_alt (by decide) (last_alt (by decide)
      (last_alt_left (last_rule (last_key (by decide) (last_colon (seg_namesC h.1) (last_names h.2))))))))) ?_
    rintro u ⟨s, _, ⟨_, rfl, rfl⟩, rfl⟩
    refine ⟨_, rfl, fun _ _ => ?_⟩
    show Except.ok _ = _
    simp [strings_items, namesTree, Tree.inner, Cond.value]
  | aup l =>
    refine last_mono (last_alt (by decide) (last_alt (by decide) (last_alt (by decide)
      (last_alt_left (last_rule (last_key (by decide) (last_names h))))))) ?_
    rintro u ⟨s, _, rfl, rfl⟩
    exact ⟨_, rfl, fun _ _ => rfl⟩
  | notam icao l =>
    refine last_mono (last_alt (by decide) (last_alt (by decide)
      (last_alt_left (last_rule (last_key (by decide) (last_colon (seg_icao h.1) (last_names h.2))))))) ?_
    rintro u ⟨s, _, ⟨_, rfl, rfl⟩, rfl⟩
    exact ⟨_, rfl, fun _ _ => rfl⟩
  | runway arr dep =>
    have dcolon : ∀ t r, Colon (c!":DEP:" ++ t ++ r) := fun t r => ⟨_, rfl⟩
    have key : Last ((wildcard ∥ runways) ⬝ (.str c!":DEP:") ⬝ (wildcard ∥ runways)) false
        (runwayChoice arr ++ (c!":DEP:" ++ runwayChoice dep)) _ :=
      last_seg (seg_runwayChoiceC h.1) (fun r => dcolon _ r) (last_key (w := c!":DEP:") (by decide) (last_runwayChoice h.2))
    refine last_mono (last_alt (by decide) (last_alt (by decide) (last_alt (by decide) (last_alt (by decide) (last_alt (by decide) (last_alt (by decide)
      (last_alt (by decide) (last_alt_right ?_ (last_alt_left (last_rule (last_key (by decide) key))))))))))) ?_
    · intro r
      have p := pb_of_seg (seg_runwayChoiceC h.1) (dcolon (runwayChoice dep) r) (k_cons (by decide))
      have f0 : Fails skip ((wildcard ∥ runways) ⬝ (.str c!":DEP:") ⬝ (wildcard ∥ runways) ⬝ (.str c!":") ⬝ (wildcard ∥ runways)) .nonAtomic
          (c!"DEP:" ++ (runwayChoice dep ++ r)) := fails_on _ (by decide)
      have f1 := fails_seq_right (x := .str c!":") (t := c!":") good.uniform good.exact rfl rfl (hu _ rfl)
        (blk_of_out out_str0 (k_cons (by decide))) f0
      have f2 := fails_seq_right (x := wildcard ∥ runways) good.uniform good.exact rfl (by decide) (hu _ rfl) p.1 (by simpa using f1)
      have := fails_seq_right (x := .str c!"RWY:ARR:") (t := c!"RWY:ARR:") good.uniform good.exact rfl rfl (hu _ rfl)
        (blk_of_out out_str0 p.2) f2
      exact fails_rule (by simpa [Cond.text] using this)
    · rintro u ⟨s, _, ⟨_, ⟨t, rfl, ht⟩, rfl⟩, rfl⟩
      refine ⟨_, rfl, fun _ _ => ?_⟩
      show Except.bind (Except.bind (Except.bind (parseRunways (runwayChoiceTree arr)) _) _) _ = _
      rw [read_runwayChoice]
      show Except.bind (Except.bind (Except.bind (parseRunways t) _) _) _ = _
      rw [ht]
      rfl
  | runwayExcept a b c d =>
    obtain ⟨h1, h2, h3, h4⟩ := h
    have key : Last ((wildcard ∥ runways) ⬝ (.str c!":DEP:") ⬝ (wildcard ∥ runways) ⬝ (.str c!":") ⬝ (wildcard ∥ runways)) false
        (runwayChoice b ++ (c!":DEP:" ++ (runwayChoice c ++ ':' :: runwayChoice d))) _ :=
      last_seg (seg_runwayChoiceC h2) (fun r => ⟨_, rfl⟩) (last_key (w := c!":DEP:") (by decide)
        (last_colon (seg_runwayChoiceC h3) (last_runwayChoice h4)))
    refine last_mono (last_alt (by decide) (last_alt (by decide) (last_alt (by decide) (last_alt (by decide) (last_alt (by decide) (last_alt (by decide)
      (last_alt (by decide) (last_alt_left (last_rule (last_key (by decide) (last_colon (seg_runwayChoiceC h1) key))))))))))) ?_
    rintro u ⟨s, _, ⟨_, ⟨_, ⟨_, ⟨t, rfl, ht⟩, rfl⟩, rfl⟩, rfl⟩, rfl⟩
    refine ⟨_, rfl, fun _ _ => ?_⟩
    show Except.bind (Except.bind (Except.bind (parseRunways (runwayChoiceTree a)) _) _) _ = _
    rw [read_runwayChoice]
    show Except.bind (Except.bind (Except.bind (parseRunways (runwayChoiceTree b)) _) _) _ = _
    rw [read_runwayChoice]
    show Except.bind (Except.bind (Except.bind (parseRunways (runwayChoiceTree c)) _) _) _ = _
    rw [read_runwayChoice]
    show Except.bind (Except.bind (Except.bind (parseRunways t) _) _) _ = _
    rw [ht]
    rfl
  | map op folder name =>
    have sop : S Colon active_map_operator (opText op) [.node .active_map_operator (opText op) []] := by
      cases op with
      | opposite => exact seg_rule (seg_alt_left (seg_str (by decide)))
      | same => exact seg_rule (seg_alt_right (fun r _ => fails_on c!"=" (x := r) (by decide)) (seg_str (by decide)))
    have key : Last (backslash_delimited_text ⬝ (.str ['\\']) ⬝ colon_delimited_text) true (folder ++ '\\' :: name) _ :=
      last_seg (t := '\\' :: name) (seg_path h.1) (fun r => Or.inl ⟨_, _, rfl, by decide, by decide⟩)
        (last_key (w := ['\\']) (by decide) (last_name h.2))
    refine last_mono (last_alt (by decide) (last_alt (by decide) (last_alt (by decide) (last_alt (by decide) (last_alt (by decide) (last_alt (by decide)
      (last_alt (by decide) (last_alt (by decide) (last_alt (by decide) (last_alt (by decide) (last_rule (last_key (by decide)
        (last_colon sop key))))))))))))) ?_
    rintro u ⟨s, _, ⟨_, ⟨_, rfl, rfl⟩, rfl⟩, rfl⟩
    refine ⟨_, rfl, fun _ _ => ?_⟩
    cases op <;> rfl

end Verif.Proofs.Topsky
