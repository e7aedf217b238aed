import Verif.Spec.SctWrite
/-!
# Names of drawings can be told from the line behind them
-/

namespace Verif.Proofs.SctWrite
open Verif.Spec Verif.Spec.Sct Verif.Spec.SctWrite
open Verif.Spec.Ese (DmsText)

/-- A text without a character ends in front of this character. -/
theorem split_at {w u v t : Str} {c : Char} (hw : c ∉ w) (e : w ++ u = v ++ c :: t) : ∃ r, v = w ++ r ∧ u = r ++ c :: t := by
  rcases List.append_eq_append_iff.1 e with ⟨r, h1, h2⟩ | ⟨r, h1, h2⟩
  · exact ⟨r, h1, h2⟩
  · cases r with
    | nil => exact ⟨[], by simpa using h1.symm, by simpa using h2.symm⟩
    | cons d r =>
      injection h2 with h3 _
      subst h3
      exact absurd (by rw [h1]; simp) hw

theorem last_not {v : Str} (hv : v ≠ []) (hl : ∀ c, v.getLast? = some c → ¬ IsBlank c) (hb : AreBlanks v) : False := by
  have h := List.getLast?_eq_some_getLast hv
  exact hl _ h (hb _ (List.getLast_mem hv))

/-- Blanks end where the other text starts. -/
theorem split_gap {g u v rest : Str} {h : Char} (hg : AreBlanks g) (hv : v ≠ [])
    (hl : ∀ c, v.getLast? = some c → ¬ IsBlank c) (e : g ++ h :: u = v ++ rest) : ∃ v', v' ≠ [] ∧ v = g ++ v' ∧ h :: u = v' ++ rest := by
  rcases List.append_eq_append_iff.1 e with ⟨r, h1, h2⟩ | ⟨r, h1, h2⟩
  · refine ⟨r, ?_, h1, h2⟩
    rintro rfl
    rw [List.append_nil] at h1
    subst h1
    exact last_not hv hl hg
  · exact (last_not hv hl fun c hc => hg c (by rw [h1]; exact List.mem_append_left _ hc)).elim

/-- The same blanks in front of other texts. -/
theorem same_gap {g g' u u' : Str} {h h' : Char} (hg : AreBlanks g) (hg' : AreBlanks g') (hh : ¬ IsBlank h) (hh' : ¬ IsBlank h')
    (e : g ++ h :: u = g' ++ h' :: u') : h :: u = h' :: u' := by
  rcases List.append_eq_append_iff.1 e with ⟨r, h1, h2⟩ | ⟨r, h1, h2⟩
  · cases r with
    | nil => exact h2
    | cons d r =>
      injection h2 with h3 _
      subst h3
      exact absurd (hg' h (by rw [h1]; simp)) hh
  · cases r with
    | nil => exact h2.symm
    | cons d r =>
      injection h2 with h3 _
      subst h3
      exact absurd (hg h' (by rw [h1]; simp)) hh'

theorem digit_not_blank {c : Char} (h : isAsciiDigit c = true) : ¬ IsBlank c := by
  rintro ((rfl | rfl) | rfl) <;> exact absurd h (by decide)

theorem upper_not_blank {c : Char} (h : isAsciiUpper c = true) : ¬ IsBlank c := by
  rintro ((rfl | rfl) | rfl) <;> exact absurd h (by decide)

theorem designator_solid {n : Str} (h : IsDesignator n) : ∀ c ∈ n, ¬ IsBlank c := fun c hc =>
  (h.2 c hc).elim upper_not_blank digit_not_blank

theorem designator_no_dot {n : Str} (h : IsDesignator n) : '.' ∉ n := fun hc => by
  rcases h.2 _ hc with h | h <;> exact absurd h (by decide)

theorem decimal_solid {s : Str} (h : IsDecimal s) : ∀ c ∈ s, ¬ IsBlank c := by
  obtain ⟨sg, ds, fs, rfl, h1, h2, h3⟩ := h
  intro c hc
  rcases List.mem_append.1 hc with hc | hc
  · rcases List.mem_append.1 hc with hc | hc
    · rcases h1 with rfl | rfl | rfl
      · cases hc
      · cases List.mem_singleton.1 hc; decide
      · cases List.mem_singleton.1 hc; decide
    · exact digit_not_blank (h2 c hc)
  · rcases h3 with ⟨rfl, _⟩ | ⟨d, rfl, h4⟩
    · cases hc
    · rcases List.mem_cons.1 hc with rfl | hc
      · decide
      · exact digit_not_blank (h4.2 c hc)

theorem hemi_not_blank {c : Char} (h : c ∈ c!"NSWEnswe") : ¬ IsBlank c := (by decide : ∀ c ∈ c!"NSWEnswe", ¬ IsBlank c) c h

theorem dms_solid {d : DmsText} (h : d.Valid) : ∀ c ∈ d.text, ¬ IsBlank c := by
  intro c hc
  simp only [DmsText.text, List.mem_cons, List.mem_append] at hc
  rcases hc with rfl | hc | rfl | hc | rfl | hc
  · exact hemi_not_blank h.1
  · exact digit_not_blank (h.2.1.2 c hc)
  · decide
  · exact digit_not_blank (h.2.2.1.2 c hc)
  · decide
  · exact decimal_solid h.2.2.2 c hc

/-- Text without blanks does not contain this blank. -/
theorem blank_not_mem {w : Str} {c : Char} (hw : ∀ d ∈ w, ¬ IsBlank d) (hc : IsBlank c) : c ∉ w := fun h => hw c h hc

theorem wordStart_gap (p : Str) {g : Str} (hg : IsGap g) : WordStart (p ++ g) := by
  refine Or.inr ⟨g.getLast hg.1, ?_, hg.2 _ (List.getLast_mem hg.1)⟩
  rw [List.getLast?_append, List.getLast?_eq_some_getLast hg.1]
  rfl

theorem last_append {p q : Str} (hq : q ≠ []) : (p ++ q).getLast? = q.getLast? := by
  rw [List.getLast?_append, List.getLast?_eq_some_getLast hq]
  rfl

/-! ## Words -/

/-- The words of a text; `w` is the start of the first one. -/
def wordsFrom (w : Str) : Str → List Str
  | [] => if w = [] then [] else [w]
  | c :: r => if IsBlank c then (if w = [] then [] else [w]) ++ wordsFrom [] r else wordsFrom (w ++ [c]) r

def words : Str → List Str := wordsFrom []

theorem wordsFrom_solid {u : Str} (hu : ∀ c ∈ u, ¬ IsBlank c) (w r : Str) : wordsFrom w (u ++ r) = wordsFrom (w ++ u) r := by
  induction u generalizing w with
  | nil => simp
  | cons c u ih =>
    rw [List.cons_append, wordsFrom, if_neg (hu c List.mem_cons_self), ih fun d hd => hu d (List.mem_cons_of_mem _ hd)]
    simp

theorem wordsFrom_blank {c : Char} (hc : IsBlank c) (w q r : Str) : wordsFrom w (q ++ c :: r) = wordsFrom w q ++ words r := by
  induction q generalizing w with
  | nil =>
    show wordsFrom w (c :: r) = (if w = [] then [] else [w]) ++ words r
    simp only [wordsFrom, if_pos hc, words]
  | cons d q ih =>
    rw [List.cons_append, wordsFrom, wordsFrom]
    split
    · rw [ih, List.append_assoc]
    · rw [ih]

theorem words_blanks {g : Str} (hg : AreBlanks g) (r : Str) : words (g ++ r) = words r := by
  induction g with
  | nil => rfl
  | cons c g ih =>
    rw [List.cons_append, words, wordsFrom, if_pos (hg c List.mem_cons_self), if_pos rfl, List.nil_append]
    exact ih fun d hd => hg d (List.mem_cons_of_mem _ hd)

theorem words_gap {g : Str} (hg : IsGap g) (q r : Str) : words (q ++ (g ++ r)) = words q ++ words r := by
  obtain ⟨c, g', rfl⟩ := List.exists_cons_of_ne_nil hg.1
  rw [List.cons_append, words, wordsFrom_blank (hg.2 c List.mem_cons_self), words_blanks fun d hd => hg.2 d (List.mem_cons_of_mem _ hd)]
  rfl

theorem words_word {u : Str} (hu : ∀ c ∈ u, ¬ IsBlank c) (hn : u ≠ []) : words u = [u] := by
  have := wordsFrom_solid hu [] []
  rw [List.append_nil, List.nil_append] at this
  rw [words, this, wordsFrom, if_neg hn]

theorem wordsFrom_ne {w q : Str} (h : w ≠ [] ∨ ∃ c ∈ q, ¬ IsBlank c) : wordsFrom w q ≠ [] := by
  induction q generalizing w with
  | nil =>
    rcases h with h | ⟨c, hc, _⟩
    · rw [wordsFrom, if_neg h]; simp
    · cases hc
  | cons d q ih =>
    rw [wordsFrom]
    split
    · next hd =>
      rcases h with h | ⟨c, hc, hb⟩
      · rw [if_neg h]; simp
      · rcases List.mem_cons.1 hc with rfl | hc
        · exact absurd hd hb
        · exact List.append_ne_nil_of_right_ne_nil _ (ih (Or.inr ⟨c, hc, hb⟩))
    · exact ih (Or.inl (by simp))

theorem words_ne {q : Str} (hq : q ≠ []) (hl : ∀ c, q.getLast? = some c → ¬ IsBlank c) : words q ≠ [] :=
  wordsFrom_ne (Or.inr ⟨_, List.getLast_mem hq, hl _ (List.getLast?_eq_some_getLast hq)⟩)

theorem dms_ne (d : DmsText) : d.text ≠ [] := by simp [DmsText.text]

/-- The words of a location. -/
def locWords : LocText → List Str
  | .coord c => [c.lat.text, c.lng.text]
  | .fix n _ => [n, n]

theorem words_loc {l : LocText} (h : l.Valid) : words l.text = locWords l := by
  cases l with
  | coord c =>
    show words (c.lat.text ++ (c.gap ++ c.lng.text)) = _
    rw [words_gap h.2.1, words_word (dms_solid h.1) (dms_ne _), words_word (dms_solid h.2.2) (dms_ne _)]
    rfl
  | fix n g =>
    show words (n ++ (g ++ n)) = _
    rw [words_gap h.2, words_word (designator_solid h.1) h.1.1]
    rfl

theorem colourName_solid {c : Str} (h : IsColourName c) : (∀ d ∈ c, ¬ IsBlank d) ∧ '.' ∉ c := by
  constructor
  · intro d hd
    have := h.2 d hd
    rintro ((rfl | rfl) | rfl) <;> revert this <;> decide
  · intro hd
    have := h.2 _ hd
    revert this
    decide

def colourWords : Option (Str × Str) → List Str
  | some (_, c) => [c]
  | none => []

theorem words_line {l : LineText} (h : l.Valid) : words l.text = locWords l.start ++ (locWords l.stop ++ colourWords l.colour) := by
  obtain ⟨h1, h2, h3, h4⟩ := h
  unfold LineText.text
  rw [words_gap h2, words_loc h1]
  congr 1
  cases hc : l.colour with
  | none =>
    show words (l.stop.text ++ []) = locWords l.stop ++ []
    rw [List.append_nil, List.append_nil, words_loc h3]
  | some p =>
    obtain ⟨g, c⟩ := p
    obtain ⟨hg, hcn⟩ := h4 g c hc
    show words (l.stop.text ++ (g ++ c)) = locWords l.stop ++ [c]
    rw [words_gap hg, words_loc h3, words_word (colourName_solid hcn).1 hcn.1]

theorem words_line_end (l : LineText) {sp : Str} (hs : ∀ d ∈ sp, IsBlankChar d) : words (l.text ++ sp) = words l.text := by
  cases sp with
  | nil => rw [List.append_nil]
  | cons c sp =>
    have hg : IsGap (c :: sp) := ⟨by simp, fun d hd => Or.inl (hs d hd)⟩
    have := words_gap hg l.text []
    rw [List.append_nil] at this
    rw [this]
    simp [words, wordsFrom]

section
variable {F : Type} {name : Str} {a b : Parse.Sct.Loc F} {G : Str} {l : LineText} {sp : Str}

/-- The text is that of a line from `a` to `b`. -/
structure Shows (a b : Parse.Sct.Loc F) (l : LineText) : Prop where
  start : ∀ m g, l.start = .fix m g → a = .fix m
  stop : ∀ m g, l.stop = .fix m g → b = .fix m
  coord : ∀ c, l.start = .coord c → ∃ p, a = .coordinate p

theorem name_whole (hA : ∀ m, a = .fix m → b = .fix m → ∀ p, WordStart p → name ≠ p ++ m) (hS : Shows a b l)
    (hl : ∀ c, name.getLast? = some c → ¬ IsBlank c) (hG : IsGap G) (hv : l.Valid) (hu : l.Uniform)
    (hs : ∀ d ∈ sp, IsBlankChar d) (p q : Str) (e : name = p ++ q) (hq : q ≠ []) : ¬ IsFirstLine (q ++ (G ++ (l.text ++ sp))) := by
  rintro ⟨g, k, sp', hg, hkv, hku, hsp', e1⟩
  have hl' : ∀ c, q.getLast? = some c → ¬ IsBlank c := by
    intro c hc
    apply hl
    rw [e, last_append hq]
    exact hc
  have hw := congrArg words e1
  have hgk := words_gap hg [] (k.text ++ sp')
  rw [List.nil_append] at hgk
  rw [words_gap hG, words_line_end l hs, hgk, words_line_end k hsp', words_line hv, words_line hkv] at hw
  have hwn : (words ([] : Str)) = [] := rfl
  rw [hwn, List.nil_append] at hw
  obtain ⟨w, ws, hws⟩ := List.exists_cons_of_ne_nil (words_ne hq hl')
  have two : ∀ x : LocText, ∃ s t, locWords x = [s, t] := fun x => by cases x <;> exact ⟨_, _, rfl⟩
  have col : ∀ o : Option (Str × Str), (colourWords o).length ≤ 1 := fun o => by cases o <;> simp [colourWords]
  -- there is one word in front of the line, and the line has no colour
  have hlen := congrArg List.length hw
  obtain ⟨s1, t1, h1⟩ := two l.start
  obtain ⟨s2, t2, h2⟩ := two l.stop
  obtain ⟨s3, t3, h3⟩ := two k.start
  obtain ⟨s4, t4, h4⟩ := two k.stop
  rw [hws, h1, h2, h3, h4] at hw hlen
  simp only [List.length_append, List.length_cons, List.length_nil] at hlen
  have c1 := col l.colour
  have c2 := col k.colour
  have hws0 : ws = [] := List.length_eq_zero_iff.1 (by omega)
  have hlc : colourWords l.colour = [] := List.length_eq_zero_iff.1 (by omega)
  have hkc : ∃ g c, k.colour = some (g, c) := by
    cases hk : k.colour with
    | none => rw [hk] at hlen; simp [colourWords] at hlen; omega
    | some p => exact ⟨p.1, p.2, rfl⟩
  obtain ⟨gc, c, hkc⟩ := hkc
  rw [hws0, hlc, hkc] at hw
  simp only [List.cons_append, List.nil_append, colourWords, List.cons.injEq, and_true] at hw
  obtain ⟨e3, e4, e5, e6, e7⟩ := hw
  have hcn := (hkv.2.2.2 gc c hkc).2
  cases hls : l.stop with
  | coord x =>
    rw [hls] at h2
    simp only [locWords, List.cons.injEq, and_true] at h2
    apply (colourName_solid hcn).2
    rw [← e7, ← h2.2]
    simp [DmsText.text]
  | fix n gn =>
    have hst : ∃ m gm, l.start = .fix m gm := by
      cases hst : l.start with
      | coord x => unfold LineText.Uniform at hu; rw [hst, hls] at hu; cases hu
      | fix m gm => exact ⟨m, gm, rfl⟩
    obtain ⟨m, gm, hst⟩ := hst
    rw [hst] at h1
    rw [hls] at h2
    simp only [locWords, List.cons.injEq, and_true] at h1 h2
    have hm : IsDesignator m := by have := hv.1; rw [hst] at this; exact this.1
    cases hks : k.start with
    | coord x =>
      rw [hks] at h3
      simp only [locWords, List.cons.injEq, and_true] at h3
      apply designator_no_dot hm
      rw [h1.1, e4, ← h3.2]
      simp [DmsText.text]
    | fix n' g' =>
      have hkst : ∃ m'' gm, k.stop = .fix m'' gm := by
        cases hst : k.stop with
        | coord x => unfold LineText.Uniform at hku; rw [hst, hks] at hku; cases hku
        | fix m gm => exact ⟨m, gm, rfl⟩
      obtain ⟨m'', gm'', hkst⟩ := hkst
      rw [hks] at h3
      rw [hkst] at h4
      simp only [locWords, List.cons.injEq, and_true] at h3 h4
      -- all words are the same
      have e8 : m = n' := by rw [h1.1, e4, ← h3.2]
      have e9 : n = m := by rw [h2.1, e6, ← h4.2, h4.1, ← e5, ← h1.2]
      subst e9
      subst e8
      have hn' := hm
      obtain ⟨y, n2, hny⟩ := List.exists_cons_of_ne_nil hn'.1
      have e2 : g ++ y :: (n2 ++ (g' ++ (n ++ (k.gap ++ (k.stop.text ++ (colourText k.colour ++ sp')))))) = q ++ (G ++ (l.text ++ sp)) := by
        rw [e1]
        simp [LineText.text, hks, LocText.text, hny]
      obtain ⟨q', hq', rfl, e10⟩ := split_gap hg.2 hq hl' e2
      have e11 : n ++ (g' ++ (n ++ (k.gap ++ (k.stop.text ++ (colourText k.colour ++ sp'))))) = q' ++ (G ++ (l.text ++ sp)) := by
        rw [← e10, hny]
        rfl
      have : ∃ r, q' = n ++ r ∧ g' ++ (n ++ (k.gap ++ (k.stop.text ++ (colourText k.colour ++ sp')))) = r ++ (G ++ (l.text ++ sp)) := by
        obtain ⟨x, G', rfl⟩ := List.exists_cons_of_ne_nil hG.1
        exact split_at (blank_not_mem (designator_solid hn') (hG.2 x List.mem_cons_self)) e11
      obtain ⟨r, rfl, e12⟩ := this
      cases r with
      | nil =>
        rw [List.append_nil] at e
        exact hA n (hS.start n gm hst) (hS.stop n gn hls) (p ++ g) (wordStart_gap p hg) (by rw [e, List.append_assoc])
      | cons x r =>
        -- there would be another word
        have hkvs : IsGap g' := by have := hkv.1; rw [hks] at this; exact this.2
        obtain ⟨z, g2, hgz⟩ := List.exists_cons_of_ne_nil hkvs.1
        have hx : IsBlank x := by
          rw [hgz] at e12
          injection e12 with e13 _
          rw [← e13]
          exact hkvs.2 z (by rw [hgz]; exact List.mem_cons_self)
        have hr : x :: r ≠ [] := by simp
        have hlr : ∀ c, (x :: r).getLast? = some c → ¬ IsBlank c := by
          intro c hc
          apply hl'
          rw [← List.append_assoc, last_append hr]
          exact hc
        have hwr : words (g ++ (n ++ x :: r)) = n :: words (x :: r) := by
          have h5 := words_blanks hg.2 (n ++ x :: r)
          rw [h5, words, wordsFrom_blank hx]
          have : wordsFrom [] n = [n] := words_word (designator_solid hn') hn'.1
          rw [this]
          have : words r = wordsFrom [] (x :: r) := (words_blanks (g := [x]) (fun c hc => by rw [List.mem_singleton.1 hc]; exact hx) r).symm
          rw [this]
          rfl
        rw [hwr, hws0] at hws
        injection hws with _ h6
        exact words_ne hr hlr h6
end

/-! ## The name is no line -/

section
variable {name : Str} {G : Str} {Z : Str}

theorem first_word {X : Str} (hG : IsGap G) {n Y q : Str} (hn : ∀ c ∈ n, ¬ IsBlank c) (e2 : n ++ Y = q ++ (G ++ X)) :
    ∃ r, q = n ++ r ∧ Y = r ++ (G ++ X) := by
  obtain ⟨x, G', rfl⟩ := List.exists_cons_of_ne_nil hG.1
  exact split_at (blank_not_mem hn (hG.2 x List.mem_cons_self)) e2

/-- Blanks and a word, in a text that ends in front of blanks: they are within the text, or the text ends in front of the blanks. -/
theorem next_word {X g u R r : Str} {y : Char} (hG : IsGap G) (hX : ∀ c, X.head? = some c → ¬ IsBlank c) (hX0 : X ≠ [])
    (hg : AreBlanks g) (hu : ∀ c ∈ y :: u, ¬ IsBlank c) (hl : ∀ c, r.getLast? = some c → ¬ IsBlank c)
    (e : g ++ ((y :: u) ++ R) = r ++ (G ++ X)) :
    (∃ r', r = g ++ ((y :: u) ++ r') ∧ R = r' ++ (G ++ X) ∧ ∀ c, r'.getLast? = some c → ¬ IsBlank c) ∨ r = [] ∧ g = G ∧ (y :: u) ++ R = X := by
  by_cases hr : r = []
  · right
    subst hr
    obtain ⟨x, X', rfl⟩ := List.exists_cons_of_ne_nil hX0
    have h1 := same_gap hg hG.2 (hu y List.mem_cons_self) (hX x rfl) e
    refine ⟨rfl, ?_, h1⟩
    have e : g ++ ((y :: u) ++ R) = G ++ (x :: X') := e
    have h1 : (y :: u) ++ R = x :: X' := h1
    rw [h1] at e
    exact List.append_cancel_right e
  · left
    obtain ⟨r1, hr1, rfl, e1⟩ := split_gap hg hr hl e
    obtain ⟨r2, rfl, e2⟩ := first_word (n := y :: u) hG hu e1
    refine ⟨r2, rfl, e2, fun c hc => hl c ?_⟩
    have hr2 : r2 ≠ [] := by rintro rfl; cases hc
    rw [last_append hr1, last_append hr2]
    exact hc

/-- A word at the start of another one with blanks behind it. -/
theorem word_prefix {u R m g t : Str} (hu : ∀ c ∈ u, ¬ IsBlank c) (hg : IsGap g) (e : u ++ R = m ++ (g ++ t)) : ∃ r, m = u ++ r ∧ R = r ++ (g ++ t) :=
  first_word hg hu e

/-- A word with blanks behind it is the whole word. -/
theorem word_whole {u g' R m g t : Str} (hu : ∀ c ∈ u, ¬ IsBlank c) (hm : ∀ c ∈ m, ¬ IsBlank c) (hg' : IsGap g') (hg : IsGap g)
    (e : u ++ (g' ++ R) = m ++ (g ++ t)) : m = u ∧ g' ++ R = g ++ t := by
  obtain ⟨r, rfl, e1⟩ := word_prefix hu hg e
  cases r with
  | nil => exact ⟨by simp, e1⟩
  | cons x r =>
    obtain ⟨y, g2, rfl⟩ := List.exists_cons_of_ne_nil hg'.1
    injection e1 with e2 _
    exact absurd (hg'.2 y List.mem_cons_self) (e2 ▸ hm x (by simp))

/-- An angle is no start of a designator. -/
theorem angle_not {d : DmsText} (hd : d.Valid) {R m g t : Str} (hm : '.' ∉ m) (hg : IsGap g) (e : d.text ++ R = m ++ (g ++ t)) : False := by
  obtain ⟨r, rfl, _⟩ := word_prefix (dms_solid hd) hg e
  exact hm (by simp [DmsText.text])

/-- Whether a name in front of fixes is taken for a line does not depend on the blanks between the fixes and on what follows. -/
theorem startsLine_fixes {m n g1 g2 z G' g1' g2' z' : Str} (hl : ∀ c, name.getLast? = some c → ¬ IsBlank c)
    (hm : IsDesignator m) (hn : IsDesignator n) (hG : IsGap G) (h1 : IsGap g1) (h2 : IsGap g2) (hz : z = [] ∨ IsGap (z.take 1)) (hG' : IsGap G')
    (h1' : IsGap g1') (h2' : IsGap g2') (h : StartsLine (name ++ (G ++ (m ++ (g1 ++ (m ++ (g2 ++ (n ++ z)))))))) :
    StartsLine (name ++ (G' ++ (m ++ (g1' ++ (m ++ (g2' ++ (n ++ z'))))))) := by
  obtain ⟨l1, l2, g, R, v1, hg, v2, e⟩ := h
  have hms := designator_solid hm
  have hmd := designator_no_dot hm
  have hX : ∀ c, (m ++ (g1 ++ (m ++ (g2 ++ (n ++ z))))).head? = some c → ¬ IsBlank c := by
    obtain ⟨y, m', rfl⟩ := List.exists_cons_of_ne_nil hm.1
    intro c hc
    cases hc
    exact hms _ List.mem_cons_self
  have hX0 : m ++ (g1 ++ (m ++ (g2 ++ (n ++ z)))) ≠ [] := by simp [hm.1]
  -- the words of a location
  have parts : ∀ l : LocText, l.Valid → ∃ u gp v, l.text = u ++ (gp ++ v) ∧ IsGap gp ∧ (∀ c ∈ u, ¬ IsBlank c) ∧ u ≠ [] ∧ (∀ c ∈ v, ¬ IsBlank c) ∧
      v ≠ [] ∧ (('.' ∈ u ∧ '.' ∈ v) ∨ u = v ∧ IsDesignator u ∧ ∀ gp', IsGap gp' → ∃ k : LocText, k.Valid ∧ k.text = u ++ (gp' ++ u)) := by
    intro l hv
    cases l with
    | coord c => exact ⟨c.lat.text, c.gap, c.lng.text, rfl, hv.2.1, dms_solid hv.1, dms_ne _, dms_solid hv.2.2, dms_ne _,
        Or.inl ⟨by simp [DmsText.text], by simp [DmsText.text]⟩⟩
    | fix k gp => exact ⟨k, gp, k, rfl, hv.2, designator_solid hv.1, hv.1.1, designator_solid hv.1, hv.1.1,
        Or.inr ⟨rfl, hv.1, fun gp' hg' => ⟨.fix k gp', ⟨hv.1, hg'⟩, rfl⟩⟩⟩
  obtain ⟨u1, gp1, u2, t1, hgp1, hu1, hn1, hu2, hn2, c1⟩ := parts l1 v1
  obtain ⟨u3, gp2, u4, t2, hgp2, hu3, hn3, hu4, hn4, c2⟩ := parts l2 v2
  obtain ⟨y2, w2, rfl⟩ := List.exists_cons_of_ne_nil hn2
  obtain ⟨y3, w3, rfl⟩ := List.exists_cons_of_ne_nil hn3
  obtain ⟨y4, w4, rfl⟩ := List.exists_cons_of_ne_nil hn4
  have e' : u1 ++ (gp1 ++ ((y2 :: w2) ++ (g ++ ((y3 :: w3) ++ (gp2 ++ ((y4 :: w4) ++ R)))))) =
      name ++ (G ++ (m ++ (g1 ++ (m ++ (g2 ++ (n ++ z)))))) := by
    rw [e, t1, t2]
    simp only [List.append_assoc]
  obtain ⟨r1, hname, e1⟩ := first_word hG hu1 e'
  have hl1 : ∀ c, r1.getLast? = some c → ¬ IsBlank c := by
    intro c hc
    apply hl
    have : r1 ≠ [] := by rintro rfl; cases hc
    rw [hname, last_append this]
    exact hc
  rcases next_word hG hX hX0 hgp1.2 hu2 hl1 e1 with ⟨r2, rfl, e2, hl2⟩ | ⟨rfl, _, e2⟩
  · rcases next_word hG hX hX0 hg hu3 hl2 e2 with ⟨r3, rfl, e3, hl3⟩ | ⟨rfl, _, e3⟩
    · rcases next_word hG hX hX0 hgp2.2 hu4 hl3 e3 with ⟨r4, rfl, e4, hl4⟩ | ⟨rfl, _, e4⟩
      · -- all words are within the name
        refine ⟨l1, l2, g, r4 ++ (G' ++ (m ++ (g1' ++ (m ++ (g2' ++ (n ++ z')))))), v1, hg, v2, ?_⟩
        rw [hname, t1, t2]
        simp only [List.append_assoc]
      · -- the last word is the start of a fix
        obtain ⟨r5, hr5, _⟩ := word_prefix hu4 h1 e4
        rcases c2 with ⟨_, hd⟩ | ⟨h34, _, hk⟩
        · exact absurd (by rw [hr5]; exact List.mem_append_left _ hd) hmd
        · obtain ⟨k, hkv, hkt⟩ := hk G' hG'
          refine ⟨l1, k, g, r5 ++ (g1' ++ (m ++ (g2' ++ (n ++ z')))), v1, hg, hkv, ?_⟩
          rw [hname, t1, hkt]
          have : m ++ (g1' ++ (m ++ (g2' ++ (n ++ z')))) = (y3 :: w3) ++ (r5 ++ (g1' ++ (m ++ (g2' ++ (n ++ z'))))) := by
            have h6 : m = (y3 :: w3) ++ r5 := by rw [h34]; exact hr5
            rw [← List.append_assoc (y3 :: w3), ← h6]
          rw [this]
          simp only [List.append_assoc, List.nil_append]
    · -- the last location is the first fix
      rcases c2 with ⟨hd, _⟩ | ⟨h34, _, hk⟩
      · obtain ⟨r5, hr5, _⟩ := word_prefix hu3 h1 e3
        exact absurd (by rw [hr5]; exact List.mem_append_left _ hd) hmd
      · obtain ⟨hm3, _⟩ := word_whole hu3 hms hgp2 h1 e3
        obtain ⟨k, hkv, hkt⟩ := hk g1' h1'
        refine ⟨l1, k, G', g2' ++ (n ++ z'), v1, hG'.2, hkv, ?_⟩
        rw [hname, t1, hkt, ← hm3]
        simp only [List.append_assoc, List.nil_append]
  · -- the name is a word
    rcases c1 with ⟨_, hd⟩ | ⟨h12, _, hk1⟩
    · obtain ⟨r5, hr5, _⟩ := word_prefix hu2 h1 e2
      exact absurd (by rw [hr5]; exact List.mem_append_left _ hd) hmd
    · obtain ⟨k1, hkv1, hkt1⟩ := hk1 G' hG'
      obtain ⟨m2, hm2, e3⟩ := word_prefix hu2 h1 e2
      rw [List.append_nil] at hname
      cases m2 with
      | nil =>
        rw [List.append_nil] at hm2
        have e4 := same_gap (h := y3) (u := w3 ++ (gp2 ++ ((y4 :: w4) ++ R))) (h' := y2) (u' := w2 ++ (g2 ++ (n ++ z))) hg h1.2
          (hu3 _ List.mem_cons_self) (hu2 _ List.mem_cons_self) (by
            rw [hm2] at e3
            simpa using e3)
        have e5 : (y3 :: w3) ++ (gp2 ++ ((y4 :: w4) ++ R)) = m ++ (g2 ++ (n ++ z)) := by
          rw [hm2]
          simpa using e4
        obtain ⟨hm3, e6⟩ := word_whole hu3 hms hgp2 h2 e5
        rcases c2 with ⟨hd, _⟩ | ⟨h34, _, hk2⟩
        · exact absurd (hm3 ▸ hd) hmd
        · have hn2 : ∃ n2, n = m ++ n2 := by
            obtain ⟨yn, n', hyn⟩ := List.exists_cons_of_ne_nil hn.1
            have e7 := same_gap (h := y4) (u := w4 ++ R) (h' := yn) (u' := n' ++ z) hgp2.2 h2.2 (hu4 _ List.mem_cons_self)
              (designator_solid hn yn (by rw [hyn]; exact List.mem_cons_self)) (by rw [hyn] at e6; simpa using e6)
            have e8 : m ++ R = n ++ z := by
              rw [hm3, h34, hyn]
              simpa using e7
            cases z with
            | nil => exact ⟨R, by simpa using e8.symm⟩
            | cons c z =>
              have hc : IsBlank c := by
                rcases hz with hz | hz
                · cases hz
                · exact hz.2 c (by simp)
              obtain ⟨r, hr, _⟩ := split_at (blank_not_mem hms hc) e8
              exact ⟨r, hr⟩
          obtain ⟨n2, rfl⟩ := hn2
          obtain ⟨k2, hkv2, hkt2⟩ := hk2 g2' h2'
          refine ⟨k1, k2, g1', n2 ++ z', hkv1, h1'.2, hkv2, ?_⟩
          rw [hname, hkt1, hkt2, h12, ← hm3, ← hm2]
          simp only [List.append_assoc]
      | cons x m2 =>
        have hx := hms x (by rw [hm2]; simp)
        have hg0 : g = [] := by
          cases g with
          | nil => rfl
          | cons b g =>
            injection e3 with e4 _
            exact absurd (hg b List.mem_cons_self) (e4 ▸ hx)
        subst hg0
        rw [List.nil_append] at e3
        have hsx : ∀ c ∈ x :: m2, ¬ IsBlank c := fun c hc => hms c (by rw [hm2]; exact List.mem_append_right _ hc)
        obtain ⟨hm3, e6⟩ := word_whole hu3 hsx hgp2 h1 e3
        rcases c2 with ⟨hd, _⟩ | ⟨h34, _, hk2⟩
        · exact absurd (by rw [hm2, hm3]; exact List.mem_append_right _ hd) hmd
        · obtain ⟨k2, hkv2, hkt2⟩ := hk2 g1' h1'
          obtain ⟨ym, m', hym⟩ := List.exists_cons_of_ne_nil hm.1
          have e7 : (y4 :: w4) ++ R = m ++ (g2 ++ (n ++ z)) := by
            have := same_gap (h := y4) (u := w4 ++ R) (h' := ym) (u' := m' ++ (g2 ++ (n ++ z))) hgp2.2 h1.2 (hu4 _ List.mem_cons_self)
              (hms ym (by rw [hym]; exact List.mem_cons_self)) (by rw [hym] at e6; simpa using e6)
            rw [hym]
            simpa using this
          obtain ⟨m5, hm5, _⟩ := word_prefix hu4 h2 e7
          refine ⟨k1, k2, [], m5 ++ (g2' ++ (n ++ z')), hkv1, by simp [AreBlanks], hkv2, ?_⟩
          have h8 : m ++ (g1' ++ (m ++ (g2' ++ (n ++ z')))) =
              (y2 :: w2) ++ ((y3 :: w3) ++ (g1' ++ ((y3 :: w3) ++ (m5 ++ (g2' ++ (n ++ z')))))) := by
            have a1 : m = (y2 :: w2) ++ (y3 :: w3) := by rw [hm2, hm3]
            have a2 : m = (y3 :: w3) ++ m5 := by rw [h34]; exact hm5
            calc m ++ (g1' ++ (m ++ (g2' ++ (n ++ z')))) = ((y2 :: w2) ++ (y3 :: w3)) ++ (g1' ++ (((y3 :: w3) ++ m5) ++ (g2' ++ (n ++ z')))) := by
                  rw [← a1, ← a2]
              _ = _ := by simp only [List.append_assoc]
          rw [hname, h8, hkt1, hkt2, h12]
          simp only [List.append_assoc, List.nil_append]

/-- The name and what follows up to a word. -/
theorem after_word {a : LocText} (hA : ∀ n g r, IsDesignator n → IsGap g → name ≠ n ++ (g ++ (n ++ r))) (hl : ∀ c, name.getLast? = some c → ¬ IsBlank c) (hG : IsGap G) (ha : a.Valid)
    {n gp Y r : Str} (hn : IsDesignator n) (hgp : IsGap gp) (e1 : name = n ++ r)
    (e2 : gp ++ (n ++ Y) = r ++ (G ++ (a.text ++ Z))) : r = [] ∧ n ++ Y = a.text ++ Z := by
  obtain ⟨x, G', rfl⟩ := List.exists_cons_of_ne_nil hG.1
  have hx : IsBlank x := hG.2 x List.mem_cons_self
  obtain ⟨y, n', rfl⟩ := List.exists_cons_of_ne_nil hn.1
  have hy := designator_solid hn y List.mem_cons_self
  by_cases hr : r = []
  · subst hr
    refine ⟨rfl, ?_⟩
    have hz : ∃ z t, a.text ++ Z = z :: t ∧ ¬ IsBlank z := by
      cases a with
      | coord c => exact ⟨c.lat.hemi, _, rfl, hemi_not_blank ha.1.1⟩
      | fix m g =>
        obtain ⟨z, m', rfl⟩ := List.exists_cons_of_ne_nil ha.1.1
        exact ⟨z, _, rfl, designator_solid ha.1 z List.mem_cons_self⟩
    obtain ⟨z, t, hz1, hz2⟩ := hz
    rw [hz1] at e2 ⊢
    exact same_gap hgp.2 hG.2 hy hz2 e2
  · exfalso
    have hl' : ∀ c, r.getLast? = some c → ¬ IsBlank c := by
      intro c hc
      apply hl
      rw [e1, last_append hr]
      exact hc
    obtain ⟨r', _, rfl, h3⟩ := split_gap hgp.2 hr hl' e2
    obtain ⟨r'', rfl, _⟩ := split_at (blank_not_mem (designator_solid hn) hx) h3
    exact hA (y :: n') gp r'' hn hgp e1

/-- In front of a coordinate, a name that starts neither with an angle nor with a word twice is not taken for a line. -/
theorem noLine_coord {a : LocText} {c0 : CoordText} (hac : a = .coord c0) (hA1 : ∀ (d : DmsText) r, d.Valid → name ≠ d.text ++ r)
    (hA2 : ∀ n g r, IsDesignator n → IsGap g → name ≠ n ++ (g ++ (n ++ r)))
    (hl : ∀ c, name.getLast? = some c → ¬ IsBlank c) (hG : IsGap G) (ha : a.Valid) : ¬ StartsLine (name ++ (G ++ (a.text ++ Z))) := by
  rintro ⟨a', b', g, r, ha', hg, hb', e1⟩
  cases a' with
  | coord c =>
    have e2 : c.lat.text ++ (c.gap ++ (c.lng.text ++ (g ++ (b'.text ++ r)))) = name ++ (G ++ (a.text ++ Z)) := by
      rw [e1]
      simp [LocText.text, CoordText.text]
    obtain ⟨r, h1, _⟩ := first_word hG (dms_solid ha'.1) e2
    exact hA1 c.lat r ha'.1 h1
  | fix n gp =>
    obtain ⟨hn, hgp⟩ := ha'
    have e2 : n ++ (gp ++ (n ++ (g ++ (b'.text ++ r)))) = name ++ (G ++ (a.text ++ Z)) := by
      rw [e1]
      simp [LocText.text]
    obtain ⟨r1, h1, e3⟩ := first_word hG (designator_solid hn) e2
    obtain ⟨rfl, e5⟩ := after_word hA2 hl hG ha hn hgp h1 e3
    rw [List.append_nil] at h1
    cases a with
    | fix m gm => cases hac
    | coord c =>
      have e6 : n ++ (g ++ (b'.text ++ r)) =
          (c.lat.hemi :: c.lat.deg) ++ '.' :: (c.lat.min ++ '.' :: (c.lat.sec ++ (c.gap ++ (c.lng.text ++ Z)))) := by
        rw [e5]
        simp [LocText.text, CoordText.text, DmsText.text]
      obtain ⟨r2, h2, e7⟩ := split_at (designator_no_dot hn) e6
      have hr2 : ∀ d ∈ r2, isAsciiDigit d = true := by
        obtain ⟨y, n', rfl⟩ := List.exists_cons_of_ne_nil hn.1
        injection h2 with _ h2
        intro d hd
        exact ha.1.2.1.2 d (by rw [h2]; exact List.mem_append_right _ hd)
      -- what follows starts with a digit or a dot
      have start : ∀ {s W : Str}, (∀ d ∈ s, isAsciiDigit d = true) → ∀ {x t}, x :: t = s ++ '.' :: W → isAsciiDigit x = true ∨ x = '.' := by
        intro s W hs x t e
        cases s with
        | nil => injection e with e _; exact Or.inr e
        | cons d s => injection e with e _; rw [e]; exact Or.inl (hs d List.mem_cons_self)
      have solid : ∀ {x : Char}, isAsciiDigit x = true ∨ x = '.' → ¬ IsBlank x := by
        rintro x (h | rfl)
        · exact digit_not_blank h
        · decide
      cases g with
      | cons x g => exact solid (start hr2 e7) (hg x List.mem_cons_self)
      | nil =>
        cases b' with
        | coord cb =>
          have := start (x := cb.lat.hemi) hr2 e7
          have hb := hb'.1.1
          have : ∀ x ∈ c!"NSWEnswe", ¬ (isAsciiDigit x = true ∨ x = '.') := by decide
          exact this _ hb (start (x := cb.lat.hemi) hr2 e7)
        | fix n2 gp2 =>
          have e8 : n2 ++ (gp2 ++ (n2 ++ r)) = r2 ++ '.' :: (c.lat.min ++ '.' :: (c.lat.sec ++ (c.gap ++ (c.lng.text ++ Z)))) := by
            rw [← e7]
            simp [LocText.text]
          obtain ⟨r3, h3, e9⟩ := split_at (designator_no_dot hb'.1) e8
          obtain ⟨z, g2, hgz⟩ := List.exists_cons_of_ne_nil hb'.2.1
          rw [hgz] at e9
          exact solid (start (fun d hd => hr2 d (by rw [h3]; exact List.mem_append_right _ hd)) e9)
            (hb'.2.2 z (by rw [hgz]; exact List.mem_cons_self))
end

/-- What follows a location starts with blanks, if there is something. -/
theorem tail_gap {l : LineText} (hv : l.Valid) {n gn : Str} (h : l.stop = .fix n gn) (sp : Str) :
    ∃ z, l.stop.text ++ (colourText l.colour ++ sp) = n ++ z ∧ IsGap (z.take 1) := by
  have hg : IsGap gn := by have := hv.2.2.1; rw [h] at this; exact this.2
  refine ⟨gn ++ (n ++ (colourText l.colour ++ sp)), by rw [h]; simp [LocText.text], ?_⟩
  obtain ⟨c, g, rfl⟩ := List.exists_cons_of_ne_nil hg.1
  exact ⟨by simp, fun d hd => by
    have : d = c := by simpa using hd
    rw [this]
    exact hg.2 c List.mem_cons_self⟩

/-- The text of a line between fixes. -/
theorem fix_line {l : LineText} (hv : l.Valid) {m gm n gn : Str} (h1 : l.start = .fix m gm) (h2 : l.stop = .fix n gn) (sp : Str) :
    IsDesignator m ∧ IsDesignator n ∧ IsGap gm ∧ ∃ z, l.text ++ sp = m ++ (gm ++ (m ++ (l.gap ++ (n ++ z)))) ∧ IsGap (z.take 1) := by
  obtain ⟨z, e, hz⟩ := tail_gap hv h2 sp
  obtain ⟨v1, v2, v3, _⟩ := hv
  rw [h1] at v1
  rw [h2] at v3
  refine ⟨v1.1, v3.1, v1.2, z, ?_, hz⟩
  unfold LineText.text
  rw [← e, h1]
  simp only [LocText.text, List.append_assoc]

theorem single_gap : IsGap [' '] := ⟨by simp, fun c hc => by rw [List.mem_singleton.1 hc]; decide⟩

/-- A name that can be told from a line is not taken for one. -/
theorem name_noLine {F : Type} {name : Str} {a b : Parse.Sct.Loc F} {G : Str} {l : LineText} {sp : Str} (hA : Apart name a b) (hS : Shows a b l)
    (hl : ∀ c, name.getLast? = some c → ¬ IsBlank c) (hG : IsGap G) (hv : l.Valid) (hu : l.Uniform) (_ : ∀ d ∈ sp, IsBlankChar d) :
    ¬ StartsLine (name ++ (G ++ (l.text ++ sp))) := by
  cases h1 : l.start with
  | coord c =>
    obtain ⟨p, hp⟩ := hS.coord c h1
    have hvs := hv.1
    rw [h1] at hvs
    have : l.text ++ sp = (LocText.coord c).text ++ (l.gap ++ (l.stop.text ++ (colourText l.colour ++ sp))) := by
      unfold LineText.text
      rw [h1]
      simp only [List.append_assoc]
    rw [this]
    exact noLine_coord rfl (hA.coordinates p hp).noAngle (hA.coordinates p hp).noTwice hl hG hvs
  | fix m gm =>
    have hst : ∃ n gn, l.stop = .fix n gn := by
      cases hst : l.stop with
      | coord x => unfold LineText.Uniform at hu; rw [hst, h1] at hu; cases hu
      | fix n gn => exact ⟨n, gn, rfl⟩
    obtain ⟨n, gn, h2⟩ := hst
    obtain ⟨d1, d2, hgm, z, e, hz⟩ := fix_line hv h1 h2 sp
    rw [e]
    intro hL
    have := startsLine_fixes (z' := []) hl d1 d2 hG hgm hv.2.1 (Or.inr hz) single_gap single_gap single_gap hL
    exact hA.fixes m n (hS.start m gm h1) (hS.stop n gn h2) (by simpa using this)

/-- The name of a drawing that is read can be told from its first line if this line is between fixes. -/
theorem apart_fixes {name : Str} {G : Str} {l : LineText} {sp m gm n gn : Str} (h : ¬ StartsLine (name ++ (G ++ (l.text ++ sp))))
    (hl : ∀ c, name.getLast? = some c → ¬ IsBlank c) (hG : IsGap G) (hv : l.Valid) (h1 : l.start = .fix m gm) (h2 : l.stop = .fix n gn) :
    ¬ StartsLine (name ++ ' ' :: (m ++ ' ' :: (m ++ ' ' :: n))) := by
  obtain ⟨d1, d2, hgm, z, e, hz⟩ := fix_line hv h1 h2 sp
  rw [e] at h
  intro hL
  refine h (startsLine_fixes (z := []) hl d1 d2 single_gap single_gap single_gap (Or.inl rfl) hG hgm hv.2.1 ?_)
  simpa using hL

end Verif.Proofs.SctWrite
