import Verif.Proofs.EseStatements
import Verif.Peg.Safe
import Verif.Tokens.Ese
/-!
# Lemmas about .ese files: where panics can come from
-/

namespace Verif.Proofs.Ese
open Verif.Peg Verif.Spec Verif.Spec.Ese Verif.Dms Verif.Parse
open Verif.Peg.Ese (Rule skip)
open Verif.Parse.Ese (nextStr nextUnsigned parseCoordinatePart parseCoordinate parsePosition parseSquawkRange parseMsaw
  parseSectorLine parseCircleSectorLine SectorSubsetting parseSubsettings parseSector parseWildcardString parseWildcardU32
  parseConstraint parseAirspace parseSidStar parseSection Section SectionName)

set_option linter.unusedSectionVars false

abbrev Sf {A : Type} (T : Str) (m : Run A) : Prop := Safe Harmful T m

theorem noNl_iff {s : Str} : NoNl s ↔ ∀ c ∈ s, ¬ IsNewline c := by simp [NoNl, ← not_newline_iff]

theorem k_noNl {m r : Str} (h : K m r) : NoNl m := lineSkip.noNl (by simp [NoNl]; decide) h

theorem not_end {c : Char} {t : Str} (h : isNewlineChar c = false) : ¬ AtLineEnd (c :: t) := fun h' => by
  have := headNot_cons.1 h'
  rw [h] at this
  cases this

theorem k_blanks {m : Str} {c : Char} {t : Str} (h : K m (c :: t)) (hc : isNewlineChar c = false) : AreBlanks m :=
  fun d hd => blankChar_iff.1 (lineSkip.blanks h (not_end hc) d hd)

/-! ## Coordinates -/

theorem coordPart_token {s r : Str} {ts : List (Tree Rule)} (h : Out skip K Peg.Ese.coord_part .nonAtomic s r ts) :
    (∃ d : DmsText, d.Valid ∧ s = d.text ∧ ts = [dmsTree d]) ∨ IsDecimal s ∧ ts = [.node .coord_part s [.node .decimal s []]] := by
  obtain ⟨kids, ho, rfl⟩ := h
  rcases ho with ⟨ks, ho, rfl⟩ | ⟨⟨ks, ho, rfl⟩, _⟩
  · left
    obtain ⟨s1, s2, t1, t2, rfl, rfl, h1, h2⟩ := (out_seq_atomic (by decide)).1 ho
    obtain ⟨s3, s4, t3, t4, rfl, rfl, h3, h4⟩ := (out_seq_atomic (by decide)).1 h2
    obtain ⟨s5, s6, t5, t6, rfl, rfl, ⟨rfl, rfl⟩, h6⟩ := (out_seq_atomic (by decide)).1 h4
    obtain ⟨s7, s8, t7, t8, rfl, rfl, h7, h8⟩ := (out_seq_atomic (by decide)).1 h6
    obtain ⟨s9, s10, t9, t10, rfl, rfl, ⟨rfl, rfl⟩, h10⟩ := (out_seq_atomic (by decide)).1 h8
    obtain ⟨k1, h1, rfl⟩ := h1
    obtain ⟨k3, h3, rfl⟩ := h3
    obtain ⟨k7, h7, rfl⟩ := h7
    obtain ⟨k10, ⟨k11, h10, e⟩, rfl⟩ := h10
    have hh : (∃ c ∈ c!"NSWEnswe", s1 = [c]) ∧ k1 = [] := by
      rcases h1 with ⟨rfl, rfl⟩ | ⟨⟨rfl, rfl⟩ | ⟨⟨rfl, rfl⟩ | ⟨⟨rfl, rfl⟩ | ⟨⟨rfl, rfl⟩ | ⟨⟨rfl, rfl⟩ | ⟨⟨rfl, rfl⟩ |
        ⟨⟨rfl, rfl⟩, _⟩, _⟩, _⟩, _⟩, _⟩, _⟩, _⟩
      all_goals exact ⟨⟨_, by decide, rfl⟩, rfl⟩
    obtain ⟨⟨c, hc, rfl⟩, rfl⟩ := hh
    have e3 := out_digits (by decide) h3
    have e7 := out_digits (by decide) h7
    have e10 := out_decimal (by decide) h10
    refine ⟨⟨c, s3, s7, s10⟩, ⟨hc, e3.2, e7.2, e10.2⟩, by simp [DmsText.text], ?_⟩
    rw [e3.1, e7.1, e, e10.1]
    simp [emits, inside, dmsTree, DmsText.text]
  · right
    have := out_decimal (by decide) ho
    refine ⟨this.2, ?_⟩
    rw [this.1]
    rfl

theorem part_head {s : Str} (h : IsCoordPart s) : ∃ c t, s = c :: t ∧ isNewlineChar c = false := by
  rcases h with h | ⟨d, h, rfl⟩
  · obtain ⟨c, t, rfl, hc⟩ := decimal_head h
    refine ⟨c, t, rfl, ?_⟩
    rcases hc with hc | hc
    · cases hn : isNewlineChar c with
      | false => rfl
      | true => rcases newline_iff.1 hn with rfl | rfl <;> exact absurd hc (by decide)
    · clear h; revert c; decide
  · refine ⟨d.hemi, _, rfl, ?_⟩
    have := h.1
    revert this
    generalize d.hemi = c
    revert c; decide

section
variable {F : Type} [F64 F] [DmsArith F] (num : Str → F) (hnum : ∀ s, IsDecimal s → F64.ofText s = some (num s))

theorem gated_safe {A : Type} {p : Prop} [Decidable p] {v : A} {T : Str} (h : ¬ p → ∃ s, s <:+: T ∧ Harmful s) : Sf T (gated p v) := by
  unfold gated
  by_cases hp : p
  · rw [if_pos hp]; exact safe_ok v
  · exact Or.inr (h hp)

include hnum in
/-- A coordinate is read, or a part of it is no value. -/
theorem coord_safe {s r : Str} {ts : List (Tree Rule)} (h : Out skip K Peg.Ese.coordinate .nonAtomic s r ts) :
    ∃ t, ts = [t] ∧ t.asRule = .coordinate ∧ ((∃ p, parseCoordinate (F := F) t = .ok p) ∨ IsBadCoordinate s) := by
  obtain ⟨kids, ⟨s1, m, s2, t1, t2, rfl, hg, h1, ⟨s3, m2, s4, t3, t4, rfl, hg2, ⟨rfl, rfl⟩, h4, rfl⟩, rfl⟩, rfl⟩ := h
  refine ⟨_, rfl, rfl, ?_⟩
  have hg : K m (':' :: (m2 ++ s4 ++ r)) := by simpa using hg
  have hg2 : K m2 (s4 ++ r) := hg2
  have p1 : IsCoordPart s1 := by
    rcases coordPart_token h1 with ⟨d, hd, rfl, _⟩ | ⟨hd, _⟩
    · exact Or.inr ⟨d, hd, rfl⟩
    · exact Or.inl hd
  have p4 : IsCoordPart s4 := by
    rcases coordPart_token h4 with ⟨d, hd, rfl, _⟩ | ⟨hd, _⟩
    · exact Or.inr ⟨d, hd, rfl⟩
    · exact Or.inl hd
  have b2 : AreBlanks m2 := by
    obtain ⟨c, t, e, hc⟩ := part_head p4
    rw [e, List.cons_append] at hg2
    exact k_blanks hg2 hc
  have bad : IsBadPart s1 ∨ IsBadPart s4 → IsBadCoordinate (s1 ++ m ++ (c!":" ++ m2 ++ s4)) := fun hd =>
    ⟨s1, m, m2, s4, k_blanks hg (by decide), b2, p1, p4, hd, by simp⟩
  rcases coordPart_token h1 with ⟨d, hd, rfl, rfl⟩ | ⟨hd, rfl⟩
  · rcases coordPart_token h4 with ⟨d', hd', rfl, rfl⟩ | ⟨hd', rfl⟩
    · have := read_coord num hnum (c := ⟨d, d'⟩) ⟨hd, hd'⟩
      have e : parseCoordinate (F := F) (.node .coordinate (d.text ++ m ++ (c!":" ++ m2 ++ d'.text)) [dmsTree d, dmsTree d']) =
          parseCoordinate (coordTree ⟨d, d'⟩) := rfl
      show (∃ p, parseCoordinate (F := F) (.node .coordinate _ [dmsTree d, dmsTree d']) = .ok p) ∨ _
      rw [e, this]
      by_cases hf : d.Fits
      · by_cases hf' : d'.Fits
        · exact Or.inl ⟨_, if_pos ⟨hf, hf'⟩⟩
        · exact Or.inr (bad (Or.inr (Or.inr ⟨d', hd', hf', rfl⟩)))
      · exact Or.inr (bad (Or.inl (Or.inr ⟨d, hd, hf, rfl⟩)))
    · exact Or.inr (bad (Or.inr (Or.inl hd')))
  · exact Or.inr (bad (Or.inl (Or.inl hd)))

theorem bad_head {s : Str} (h : IsBadCoordinate s) : ∃ c t, s = c :: t ∧ isNewlineChar c = false := by
  obtain ⟨a, sp, sp', b, _, _, ha, _, _, rfl⟩ := h
  obtain ⟨c, t, rfl, hc⟩ := part_head ha
  exact ⟨c, _, rfl, hc⟩

include hnum in
/-- A coordinate in a line of its own is read or harmful. -/
theorem coordLine_safe {s r : Str} {ts : List (Tree Rule)} (h : Out skip K Peg.Ese.coord .nonAtomic s r ts) :
    ∃ t, ts = [t] ∧ t.asRule = .coordinate ∧ Sf s (parseCoordinate (F := F) t) := by
  obtain ⟨s1, m, s2, t1, t2, rfl, hg, ⟨rfl, rfl⟩, h2, rfl⟩ := h
  obtain ⟨t, rfl, ht, h⟩ := coord_safe num hnum h2
  refine ⟨t, rfl, ht, h.imp_right fun hb => ⟨_, List.infix_rfl, ?_⟩⟩
  have hg : K m (s2 ++ r) := hg
  obtain ⟨c, u, e, hc⟩ := bad_head hb
  have hm : AreBlanks m := by
    rw [e, List.cons_append] at hg
    exact k_blanks hg hc
  simpa using Harmful.coord m s2 hm hb

include hnum in
/-- Coordinates in lines of their own. -/
theorem coordLines_safe {s r : Str} {ts : List (Tree Rule)} (h : Out skip K (.plus (Peg.Ese.coord ⬝ Peg.Ese.NL)) .nonAtomic s r ts) :
    ∀ t ∈ ts, Sf s (parseCoordinate (F := F) t) := by
  have one : ∀ {s r : Str} {ts : List (Tree Rule)}, Out skip K (Peg.Ese.coord ⬝ Peg.Ese.NL) .nonAtomic s r ts →
      ∀ t ∈ ts, Sf s (parseCoordinate (F := F) t) := by
    rintro s r ts ⟨s1, m, s2, t1, t2, rfl, _, h1, h2, rfl⟩ t ht
    rw [kids_mute _ _ _ rfl (out_kids _ _ _ _ _ h2), List.append_nil] at ht
    obtain ⟨t', rfl, _, hs⟩ := coordLine_safe num hnum h1
    rw [List.mem_singleton.1 ht]
    exact hs.mono (infix_left (infix_left List.infix_rfl))
  obtain ⟨s1, t1, m, s2, t2, rfl, rfl, h1, _, h2⟩ := out_plus_ind h (fun s ts => ∀ t ∈ ts, Sf s (parseCoordinate (F := F) t)) (by simp)
    (fun m s ts s' ts' _ h ih t ht => by
      rcases List.mem_append.1 ht with ht | ht
      · exact (one h t ht).mono (infix_left (infix_right List.infix_rfl))
      · exact (ih t ht).mono (infix_right List.infix_rfl))
  intro t ht
  rcases List.mem_append.1 ht with ht | ht
  · exact (one h1 t ht).mono (infix_left (infix_left List.infix_rfl))
  · exact (h2 t ht).mono (infix_right List.infix_rfl)

include hnum in
/-- Coordinates in lines of their own, among other lines. -/
theorem displayLines_safe {s r : Str} {ts : List (Tree Rule)}
    (h : Out skip K (.star ((Peg.Ese.display ∥ Peg.Ese.coord) ⬝ Peg.Ese.NL)) .nonAtomic s r ts) :
    ∀ t ∈ ts, t.asRule = .display ∨ Sf s (parseCoordinate (F := F) t) := by
  refine out_star_ind h (fun s ts => ∀ t ∈ ts, t.asRule = .display ∨ Sf s (parseCoordinate (F := F) t)) (by simp)
    (fun m s ts s' ts' _ h ih t ht => ?_)
  rcases List.mem_append.1 ht with ht | ht
  · obtain ⟨s1, m, s2, t1, t2, rfl, _, h1, h2, rfl⟩ := h
    rw [kids_mute _ _ _ rfl (out_kids _ _ _ _ _ h2), List.append_nil] at ht
    rcases h1 with ⟨ks, _, rfl⟩ | ⟨h1, _⟩
    · left
      rw [List.mem_singleton.1 ht]
      rfl
    · obtain ⟨t', rfl, _, hs⟩ := coordLine_safe num hnum h1
      rw [List.mem_singleton.1 ht]
      exact Or.inr (hs.mono (infix_left (infix_right (infix_left (infix_left List.infix_rfl)))))
  · exact (ih t ht).imp_right fun h => h.mono (infix_right List.infix_rfl)
end

/-! ## Fields -/

theorem line_colonText : OneLine skip K Peg.Ese.colon_delimited_text .nonAtomic :=
  oneLine_rule (oneLine_until lineSkip rfl)

theorem line_wildcard : OneLine skip K Peg.Ese.wildcard .nonAtomic := oneLine_rule (oneLine_str (by simp [NoNl]; decide))

theorem line_designator : OneLine skip K Peg.Ese.designator .nonAtomic :=
  oneLine_rule (oneLine_plus_cls (like_des .atomic) fun c hc => by
    cases hn : isNewlineChar c with
    | false => rfl
    | true => rcases newline_iff.1 hn with rfl | rfl <;> exact absurd hc (by decide))

theorem decimal_noNl {s : Str} (h : IsDecimal s) : NoNl s := by
  have hd : ∀ c, isAsciiDigit c = true → isNewlineChar c = false := fun c hc => by
    cases hn : isNewlineChar c with
    | false => rfl
    | true => rcases newline_iff.1 hn with rfl | rfl <;> exact absurd hc (by decide)
  obtain ⟨sg, ds, fs, rfl, h1, h2, h3⟩ := h
  refine noNl_append.2 ⟨noNl_append.2 ⟨?_, fun c hc => hd c (h2 c hc)⟩, ?_⟩
  · rcases h1 with rfl | rfl | rfl <;> simp [NoNl] <;> decide
  · rcases h3 with ⟨rfl, _⟩ | ⟨d, rfl, hne, hd'⟩
    · exact noNl_nil
    · intro c hc
      rcases List.mem_cons.1 hc with rfl | hc
      · decide
      · exact hd c (hd' c hc)

theorem out_integer_rule {s r : Str} {ts : List (Tree Rule)} (h : Out skip K Peg.Ese.integer .nonAtomic s r ts) :
    IsInteger s ∧ ts = [.node .integer s []] := by
  obtain ⟨kids, ho, rfl⟩ := h
  have := out_integer (by decide) ho
  rw [this.1]
  exact ⟨this.2, rfl⟩

theorem line_integer : OneLine skip K Peg.Ese.integer .nonAtomic := fun _ _ _ h =>
  decimal_noNl (out_integer_rule h).1.isDecimal

theorem line_frequency : OneLine skip K Peg.Ese.frequency .nonAtomic := by
  rintro s r ts ⟨kids, ⟨kids', ho, _⟩, _⟩
  exact decimal_noNl (out_decimal (by decide) ho).2

/-- A field and its colon. -/
theorem peel {x y : Expr Rule} {s r : Str} {ts : List (Tree Rule)} (hx : OneLine skip K x .nonAtomic)
    (h : Out skip K (x ⬝ (.str c!":") ⬝ y) .nonAtomic s r ts) :
    ∃ s1 m m' s2 t1 t2, s = s1 ++ (m ++ ':' :: (m' ++ s2)) ∧ NoNl (s1 ++ m) ∧ NoNl m' ∧ AreBlanks m ∧ K m' (s2 ++ r) ∧
      Out skip K x .nonAtomic s1 (m ++ ':' :: (m' ++ (s2 ++ r))) t1 ∧ Out skip K y .nonAtomic s2 r t2 ∧ ts = t1 ++ t2 := by
  obtain ⟨s1, m, s2, t1, t2, rfl, hg, h1, ⟨s3, m2, s4, t3, t4, rfl, hg2, ⟨rfl, rfl⟩, h4, rfl⟩, rfl⟩ := h
  have hg : K m (':' :: (m2 ++ s4 ++ r)) := by simpa using hg
  have hg2 : K m2 (s4 ++ r) := hg2
  exact ⟨s1, m, m2, s4, t1, t2, by simp, noNl_append.2 ⟨hx _ _ _ h1, k_noNl hg⟩, k_noNl hg2, k_blanks hg (by decide), hg2,
    by simpa using h1, h4, by simp⟩

theorem integer_head {n : Str} (h : IsInteger n) : ∃ c t, n = c :: t ∧ isNewlineChar c = false := part_head (Or.inl h.isDecimal)

theorem blanks_before {m n r : Str} (h : K m (n ++ r)) (hn : ∃ c t, n = c :: t ∧ isNewlineChar c = false) : AreBlanks m := by
  obtain ⟨c, t, rfl, hc⟩ := hn
  exact k_blanks h hc

/-- The text `T` contains the text `s` behind a key word, at least `n` fields and one more. -/
def Behind (n : Nat) (key T s r : Str) : Prop :=
  ∃ rest m, key ++ (rest ++ ':' :: (m ++ s)) <:+: T ∧ NoNl rest ∧ NoNl m ∧ K m (s ++ r) ∧ n ≤ rest.count ':'

theorem step {n : Nat} {key T s r : Str} {x y : Expr Rule} {ts : List (Tree Rule)} (hi : Behind n key T s r)
    (hx : OneLine skip K x .nonAtomic) (h : Out skip K (x ⬝ (.str c!":") ⬝ y) .nonAtomic s r ts) :
    ∃ s1 r1 s2 t1 t2, Out skip K x .nonAtomic s1 r1 t1 ∧ Behind n key T s1 r1 ∧ Out skip K y .nonAtomic s2 r t2 ∧
      Behind (n + 1) key T s2 r ∧ ts = t1 ++ t2 := by
  obtain ⟨rest, m0, hT, hr, hm0, hk0, hn⟩ := hi
  obtain ⟨s1, m, m', s2, t1, t2, rfl, h1, h2, h3, h4, h5, h6, rfl⟩ := peel hx h
  refine ⟨s1, _, s2, t1, t2, h5, ⟨rest, m0, ?_, hr, hm0, ?_, hn⟩, h6, ⟨rest ++ ':' :: (m0 ++ (s1 ++ m)), m', ?_, ?_, h2, h4, ?_⟩, rfl⟩
  · refine List.IsInfix.trans ⟨[], m ++ ':' :: (m' ++ s2), ?_⟩ hT
    simp
  · simpa using hk0
  · simpa using hT
  · refine noNl_append.2 ⟨hr, ?_⟩
    intro c hc
    rcases List.mem_cons.1 hc with rfl | hc
    · decide
    · exact noNl_append.2 ⟨hm0, h1⟩ c hc
  · simp only [List.count_append, List.count_cons_self]
    omega

theorem start {T s r : Str} {x y : Expr Rule} {ts : List (Tree Rule)} (hT : s <:+: T)
    (hx : OneLine skip K x .nonAtomic) (h : Out skip K (x ⬝ (.str c!":") ⬝ y) .nonAtomic s r ts) :
    ∃ s1 r1 s2 t1 t2, Out skip K x .nonAtomic s1 r1 t1 ∧ Out skip K y .nonAtomic s2 r t2 ∧
      Behind 0 [] T s2 r ∧ ts = t1 ++ t2 := by
  obtain ⟨s1, m, m', s2, t1, t2, rfl, h1, h2, h3, h4, h5, h6, rfl⟩ := peel hx h
  refine ⟨s1, _, s2, t1, t2, h5, h6, ⟨s1 ++ m, m', ?_, h1, h2, h4, Nat.zero_le _⟩, rfl⟩
  simpa using hT

theorem key_start {T key s r : Str} {x y : Expr Rule} {ts : List (Tree Rule)} (hT : s <:+: T)
    (hx : OneLine skip K x .nonAtomic) (h : Out skip K ((.str key) ⬝ x ⬝ (.str c!":") ⬝ y) .nonAtomic s r ts) :
    ∃ s1 r1 s2 t1 t2, Out skip K x .nonAtomic s1 r1 t1 ∧ Out skip K y .nonAtomic s2 r t2 ∧
      Behind 0 key T s2 r ∧ ts = t1 ++ t2 := by
  obtain ⟨s3, m0, s4, t3, t4, rfl, hg, ⟨rfl, rfl⟩, h0, rfl⟩ := h
  obtain ⟨s1, m, m', s2, t1, t2, rfl, h1, h2, h3, h4, h5, h6, rfl⟩ := peel hx h0
  refine ⟨s1, _, s2, t1, t2, h5, h6, ⟨m0 ++ (s1 ++ m), m', ?_, noNl_append.2 ⟨k_noNl hg, h1⟩, h2, h4, Nat.zero_le _⟩, rfl⟩
  simpa using hT

theorem behind_blanks {n : Nat} {key T s r : Str} (h : Behind n key T s r) (hs : ∃ c t, s = c :: t ∧ isNewlineChar c = false) :
    ∃ rest m, key ++ (rest ++ ':' :: (m ++ s)) <:+: T ∧ NoNl rest ∧ AreBlanks m ∧ n ≤ rest.count ':' := by
  obtain ⟨rest, m, h1, h2, _, h3, h4⟩ := h
  exact ⟨rest, m, h1, h2, blanks_before h3 hs, h4⟩

theorem behind_prefix {n : Nat} {key T s s' r : Str} (h : Behind n key T (s ++ s') r) : Behind n key T s (s' ++ r) := by
  obtain ⟨rest, m, h1, h2, h3, h4, h5⟩ := h
  refine ⟨rest, m, List.IsInfix.trans ⟨[], s', ?_⟩ h1, h2, h3, ?_, h5⟩
  · simp
  · simpa using h4

/-- A level is read or harmful. -/
theorem level_safe {n : Nat} {key T s r : Str} (hk : key ∈ [c!"SECTOR:", c!"COPX:", c!"MSAW:"]) (h : Behind n key T s r)
    (hs : IsInteger s) : Sf T (unwrap (parseUnsigned 10 (2 ^ 32) s)) := by
  obtain ⟨rest, m, h1, h2, h3, _⟩ := behind_blanks h (integer_head hs)
  rw [parseUnsigned_integer hs, unwrap_gated]
  exact gated_safe fun hn => ⟨_, h1, .level key rest m s hk (noNl_iff.1 h2) h3 hs hn⟩

section
variable {F : Type} [F64 F] [DmsArith F] (num : Str → F) (hnum : ∀ s, IsDecimal s → F64.ofText s = some (num s))

theorem cdt_tok {s r : Str} {ts : List (Tree Rule)} (h : Out skip K Peg.Ese.colon_delimited_text .nonAtomic s r ts) :
    ∃ t, ts = [t] ∧ t.asRule = .colon_delimited_text := by
  obtain ⟨kids, _, rfl⟩ := h
  exact ⟨_, rfl, rfl⟩

theorem unsigned_safe {T n : Str} {ts : List (Tree Rule)} {bound : Nat} (h : Sf T (unwrap (parseUnsigned 10 bound n))) :
    (∃ v, nextUnsigned bound (.node .integer n [] :: ts) = .ok (v, ts)) ∨ ∃ s, s <:+: T ∧ Harmful s := by
  rcases h with ⟨v, hv⟩ | h
  · left
    refine ⟨v, ?_⟩
    show (unwrap (parseUnsigned 10 bound n)).bind _ = _
    rw [hv]
    rfl
  · exact Or.inr h

theorem subsetting_ok {t : Tree Rule} {k : List (Tree Rule)} (hk : Kids skip K Peg.Ese.sector_subsettings .nonAtomic k) (ht : t ∈ k) :
    ∃ v, parseSubsettings t = .ok v := by
  unfold Peg.Ese.sector_subsettings at hk
  simp only [kids_simp] at hk
  obtain ⟨t', h, rfl⟩ := hk
  rw [List.mem_singleton.1 ht]
  rcases h with h | h | h | h | h | h | h
  all_goals
    obtain ⟨s, kids, rfl, hk⟩ := tok_kids rfl h
  · exact ⟨_, rfl⟩
  · simp only [kids_simp] at hk
    obtain ⟨a, _, k2, _, k3, _, rfl⟩ := hk
    exact ⟨_, rfl⟩
  · exact ⟨_, rfl⟩
  · exact ⟨_, rfl⟩
  · simp only [kids_simp] at hk
    obtain ⟨a, _, b, _, rfl⟩ := hk
    exact ⟨_, rfl⟩
  · exact ⟨_, rfl⟩
  · exact ⟨_, rfl⟩

theorem sector_safe {L : Type} {t : Tree Rule} (h : Tok skip K Peg.Ese.sector .nonAtomic t) : Sf t.asStr (parseSector (L := L) t) := by
  obtain ⟨T, r, kids, rfl, ho⟩ := tok_rule rfl h
  obtain ⟨s1, r1, s2, t1, t2, h1, h2, hb, rfl⟩ := key_start List.infix_rfl line_colonText ho
  obtain ⟨s3, r3, s4, t3, t4, h3, hb3, h4, hb4, rfl⟩ := step hb line_integer h2
  obtain ⟨s5, m, s6, t5, t6, rfl, hg, h5, h6, rfl⟩ := h4
  obtain ⟨c, rfl, _⟩ := cdt_tok h1
  obtain ⟨i3, rfl⟩ := out_integer_rule h3
  obtain ⟨i5, rfl⟩ := out_integer_rule h5
  rw [List.append_assoc] at hb4
  have l3 := level_safe (by simp) hb3 i3
  have l5 := level_safe (by simp) (behind_prefix hb4) i5
  rcases unsigned_safe (ts := .node .integer s5 [] :: t6) l3 with ⟨v, hv⟩ | hx
  · rcases unsigned_safe (ts := t6) l5 with ⟨w, hw⟩ | hx
    · have h7 : ∀ t ∈ t6, ∃ v, parseSubsettings t = .ok v := by
        have := out_kids _ _ _ _ _ h6
        obtain ⟨k1, hk1, k2, hk2, rfl⟩ := this
        rw [kids_mute _ _ _ rfl hk1, List.nil_append]
        refine kids_star_all hk2 ?_
        rintro k ⟨k3, hk3, k4, hk4, rfl⟩
        rw [kids_mute _ _ _ rfl hk4, List.append_nil]
        exact fun t ht => subsetting_ok hk3 ht
      have h8 : Sf T (t6.mapM parseSubsettings) := safe_mapM fun t ht => Or.inl (h7 t ht)
      show Sf T ((nextUnsigned (2 ^ 32) (.node .integer s3 [] :: .node .integer s5 [] :: t6)).bind _)
      rw [hv]
      show Sf T ((nextUnsigned (2 ^ 32) (.node .integer s5 [] :: t6)).bind _)
      rw [hw]
      exact h8.bind fun v _ => safe_ok _
    · exact Or.inr hx
  · exact Or.inr hx

theorem wildcard_tok {s r : Str} {ts : List (Tree Rule)} (h : Out skip K Peg.Ese.wildcard .nonAtomic s r ts) :
    ∃ t, ts = [t] ∧ t.asRule = .wildcard := by
  obtain ⟨kids, _, rfl⟩ := h
  exact ⟨_, rfl, rfl⟩

theorem text_field {s r : Str} {ts : List (Tree Rule)}
    (h : Out skip K (Peg.Ese.wildcard ∥ Peg.Ese.colon_delimited_text) .nonAtomic s r ts) :
    ∃ t, ts = [t] ∧ ∃ v, parseWildcardString t = .ok v := by
  rcases h with ⟨kids, _, rfl⟩ | ⟨⟨kids, _, rfl⟩, _⟩
  · exact ⟨_, rfl, _, rfl⟩
  · exact ⟨_, rfl, _, rfl⟩

theorem runway_field {s r : Str} {ts : List (Tree Rule)}
    (h : Out skip K (Peg.Ese.wildcard ∥ Peg.Ese.designator) .nonAtomic s r ts) :
    ∃ t, ts = [t] ∧ ∃ v, parseWildcardString t = .ok v := by
  rcases h with ⟨kids, _, rfl⟩ | ⟨⟨kids, _, rfl⟩, _⟩
  · exact ⟨_, rfl, _, rfl⟩
  · exact ⟨_, rfl, _, rfl⟩

theorem level_field {n : Nat} {T s r : Str} {ts : List (Tree Rule)} (hb : Behind n c!"COPX:" T s r)
    (h : Out skip K (Peg.Ese.wildcard ∥ Peg.Ese.integer) .nonAtomic s r ts) :
    ∃ t, ts = [t] ∧ Sf T (parseWildcardU32 t) := by
  rcases h with ⟨kids, _, rfl⟩ | ⟨h, _⟩
  · exact ⟨_, rfl, safe_ok _⟩
  · obtain ⟨hi, rfl⟩ := out_integer_rule h
    exact ⟨_, rfl, (level_safe (by simp) hb hi).bind fun v _ => safe_ok _⟩

theorem cop_body {T s s0 r : Str} {ts : List (Tree Rule)} {q : Rule} (hb : Behind 0 c!"COPX:" T s r)
    {t0 : Tree Rule} {v0 : Option Str} (h0 : parseWildcardString t0 = .ok v0)
    (h : Out skip K (Peg.Ese.dep_rwy ⬝ (.str c!":") ⬝ Peg.Ese.cop_def ⬝ (.str c!":") ⬝ Peg.Ese.after ⬝ (.str c!":") ⬝ Peg.Ese.arr_rwy ⬝
      (.str c!":") ⬝ Peg.Ese.sctx ⬝ (.str c!":") ⬝ Peg.Ese.sctn ⬝ (.str c!":") ⬝ Peg.Ese.alt_clb ⬝ (.str c!":") ⬝ Peg.Ese.alt_des ⬝
      (.str c!":") ⬝ Peg.Ese.cop_description ⬝ Peg.Ese.NL) .nonAtomic s r ts) :
    Sf T (parseConstraint (.node q s0 (t0 :: ts))) := by
  have wt := oneLine_alt line_wildcard line_colonText
  have wd := oneLine_alt line_wildcard line_designator
  have wi := oneLine_alt line_wildcard line_integer
  obtain ⟨_, _, s1, _, _, h1, b1, g1, c1, e⟩ := step hb wd h
  subst e
  obtain ⟨_, _, s2, _, _, h2, b2, g2, c2, e⟩ := step c1 wt g1
  subst e
  obtain ⟨_, _, s3, _, _, h3, b3, g3, c3, e⟩ := step c2 wt g2
  subst e
  obtain ⟨_, _, s4, _, _, h4, b4, g4, c4, e⟩ := step c3 wd g3
  subst e
  obtain ⟨_, _, s5, _, _, h5, b5, g5, c5, e⟩ := step c4 line_colonText g4
  subst e
  obtain ⟨_, _, s6, _, _, h6, b6, g6, c6, e⟩ := step c5 line_colonText g5
  subst e
  obtain ⟨_, _, s7, _, _, h7, b7, g7, c7, e⟩ := step c6 wi g6
  subst e
  obtain ⟨_, _, s8, _, _, h8, b8, g8, c8, e⟩ := step c7 wi g7
  subst e
  obtain ⟨_, _, _, _, _, e, _, h9, h10, e'⟩ := g8
  subst e e'
  obtain ⟨t1, rfl, v1, e1⟩ := runway_field h1
  obtain ⟨t2, rfl, v2, e2⟩ := text_field h2
  obtain ⟨t3, rfl, v3, e3⟩ := text_field h3
  obtain ⟨t4, rfl, v4, e4⟩ := runway_field h4
  obtain ⟨t5, rfl, _⟩ := cdt_tok h5
  obtain ⟨t6, rfl, _⟩ := cdt_tok h6
  obtain ⟨t7, rfl, s7⟩ := level_field b7 h7
  obtain ⟨t8, rfl, s8⟩ := level_field b8 h8
  obtain ⟨t9, rfl, _⟩ := cdt_tok h9
  simp only [parseConstraint, nextStr, Tree.inner_node, next_cons, run_ok_bind, List.cons_append, List.nil_append, h0, e1, e2, e3, e4,
    run_pure]
  refine s7.bind fun v _ => s8.bind fun w _ => safe_ok _

theorem cop_safe {t : Tree Rule} (h : Tok skip K Peg.Ese.cop .nonAtomic t) : Sf t.asStr (parseConstraint t) := by
  obtain ⟨T, r, kids, rfl, ho⟩ := tok_rule rfl h
  obtain ⟨s1, r1, s2, t1, t2, h1, h2, hb, rfl⟩ := key_start List.infix_rfl (oneLine_alt line_wildcard line_colonText) ho
  obtain ⟨t0, rfl, v0, e0⟩ := text_field h1
  exact cop_body hb e0 h2

theorem firCop_safe {t : Tree Rule} (h : Tok skip K Peg.Ese.fir_cop .nonAtomic t) : Sf t.asStr (parseConstraint t) := by
  obtain ⟨T, r, kids, rfl, ho⟩ := tok_rule rfl h
  obtain ⟨s1, r1, s2, t1, t2, h1, h2, hb, rfl⟩ := key_start List.infix_rfl (oneLine_alt line_wildcard line_colonText) ho
  obtain ⟨t0, rfl, v0, e0⟩ := text_field h1
  have hb : Behind 0 c!"COPX:" T s2 r := by
    obtain ⟨rest, m, hi, h⟩ := hb
    exact ⟨rest, m, List.IsInfix.trans ⟨c!"FIR_", [], by simp⟩ hi, h⟩
  exact cop_body hb e0 h2

include hnum in
theorem msaw_safe {t : Tree Rule} (h : Tok skip K Peg.Ese.msaw .nonAtomic t) : Sf t.asStr (parseMsaw (F := F) t) := by
  obtain ⟨T, r, kids, rfl, ho⟩ := tok_rule rfl h
  have hin := out_infix _ _ _ _ _ ho
  obtain ⟨s1, r1, s2, t1, t2, h1, h2, hb, rfl⟩ := key_start List.infix_rfl line_colonText ho
  obtain ⟨s5, m, s6, t5, t6, rfl, hg, h5, h6, rfl⟩ := h2
  obtain ⟨c, rfl, _⟩ := cdt_tok h1
  obtain ⟨i5, rfl⟩ := out_integer_rule h5
  rw [List.append_assoc] at hb
  have l5 := level_safe (by simp) (behind_prefix hb) i5
  rcases unsigned_safe (ts := t6) l5 with ⟨w, hw⟩ | hx
  · have h8 : Sf T (t6.mapM (parseCoordinate (F := F))) := by
      obtain ⟨s7, m', s8, t7, t8, rfl, _, h7, h9, rfl⟩ := h6
      rw [kids_mute _ _ _ rfl (out_kids _ _ _ _ _ h7), List.nil_append]
      refine safe_mapM fun t ht => (coordLines_safe num hnum h9 t ht).mono ?_
      obtain ⟨_, _, hT, _⟩ := hb
      refine List.IsInfix.trans ?_ hT
      exact infix_right (infix_right (List.IsInfix.trans (infix_right (infix_right (infix_right (infix_right List.infix_rfl)))) (List.suffix_cons ..).isInfix))
    show Sf T ((nextUnsigned (2 ^ 32) (.node .integer s5 [] :: t6)).bind _)
    rw [hw]
    exact h8.bind fun v _ => safe_ok _
  · exact Or.inr hx

include hnum in
theorem sectorLine_safe {t : Tree Rule} (h : Tok skip K Peg.Ese.sectorline .nonAtomic t) : Sf t.asStr (parseSectorLine (F := F) t) := by
  obtain ⟨T, r, kids, rfl, ho⟩ := tok_rule rfl h
  obtain ⟨s1, m1, s2, t1, t2, rfl, _, h1, ⟨s3, m3, s4, t3, t4, rfl, _, h3, ⟨s5, m5, s6, t5, t6, rfl, _, h5, h6, rfl⟩, rfl⟩, rfl⟩ := ho
  rw [kids_mute _ _ _ rfl (out_kids _ _ _ _ _ h1), kids_mute _ _ _ rfl (out_kids _ _ _ _ _ h5), List.nil_append, List.nil_append] at *
  obtain ⟨c, rfl, _⟩ := cdt_tok h3
  have h7 := displayLines_safe (F := F) num hnum h6
  have h8 : Sf (s1 ++ m1 ++ (s3 ++ m3 ++ (s5 ++ m5 ++ s6))) ((t6.partition fun t => t.asRule = .display).2.mapM (parseCoordinate (F := F))) := by
    refine safe_mapM fun t ht => ?_
    rw [List.partition_eq_filter_filter] at ht
    obtain ⟨h1, h2⟩ := List.mem_filter.1 ht
    rcases h7 t h1 with h | h
    · simp [h] at h2
    · exact h.mono (infix_right (infix_right (infix_right List.infix_rfl)))
  exact h8.bind fun v _ => safe_ok _

theorem circle_ok [UnicodeTables] {G : Type} [F64 G] {t : Tree Rule} (h : Tok skip K Peg.Ese.circle_sectorline .nonAtomic t) :
    ∃ v, parseCircleSectorLine (G := G) t = .ok v := by
  obtain ⟨T, kids, rfl, hk⟩ := tok_kids rfl h
  simp only [kids_simp] at hk
  obtain ⟨a, _, b, _, c, hc, ds, _, rfl⟩ := hk
  have : IsDecimal c.asStr := by
    obtain ⟨s, r, kids, rfl, ho⟩ := tok_rule rfl hc
    exact (out_decimal (by decide) ho).2
  obtain ⟨v, hv⟩ := F64.some_of_decimal (F := G) this
  simp [parseCircleSectorLine, nextStr, hv, unwrap]

include hnum in
theorem item_safe [UnicodeTables] {G : Type} [F64 G] {t : Tree Rule} {k : List (Tree Rule)}
    (hk : Kids skip K (Peg.Ese.sectorline ∥ Peg.Ese.circle_sectorline ∥ Peg.Ese.display_sectorline ∥ Peg.Ese.sector ∥ Peg.Ese.cop ∥
      Peg.Ese.fir_cop ∥ Peg.Ese.msaw) .nonAtomic k) (ht : t ∈ k) : Sf t.asStr (parseAirspace (F := F) (G := G) t) := by
  simp only [kids_simp] at hk
  obtain ⟨t', h, rfl⟩ := hk
  rw [List.mem_singleton.1 ht]
  rcases h with h | h | h | h | h | h | h
  · have := sectorLine_safe num hnum h
    obtain ⟨T, kids, rfl, _⟩ := tok_kids rfl h
    exact this.bind fun v _ => safe_ok _
  · obtain ⟨v, hv⟩ := circle_ok (G := G) h
    obtain ⟨T, kids, rfl, _⟩ := tok_kids rfl h
    exact Safe.bind (m := parseCircleSectorLine (G := G) _) (Or.inl ⟨v, hv⟩) fun v _ => safe_ok _
  · obtain ⟨T, kids, rfl, _⟩ := tok_kids rfl h
    exact safe_ok _
  · have := sector_safe (L := List (Point F)) h
    obtain ⟨T, kids, rfl, _⟩ := tok_kids rfl h
    exact this.bind fun v _ => safe_ok _
  · have := cop_safe h
    obtain ⟨T, kids, rfl, _⟩ := tok_kids rfl h
    exact this.bind fun v _ => safe_ok _
  · have := firCop_safe h
    obtain ⟨T, kids, rfl, _⟩ := tok_kids rfl h
    exact this.bind fun v _ => safe_ok _
  · have := msaw_safe num hnum h
    obtain ⟨T, kids, rfl, _⟩ := tok_kids rfl h
    exact this.bind fun v _ => safe_ok _

theorem sidStar_ok {t : Tree Rule} (h : Tok skip K Peg.Ese.sid .nonAtomic t ∨ Tok skip K Peg.Ese.star .nonAtomic t) :
    ∃ v, parseSidStar t = .ok v := by
  rcases h with h | h
  all_goals
    obtain ⟨T, kids, rfl, hk⟩ := tok_kids rfl h
    simp only [kids_simp] at hk
    obtain ⟨a, _, b, hb, c, _, d, _, rfl⟩ := hk
    rcases hb with hb | hb
    all_goals
      obtain ⟨s, ks, rfl, _⟩ := tok_kids rfl hb
      exact ⟨_, rfl⟩

theorem squawk_safe {T s r : Str} {ts : List (Tree Rule)} (hb : Behind 8 [] T s r)
    (h : Out skip K Peg.Ese.squawk_range .nonAtomic s r ts) : ∃ t, ts = [t] ∧ Sf T (parseSquawkRange (some t)) := by
  obtain ⟨kids, ho, rfl⟩ := h
  refine ⟨_, rfl, ?_⟩
  obtain ⟨a, m, m', b, t1, t2, rfl, _, _, h3, h4, h5, h6, rfl⟩ := peel line_integer ho
  obtain ⟨ia, rfl⟩ := out_integer_rule h5
  obtain ⟨ib, rfl⟩ := out_integer_rule h6
  have e : parseSquawkRange (some (.node .squawk_range (a ++ (m ++ ':' :: (m' ++ b))) [.node .integer a [], .node .integer b []])) =
      gated (Spec.Ese.Fits (2 ^ 16) a ∧ Spec.Ese.Fits (2 ^ 16) b) (some (number a, number b)) := by
    show (nextUnsigned (2 ^ 16) (.node .integer a [] :: _)).bind _ = _
    rw [read_unsigned ia]
    refine gated_bind ?_
    show (nextUnsigned (2 ^ 16) (.node .integer b [] :: _)).bind _ = _
    rw [read_unsigned ib]
    exact gated_ok rfl
  show Sf T (parseSquawkRange (some (.node .squawk_range (a ++ (m ++ ':' :: (m' ++ b))) [.node .integer a [], .node .integer b []])))
  rw [e]
  refine gated_safe fun hn => ?_
  obtain ⟨c, t, ea, hc⟩ := integer_head ia
  obtain ⟨rest, m0, h1, h2, h8, h9⟩ := behind_blanks hb ⟨c, t ++ (m ++ ':' :: (m' ++ b)), by rw [ea]; rfl, hc⟩
  exact ⟨_, by simpa using h1, .squawk rest m0 a m m' b (noNl_iff.1 h2) h9 h8 ia h3 (blanks_before h4 (integer_head ib)) ib hn⟩

theorem freq_tok {s r : Str} {ts : List (Tree Rule)} (h : Out skip K Peg.Ese.frequency .nonAtomic s r ts) : ∃ t, ts = [t] := by
  obtain ⟨kids, _, rfl⟩ := h
  exact ⟨_, rfl⟩

theorem oneLine_seq {x y : Expr Rule} (hx : OneLine skip K x .nonAtomic) (hy : OneLine skip K y .nonAtomic) :
    OneLine skip K (x ⬝ y) .nonAtomic := by
  rintro s r ts ⟨s1, m, s2, t1, t2, rfl, hg, h1, h2, rfl⟩
  have hg : K m (s2 ++ r) := hg
  exact noNl_append.2 ⟨noNl_append.2 ⟨hx _ _ _ h1, k_noNl hg⟩, hy _ _ _ h2⟩

theorem line_colon : OneLine skip K (.str c!":") .nonAtomic := oneLine_str (by simp [NoNl]; decide)

theorem line_coordPart : OneLine skip K Peg.Ese.coord_part .nonAtomic := by
  intro s r ts h
  rcases coordPart_token h with ⟨d, hd, rfl, _⟩ | ⟨hd, _⟩
  · have hd' : ∀ c, isAsciiDigit c = true → isNewlineChar c = false := fun c hc => by
      cases hn : isNewlineChar c with
      | false => rfl
      | true => rcases newline_iff.1 hn with rfl | rfl <;> exact absurd hc (by decide)
    obtain ⟨hc, h1, h2, h3⟩ := hd
    intro c hm
    simp only [DmsText.text, List.mem_append, List.mem_cons] at hm
    rcases hm with rfl | hm | rfl | hm | rfl | hm
    · revert hc
      generalize d.hemi = c
      revert c; decide
    · exact hd' c (h1.2 c hm)
    · decide
    · exact hd' c (h2.2 c hm)
    · decide
    · exact decimal_noNl h3 c hm
  · exact decimal_noNl hd

theorem line_coordinate : OneLine skip K Peg.Ese.coordinate .nonAtomic :=
  oneLine_rule (oneLine_seq line_coordPart (oneLine_seq line_colon line_coordPart))

theorem line_squawk : OneLine skip K Peg.Ese.squawk_range .nonAtomic :=
  oneLine_rule (oneLine_seq line_integer (oneLine_seq line_colon line_integer))

/-- The coordinates at the end of a line, of which one may be no value. -/
def Points (F : Type) [F64 F] [DmsArith F] (s : Str) (ts : List (Tree Rule)) : Prop :=
  ∀ t ∈ ts, t.asRule = .coordinate ∧
    ((∃ p, parseCoordinate (F := F) t = .ok p) ∨ ∃ pre c, pre ++ c <+: s ∧ NoNl pre ∧ IsBadCoordinate c)

theorem Points.seq {x y : Expr Rule} {s r : Str} {ts : List (Tree Rule)} (hl : OneLine skip K x .nonAtomic)
    (hx : ∀ s r ts, Out skip K x .nonAtomic s r ts → Points F s ts) (hy : ∀ s r ts, Out skip K y .nonAtomic s r ts → Points F s ts)
    (h : Out skip K (x ⬝ y) .nonAtomic s r ts) : Points F s ts := by
  obtain ⟨s1, m, s2, t1, t2, rfl, hg, h1, h2, rfl⟩ := h
  have hg : K m (s2 ++ r) := hg
  intro t ht
  rcases List.mem_append.1 ht with ht | ht
  · obtain ⟨e, h⟩ := hx _ _ _ h1 t ht
    refine ⟨e, h.imp_right ?_⟩
    rintro ⟨pre, c, hp, hn, hb⟩
    exact ⟨pre, c, hp.trans ((List.prefix_append ..).trans (List.prefix_append ..)), hn, hb⟩
  · obtain ⟨e, h⟩ := hy _ _ _ h2 t ht
    refine ⟨e, h.imp_right ?_⟩
    rintro ⟨pre, c, ⟨u, rfl⟩, hn, hb⟩
    exact ⟨s1 ++ m ++ pre, c, ⟨u, by simp⟩, noNl_append.2 ⟨noNl_append.2 ⟨hl _ _ _ h1, k_noNl hg⟩, hn⟩, hb⟩

theorem Points.opt {x : Expr Rule} {s r : Str} {ts : List (Tree Rule)} (hx : ∀ s r ts, Out skip K x .nonAtomic s r ts → Points F s ts)
    (h : Out skip K (.opt x) .nonAtomic s r ts) : Points F s ts := by
  rcases h with h | ⟨rfl, rfl, _⟩
  · exact hx _ _ _ h
  · intro t ht; simp at ht

include hnum in
theorem points_coord {s r : Str} {ts : List (Tree Rule)} (h : Out skip K Peg.Ese.coordinate .nonAtomic s r ts) : Points F s ts := by
  obtain ⟨t, rfl, e, h⟩ := coord_safe (F := F) num hnum h
  intro u hu
  rw [List.mem_singleton.1 hu]
  exact ⟨e, h.imp_right fun hb => ⟨[], s, List.prefix_rfl, by simp [NoNl], hb⟩⟩

theorem points_colon {s r : Str} {ts : List (Tree Rule)} (h : Out skip K (.str c!":") .nonAtomic s r ts) : Points F s ts := by
  obtain ⟨_, rfl⟩ := h
  intro t ht; simp at ht

include hnum in
theorem points_all {s r : Str} {ts : List (Tree Rule)} (h : Out skip K ((.opt (.str c!":")) ⬝ (.opt Peg.Ese.coordinate) ⬝
    (.opt ((.str c!":") ⬝ Peg.Ese.coordinate)) ⬝ (.opt ((.str c!":") ⬝ Peg.Ese.coordinate)) ⬝
    (.opt ((.str c!":") ⬝ Peg.Ese.coordinate))) .nonAtomic s r ts) : Points F s ts := by
  have o : ∀ s r ts, Out skip K (.opt Peg.Ese.coordinate) .nonAtomic s r ts → Points F s ts :=
    fun _ _ _ => Points.opt fun _ _ _ => points_coord num hnum
  have o' : ∀ s r ts, Out skip K (.opt ((.str c!":") ⬝ Peg.Ese.coordinate)) .nonAtomic s r ts → Points F s ts :=
    fun _ _ _ => Points.opt fun _ _ _ => Points.seq line_colon (fun _ _ _ => points_colon) fun _ _ _ => points_coord num hnum
  have l : OneLine skip K (.opt ((.str c!":") ⬝ Peg.Ese.coordinate)) .nonAtomic := oneLine_opt (oneLine_seq line_colon line_coordinate)
  exact Points.seq (oneLine_opt line_colon) (fun _ _ _ => Points.opt fun _ _ _ => points_colon)
    (fun _ _ _ => Points.seq (oneLine_opt line_coordinate) o fun _ _ _ => Points.seq l o' fun _ _ _ => Points.seq l o' o') h

theorem points_safe {T s : Str} {ts us : List (Tree Rule)} {pre : Str} (hT : pre ++ s <:+: T) (hn : NoNl pre)
    (hc : 9 ≤ pre.count ':') (h : Points F s ts) (hu : ∀ t ∈ us, t ∈ ts) : Sf T (us.mapM (parseCoordinate (F := F))) := by
  refine safe_mapM fun t ht => (h t (hu t ht)).2.imp_right ?_
  rintro ⟨p, c, ⟨u, rfl⟩, hp, hb⟩
  refine ⟨(pre ++ p) ++ c, List.IsInfix.trans ⟨[], u, by simp⟩ hT, .point _ _ (noNl_iff.1 (noNl_append.2 ⟨hn, hp⟩)) ?_ hb⟩
  rw [List.count_append]; omega

include hnum in
theorem position_safe {t : Tree Rule} (h : Tok skip K Peg.Ese.position .nonAtomic t) : Sf t.asStr (parsePosition (F := F) t) := by
  obtain ⟨T, r, kids, rfl, ho⟩ := tok_rule rfl h
  have hin := out_infix _ _ _ _ _ ho
  obtain ⟨_, _, s1, _, _, h1, g1, c1, e⟩ := start List.infix_rfl line_colonText ho
  subst e
  obtain ⟨_, _, s2, _, _, h2, b2, g2, c2, e⟩ := step c1 line_colonText g1
  subst e
  obtain ⟨_, _, s3, _, _, h3, b3, g3, c3, e⟩ := step c2 line_frequency g2
  subst e
  obtain ⟨_, _, s4, _, _, h4, b4, g4, c4, e⟩ := step c3 line_colonText g3
  subst e
  obtain ⟨_, _, s5, _, _, h5, b5, g5, c5, e⟩ := step c4 line_colonText g4
  subst e
  obtain ⟨_, _, s6, _, _, h6, b6, g6, c6, e⟩ := step c5 line_colonText g5
  subst e
  obtain ⟨_, _, s7, _, _, h7, b7, g7, c7, e⟩ := step c6 line_colonText g6
  subst e
  obtain ⟨_, _, s8, _, _, h8, b8, g8, c8, e⟩ := step c7 line_colonText g7
  subst e
  obtain ⟨_, _, s9, _, _, h9, b9, g9, c9, e⟩ := step c8 line_colonText g8
  subst e
  obtain ⟨sq, m, rest, tq, tp, e, hg, h10, h11, e'⟩ := g9
  subst e e'
  obtain ⟨t1, rfl, _⟩ := cdt_tok h1
  obtain ⟨t2, rfl, _⟩ := cdt_tok h2
  obtain ⟨t3, rfl⟩ := freq_tok h3
  obtain ⟨t4, rfl, _⟩ := cdt_tok h4
  obtain ⟨t5, rfl, _⟩ := cdt_tok h5
  obtain ⟨t6, rfl, _⟩ := cdt_tok h6
  obtain ⟨t7, rfl, _⟩ := cdt_tok h7
  obtain ⟨t8, rfl, _⟩ := cdt_tok h8
  obtain ⟨t9, rfl, _⟩ := cdt_tok h9
  have hp := points_all (F := F) num hnum h11
  obtain ⟨pre, hT, hn, hc⟩ : ∃ pre, pre ++ rest <:+: T ∧ NoNl pre ∧ 9 ≤ pre.count ':' := by
    obtain ⟨q, m0, hT, hq, hm0, _, hc⟩ := c9
    have hg : K m (rest ++ r) := hg
    refine ⟨q ++ ':' :: (m0 ++ (sq ++ m)), by simpa using hT, ?_, ?_⟩
    · refine noNl_append.2 ⟨hq, ?_⟩
      intro c hm
      rcases List.mem_cons.1 hm with rfl | hm
      · decide
      · exact noNl_append.2 ⟨hm0, noNl_append.2 ⟨oneLine_opt line_squawk _ _ _ h10, k_noNl hg⟩⟩ c hm
    · simp only [List.count_append, List.count_cons_self]
      omega
  rw [List.append_assoc] at c9
  show Sf T ((parseSquawkRange (tq ++ tp).head?).bind _)
  rcases h10 with h10 | ⟨rfl, rfl, _⟩
  · rw [← List.append_assoc] at h10
    obtain ⟨t10, rfl, hs⟩ := squawk_safe (behind_prefix c9) h10
    refine hs.bind fun v _ => ?_
    exact Safe.bind (points_safe hT hn hc hp fun _ h => h) fun v _ => safe_ok _
  · have : parseSquawkRange tp.head? = .ok Option.none := by
      cases tp with
      | nil => rfl
      | cons t tp =>
        have := (hp t List.mem_cons_self).1
        cases t with
        | node q s ks =>
          cases this
          rfl
    rw [List.nil_append, this]
    refine Safe.bind (m := .ok Option.none) (safe_ok _) fun v _ => ?_
    exact Safe.bind (points_safe hT hn hc hp (us := tp.tail) fun _ h => List.mem_of_mem_tail h) fun v _ => safe_ok _

include hnum in
theorem section_safe [UnicodeTables] {G : Type} [F64 G] {t : Tree Rule} {k : List (Tree Rule)}
    (hk : Kids skip K Peg.Ese.section_ .nonAtomic k) (ht : t ∈ k) : Sf t.asStr (parseSection (F := F) G t) := by
  unfold Peg.Ese.section_ at hk
  simp only [kids_simp] at hk
  obtain ⟨t', h, rfl⟩ := hk
  rw [List.mem_singleton.1 ht]
  rcases h with h | h | h | h
  · have hin := tok_infix rfl h
    obtain ⟨T, kids, rfl, hk⟩ := tok_kids rfl h
    simp only [kids_simp] at hk
    obtain ⟨ks, hk, rfl⟩ := hk
    have : Sf T (kids.mapM (parsePosition (F := F))) :=
      safe_mapM fun t ht => (position_safe num hnum (hk t ht)).mono (hin t ht)
    exact this.bind fun v _ => safe_ok _
  · have hin := tok_infix rfl h
    obtain ⟨T, kids, rfl, hk⟩ := tok_kids rfl h
    obtain ⟨k1, hk1, k2, ⟨k3, hk3, k4, hk4, rfl⟩, rfl⟩ := hk
    rw [kids_mute _ _ _ rfl hk1, kids_mute _ _ _ rfl hk3, List.nil_append, List.nil_append] at *
    have : Sf T (k4.mapM (parseAirspace (F := F) (G := G))) := safe_mapM fun t ht =>
      (kids_star_all (P := fun t => Sf t.asStr (parseAirspace (F := F) (G := G) t)) hk4
        (fun k hk t ht => item_safe num hnum hk ht) t ht).mono (hin t ht)
    exact this.bind fun v _ => safe_ok _
  · obtain ⟨T, kids, rfl, hk⟩ := tok_kids rfl h
    simp only [kids_simp] at hk
    obtain ⟨ks, hk, rfl⟩ := hk
    have : Sf T (kids.mapM parseSidStar) := safe_mapM fun t ht => Or.inl (sidStar_ok (hk t ht))
    exact this.bind fun v _ => safe_ok _
  · obtain ⟨T, kids, rfl, hk⟩ := tok_kids rfl h
    exact safe_ok _

include hnum in
/-- The outcome of reading a file. -/
theorem parse_cases [UnicodeTables] {G : Type} [F64 G] (content : Str) :
    Verif.Parse.Ese.parse (F := F) G content = .error .parseError ∨ Sf content (Verif.Parse.Ese.parse (F := F) G content) := by
  rcases run_tok Peg.Ese.ese rfl (sk := skip) (skipBoth_ok rfl rfl) rfl rfl content with h | ⟨kids, h, ho⟩
  · left
    show (run skip Peg.Ese.ese content).bind _ = _
    rw [h]
    rfl
  · right
    have hin := out_infix _ _ _ _ _ ho
    have hk := out_kids _ _ _ _ _ ho
    obtain ⟨k1, hk1, _, ⟨k2, hk2, _, ⟨k3, hk3, k4, hk4, rfl⟩, rfl⟩, rfl⟩ := hk
    rw [kids_mute _ _ _ rfl hk1, kids_mute _ _ _ rfl hk2, List.nil_append, List.nil_append] at *
    have : Sf content ((k3 ++ k4).mapM (parseSection (F := F) G)) := by
      refine safe_mapM fun t ht => ?_
      rcases List.mem_append.1 ht with h | h
      · exact (kids_plus_all (P := fun t => Sf t.asStr (parseSection (F := F) G t)) hk3
          (fun k hk t ht => section_safe num hnum hk ht) t h).mono (hin t ht)
      · have hk4 : k4 = [Tree.node Rule.EOI [] []] := by simpa [Kids] using hk4
        subst hk4
        rw [List.mem_singleton.1 h]
        exact safe_ok _
    show Sf content ((run skip Peg.Ese.ese content).bind _)
    rw [h]
    exact Safe.bind (m := (k3 ++ k4).mapM (parseSection (F := F) G)) this fun v _ => safe_ok _
end

end Verif.Proofs.Ese
