import Verif.Proofs.JsonText
import Verif.Spec.LineEnds
/-! # Line ends in JSON texts -/

namespace Verif.Proofs.JsonText
open Verif.Json (J)
open Verif.JsonText Verif.Spec.JsonText Verif.Spec

theorem same_symm {s t : Str} (h : SameLines s t) : SameLines t s := by
  induction h with
  | nil => exact .nil
  | char b h1 h2 _ ih => exact .char b h1 h2 ih
  | lineEnd he hf _ ih => exact .lineEnd hf he ih

theorem same_cons {c : Char} {s u t : Str} (h : SameLines u t) (hu : u = c :: s) (h1 : c ≠ '\r') (h2 : c ≠ '\n') :
    ∃ t', t = c :: t' ∧ SameLines s t' := by
  cases h with
  | nil => cases hu
  | char b' _ _ h => cases hu; exact ⟨_, rfl, h⟩
  | lineEnd he hf h => rcases he with rfl | rfl <;> cases hu <;> contradiction

theorem same_prefix {l s u t : Str} (h : SameLines u t) (hu : u = l ++ s) (hl : ∀ c ∈ l, c ≠ '\r' ∧ c ≠ '\n') :
    ∃ t', t = l ++ t' ∧ SameLines s t' := by
  induction l generalizing u t with
  | nil => exact ⟨t, rfl, by rw [← show u = s from hu]; exact h⟩
  | cons b l ih =>
    obtain ⟨t', rfl, h'⟩ := same_cons h hu (hl b (by simp)).1 (hl b (by simp)).2
    obtain ⟨t'', rfl, h''⟩ := ih h' rfl fun b hb => hl b (by simp [hb])
    exact ⟨t'', rfl, h''⟩

/-- The text does not start with a part of a line end. -/
def Proper (s : Str) : Prop := ∀ c, s.head? = some c → c ≠ '\r' ∧ c ≠ '\n'

theorem ws_lineEnd {f : Str} (h : IsLineEnd f) : Ws f := by
  rcases h with rfl | rfl <;> intro c hc <;> simp only [List.mem_cons, List.not_mem_nil, or_false] at hc
  · simp [hc]
  · rcases hc with rfl | rfl <;> simp

theorem ws_append {a b : Str} (ha : Ws a) (hb : Ws b) : Ws (a ++ b) := fun c hc => (List.mem_append.1 hc).elim (ha c) (hb c)

theorem same_ws : ∀ (n : Nat) (w : Str), w.length ≤ n → Ws w → ∀ {s u : Str}, Proper s → SameLines (w ++ s) u →
    ∃ w' u', u = w' ++ u' ∧ Ws w' ∧ SameLines s u'
  | _, [], _, _, s, u, _, h => ⟨[], u, rfl, ws_nil, h⟩
  | n + 1, c :: w, hn, hw, s, u, hs, h => by
    have hw' : Ws w := fun d hd => hw d (by simp [hd])
    have hn' : w.length ≤ n := by simpa using hn
    generalize hx : c :: w ++ s = x at h
    cases h with
    | nil => cases hx
    | char d h1 h2 h =>
      cases hx
      obtain ⟨w', u', rfl, hw2, h'⟩ := same_ws n w hn' hw' hs h
      exact ⟨c :: w', u', rfl, fun d hd => by
        rcases List.mem_cons.1 hd with rfl | hd
        · exact hw d (by simp)
        · exact hw2 d hd, h'⟩
    | @lineEnd s1 t1 e f he hf h =>
      rcases he with rfl | rfl
      · cases hx
        obtain ⟨w', u', rfl, hw2, h'⟩ := same_ws n w hn' hw' hs h
        exact ⟨f ++ w', u', by simp, ws_append (ws_lineEnd hf) hw2, h'⟩
      · match w, hx with
        | [], hx =>
          simp at hx
          have := hs '\n' (by rw [hx.2]; rfl)
          exact absurd rfl this.2
        | d :: w, hx =>
          cases hx
          obtain ⟨w', u', rfl, hw2, h'⟩ := same_ws n w (by simp at hn'; omega) (fun d hd => hw' d (by simp [hd])) hs h
          exact ⟨f ++ w', u', by simp, ws_append (ws_lineEnd hf) hw2, h'⟩

theorem ws_same {w : Str} (hw : Ws w) {s u : Str} (hs : Proper s) (h : SameLines (w ++ s) u) :
    ∃ w' u', u = w' ++ u' ∧ Ws w' ∧ SameLines s u' := same_ws w.length w (Nat.le_refl _) hw hs h

theorem proper_cons {c : Char} (h1 : c ≠ '\r') (h2 : c ≠ '\n') (s : Str) : Proper (c :: s) := by
  intro d hd; cases hd; exact ⟨h1, h2⟩

theorem val_proper {fits : Rat → Bool} {d : Nat} {t : Str} {j : J} (h : Val fits d t j) (r : Str) : Proper (t ++ r) := by
  obtain ⟨c, u, rfl, hc, _⟩ := val_head h
  exact proper_cons (by rintro rfl; revert hc; decide) (by rintro rfl; revert hc; decide) _

theorem hex_chars {x : Str} {n : Nat} (h : Hex x n) : ∀ c ∈ x, c ≠ '\r' ∧ c ≠ '\n' := by
  obtain ⟨hl, hd⟩ := h
  have key : ∀ c, (toDigit 16 c).isSome = true → c ≠ '\r' ∧ c ≠ '\n' := by
    intro c hc
    constructor <;> rintro rfl <;> revert hc <;> decide
  match x, hl with
  | [a, b, c, d], _ =>
    simp only [digitsIn, List.foldl_cons, List.foldl_nil, Option.bind_some] at hd
    cases ha : toDigit 16 a with
    | none => rw [ha] at hd; simp at hd
    | some a' =>
      rw [ha] at hd
      cases hb : toDigit 16 b with
      | none => rw [hb] at hd; simp at hd
      | some b' =>
        rw [hb] at hd
        cases hc : toDigit 16 c with
        | none => rw [hc] at hd; simp at hd
        | some c' =>
          rw [hc] at hd
          cases hdd : toDigit 16 d with
          | none => rw [hdd] at hd; simp at hd
          | some d' =>
            intro x hx
            simp only [List.mem_cons, List.not_mem_nil, or_false] at hx
            rcases hx with rfl | rfl | rfl | rfl
            · exact key _ (by rw [ha]; rfl)
            · exact key _ (by rw [hb]; rfl)
            · exact key _ (by rw [hc]; rfl)
            · exact key _ (by rw [hdd]; rfl)

theorem chars_lines {t v : Str} (h : Chars t v) : ∀ c ∈ t, c ≠ '\r' ∧ c ≠ '\n' := by
  induction h with
  | nil => intro c hc; cases hc
  | plain _ _ h32 _ ih =>
    intro c hc
    rcases List.mem_cons.1 hc with rfl | hc
    · constructor <;> rintro rfl <;> revert h32 <;> decide
    · exact ih c hc
  | simple hs _ ih =>
    intro c hc
    rcases List.mem_cons.1 hc with rfl | hc
    · decide
    · rcases List.mem_cons.1 hc with rfl | hc
      · cases hs <;> decide
      · exact ih c hc
  | unit hx _ _ ih =>
    intro c hc
    simp only [List.mem_cons, List.mem_append] at hc
    rcases hc with rfl | rfl | hc | hc
    · decide
    · decide
    · exact hex_chars hx c hc
    · exact ih c hc
  | pair hx _ hy _ _ ih =>
    intro c hc
    simp only [List.mem_cons, List.mem_append] at hc
    rcases hc with rfl | rfl | hc | rfl | rfl | hc | hc
    · decide
    · decide
    · exact hex_chars hx c hc
    · decide
    · decide
    · exact hex_chars hy c hc
    · exact ih c hc

theorem number_lines {n : Numeral} (h : n.Valid) : ∀ c ∈ n.text, c ≠ '\r' ∧ c ≠ '\n' := by
  intro c hc
  have := text_numchars h c hc
  constructor <;> rintro rfl <;> revert this <;> decide

mutual
theorem val_lines {fits : Rat → Bool} {d : Nat} {t : Str} {j : J} (h : Val fits d t j) (r u : Str) (hu : SameLines (t ++ r) u) :
    ∃ t' r', u = t' ++ r' ∧ Val fits d t' j ∧ SameLines r r' := by
  cases h with
  | null =>
    obtain ⟨r', rfl, h'⟩ := same_prefix hu rfl (by decide)
    exact ⟨_, r', rfl, .null, h'⟩
  | true =>
    obtain ⟨r', rfl, h'⟩ := same_prefix hu rfl (by decide)
    exact ⟨_, r', rfl, .true, h'⟩
  | false =>
    obtain ⟨r', rfl, h'⟩ := same_prefix hu rfl (by decide)
    exact ⟨_, r', rfl, .false, h'⟩
  | num hv hf =>
    obtain ⟨r', rfl, h'⟩ := same_prefix hu rfl (number_lines hv)
    exact ⟨_, r', rfl, .num hv hf, h'⟩
  | str hc =>
    obtain ⟨r', rfl, h'⟩ := same_prefix hu rfl (by
      intro c hm
      simp only [List.mem_cons, List.mem_append, List.not_mem_nil, or_false] at hm
      rcases hm with rfl | hm | rfl
      · decide
      · exact chars_lines hc c hm
      · decide)
    exact ⟨_, r', rfl, .str hc, h'⟩
  | @noItem d w hw =>
    simp only [List.cons_append, List.append_assoc, List.nil_append] at hu
    obtain ⟨u1, rfl, h1⟩ := same_cons hu rfl (by decide) (by decide)
    obtain ⟨w', u2, rfl, hw', h2⟩ := ws_same hw (proper_cons (by decide) (by decide) _) h1
    obtain ⟨u3, rfl, h3⟩ := same_cons h2 rfl (by decide) (by decide)
    exact ⟨'[' :: (w' ++ [']']), u3, by simp, .noItem hw', h3⟩
  | @arr d t l hi =>
    simp only [List.cons_append, List.append_assoc, List.nil_append] at hu
    obtain ⟨u1, rfl, h1⟩ := same_cons hu rfl (by decide) (by decide)
    obtain ⟨t', r', rfl, hi', h'⟩ := items_lines hi r u1 h1
    exact ⟨'[' :: (t' ++ [']']), r', by simp, .arr hi', h'⟩
  | @noField d w hw =>
    simp only [List.cons_append, List.append_assoc, List.nil_append] at hu
    obtain ⟨u1, rfl, h1⟩ := same_cons hu rfl (by decide) (by decide)
    obtain ⟨w', u2, rfl, hw', h2⟩ := ws_same hw (proper_cons (by decide) (by decide) _) h1
    obtain ⟨u3, rfl, h3⟩ := same_cons h2 rfl (by decide) (by decide)
    exact ⟨'{' :: (w' ++ ['}']), u3, by simp, .noField hw', h3⟩
  | @obj d t l hi =>
    simp only [List.cons_append, List.append_assoc, List.nil_append] at hu
    obtain ⟨u1, rfl, h1⟩ := same_cons hu rfl (by decide) (by decide)
    obtain ⟨t', r', rfl, hi', h'⟩ := members_lines hi r u1 h1
    exact ⟨'{' :: (t' ++ ['}']), r', by simp, .obj hi', h'⟩

theorem items_lines {fits : Rat → Bool} {d : Nat} {t : Str} {l : List J} (h : Items fits d t l) (r u : Str)
    (hu : SameLines (t ++ ']' :: r) u) : ∃ t' r', u = t' ++ ']' :: r' ∧ Items fits d t' l ∧ SameLines r r' := by
  cases h with
  | @one _ a t b j ha hv hb =>
    simp only [List.append_assoc] at hu
    obtain ⟨a', u1, rfl, ha', h1⟩ := ws_same ha (val_proper hv _) hu
    obtain ⟨t', u2, rfl, hv', h2⟩ := val_lines hv _ _ h1
    obtain ⟨b', u3, rfl, hb', h3⟩ := ws_same hb (proper_cons (by decide) (by decide) _) h2
    obtain ⟨u4, rfl, h4⟩ := same_cons h3 rfl (by decide) (by decide)
    exact ⟨a' ++ (t' ++ b'), u4, by simp, .one ha' hv' hb', h4⟩
  | @more _ a t b v j l ha hv hb hi =>
    simp only [List.append_assoc, List.cons_append] at hu
    obtain ⟨a', u1, rfl, ha', h1⟩ := ws_same ha (val_proper hv _) hu
    obtain ⟨t', u2, rfl, hv', h2⟩ := val_lines hv _ _ h1
    obtain ⟨b', u3, rfl, hb', h3⟩ := ws_same hb (proper_cons (by decide) (by decide) _) h2
    obtain ⟨u4, rfl, h4⟩ := same_cons h3 rfl (by decide) (by decide)
    obtain ⟨v', u5, rfl, hi', h5⟩ := items_lines hi r _ h4
    exact ⟨a' ++ (t' ++ (b' ++ ',' :: v')), u5, by simp, .more ha' hv' hb' hi', h5⟩

theorem members_lines {fits : Rat → Bool} {d : Nat} {t : Str} {o : List (Str × J)} (h : Members fits d t o) (r u : Str)
    (hu : SameLines (t ++ '}' :: r) u) : ∃ t' r', u = t' ++ '}' :: r' ∧ Members fits d t' o ∧ SameLines r r' := by
  cases h with
  | @one _ a x b c t e k j ha hx hb hc hv he =>
    simp only [List.append_assoc, List.cons_append] at hu
    obtain ⟨a', u1, rfl, ha', h1⟩ := ws_same ha (proper_cons (by decide) (by decide) _) hu
    obtain ⟨u2, rfl, h2⟩ := same_cons h1 rfl (by decide) (by decide)
    obtain ⟨u3, rfl, h3⟩ := same_prefix h2 rfl (chars_lines hx)
    obtain ⟨u4, rfl, h4⟩ := same_cons h3 rfl (by decide) (by decide)
    obtain ⟨b', u5, rfl, hb', h5⟩ := ws_same hb (proper_cons (by decide) (by decide) _) h4
    obtain ⟨u6, rfl, h6⟩ := same_cons h5 rfl (by decide) (by decide)
    obtain ⟨c', u7, rfl, hc', h7⟩ := ws_same hc (val_proper hv _) h6
    obtain ⟨t', u8, rfl, hv', h8⟩ := val_lines hv _ _ h7
    obtain ⟨e', u9, rfl, he', h9⟩ := ws_same he (proper_cons (by decide) (by decide) _) h8
    obtain ⟨u10, rfl, h10⟩ := same_cons h9 rfl (by decide) (by decide)
    exact ⟨a' ++ '"' :: (x ++ '"' :: (b' ++ ':' :: (c' ++ (t' ++ e')))), u10, by simp, .one ha' hx hb' hc' hv' he', h10⟩
  | @more _ a x b c t e k v j o ha hx hb hc hv he hm =>
    simp only [List.append_assoc, List.cons_append] at hu
    obtain ⟨a', u1, rfl, ha', h1⟩ := ws_same ha (proper_cons (by decide) (by decide) _) hu
    obtain ⟨u2, rfl, h2⟩ := same_cons h1 rfl (by decide) (by decide)
    obtain ⟨u3, rfl, h3⟩ := same_prefix h2 rfl (chars_lines hx)
    obtain ⟨u4, rfl, h4⟩ := same_cons h3 rfl (by decide) (by decide)
    obtain ⟨b', u5, rfl, hb', h5⟩ := ws_same hb (proper_cons (by decide) (by decide) _) h4
    obtain ⟨u6, rfl, h6⟩ := same_cons h5 rfl (by decide) (by decide)
    obtain ⟨c', u7, rfl, hc', h7⟩ := ws_same hc (val_proper hv _) h6
    obtain ⟨t', u8, rfl, hv', h8⟩ := val_lines hv _ _ h7
    obtain ⟨e', u9, rfl, he', h9⟩ := ws_same he (proper_cons (by decide) (by decide) _) h8
    obtain ⟨u10, rfl, h10⟩ := same_cons h9 rfl (by decide) (by decide)
    obtain ⟨v', u11, rfl, hm', h11⟩ := members_lines hm r _ h10
    exact ⟨a' ++ '"' :: (x ++ '"' :: (b' ++ ':' :: (c' ++ (t' ++ (e' ++ ',' :: v'))))), u11, by simp,
      .more ha' hx hb' hc' hv' he' hm', h11⟩
end

theorem text_lines {fits : Rat → Bool} {d : Nat} {s u : Str} {j : J} (h : Text fits d s j) (hu : SameLines s u) : Text fits d u j := by
  obtain ⟨a, t, b, ha, hb, rfl, hv⟩ := h
  obtain ⟨a', u1, rfl, ha', h1⟩ := ws_same ha (val_proper hv _) hu
  obtain ⟨t', u2, rfl, hv', h2⟩ := val_lines hv _ _ h1
  obtain ⟨b', u3, rfl, hb', h3⟩ := ws_same hb (s := []) (by intro c hc; cases hc) (by rwa [List.append_nil])
  have : u3 = [] := by
    generalize hx : ([] : Str) = x at h3
    cases h3 with
    | nil => rfl
    | char => cases hx
    | lineEnd he _ _ => rcases he with rfl | rfl <;> cases hx
  subst this
  exact ⟨a', t', b', ha', hb', by simp, hv'⟩

theorem read_lines {fits : Rat → Bool} {s u : Str} (h : SameLines s u) : JsonText.read fits s = JsonText.read fits u := by
  cases hs : JsonText.read fits s with
  | some j => exact (read_complete (text_lines (read_sound hs) h)).symm
  | none =>
    cases hu : JsonText.read fits u with
    | none => rfl
    | some j =>
      have := read_complete (text_lines (read_sound hu) (same_symm h))
      rw [hs] at this; cases this

end Verif.Proofs.JsonText
