import Verif.Proofs.SymbologyPanic
/-!
# Symbology files: everything that is accepted has the described form
-/

namespace Verif.Proofs.Symbology
open Verif.Peg Verif.Spec Verif.Spec.Symbology Verif.Parse.Symbology Verif.Proofs.SymbolRule
open Verif.Peg.Symbology (Rule skip)
open Verif.Spec.Drawing (Drawing)

abbrev T := Toks skip K

theorem toks_integer : T Peg.Symbology.integer fun l => ∃ v, l = [v] ∧ IsInteger v :=
  toks_one lineSkip fun _ _ _ h => (integer_token h).1

theorem toks_decimal : T Peg.Symbology.decimal fun l => ∃ v, l = [v] ∧ IsDecimal v :=
  toks_one lineSkip fun _ _ _ h => (decimal_token h).1

theorem toks_style : T Peg.Symbology.line_style fun l => ∃ v, l = [v] ∧ ∃ p ∈ styles, v = p.1 := by
  refine toks_one lineSkip ?_
  rintro s r ts ⟨kids, ⟨c, rfl, hc, rfl⟩, _⟩
  have h0 : 48 ≤ c.toNat ∧ c.toNat ≤ 52 := by simpa [inRange] using hc
  have : c.toNat = 48 ∨ c.toNat = 49 ∨ c.toNat = 50 ∨ c.toNat = 51 ∨ c.toNat = 52 := by omega
  rcases this with h | h | h | h | h <;> rw [char_eq h]
  · exact ⟨(c!"0", c!"SOLID"), by decide, rfl⟩
  · exact ⟨(c!"1", c!"DASH"), by decide, rfl⟩
  · exact ⟨(c!"2", c!"DOT"), by decide, rfl⟩
  · exact ⟨(c!"3", c!"DASHDOT"), by decide, rfl⟩
  · exact ⟨(c!"4", c!"DASHDOTDOT"), by decide, rfl⟩

theorem toks_alignment : T Peg.Symbology.alignment fun l => ∃ v, l = [v] ∧ ∃ p ∈ alignments, v = p.1 := by
  refine toks_one lineSkip ?_
  rintro s r ts ⟨kids, h1, _⟩
  have key : ∀ n : Fin 9, ∃ p ∈ alignments, (alignments[n.val]'n.isLt).1 = p.1 := fun n => ⟨_, List.getElem_mem _, rfl⟩
  rcases h1 with ⟨rfl, rfl⟩ | ⟨⟨rfl, rfl⟩ | ⟨⟨rfl, rfl⟩ | ⟨h1, _⟩, _⟩, _⟩
  · exact key 6
  · exact key 7
  · exact key 8
  · rcases h1 with ⟨c, rfl, hc, rfl⟩ | ⟨⟨c, rfl, hc, rfl⟩, _⟩
    · have h0 : 48 ≤ c.toNat ∧ c.toNat ≤ 50 := by simpa [inRange] using hc
      have : c.toNat = 48 ∨ c.toNat = 49 ∨ c.toNat = 50 := by omega
      rcases this with h | h | h <;> rw [char_eq h]
      · exact key 0
      · exact key 1
      · exact key 2
    · have h0 : 54 ≤ c.toNat ∧ c.toNat ≤ 56 := by simpa [inRange] using hc
      have : c.toNat = 54 ∨ c.toNat = 55 ∨ c.toNat = 56 := by omega
      rcases this with h | h | h <;> rw [char_eq h]
      · exact key 3
      · exact key 4
      · exact key 5

theorem toks_item : T Peg.Symbology.item fun l => ∃ i : ItemLine × Str, l = i.1.tokens ++ [i.2] ∧ i.1.Valid ∧ IsBreak i.2 := by
  have c12 := toks_NL lineSkip (R := Rule)
  have c11 := toks_seq lineSkip toks_alignment c12
  have c9 := toks_seq lineSkip toks_integer (toks_seq lineSkip (toks_str lineSkip (w := c!":")) c11)
  have c7 := toks_seq lineSkip toks_style (toks_seq lineSkip (toks_str lineSkip (w := c!":")) c9)
  have c5 := toks_seq lineSkip toks_decimal (toks_seq lineSkip (toks_str lineSkip (w := c!":")) c7)
  have c3 := toks_seq lineSkip toks_integer (toks_seq lineSkip (toks_str lineSkip (w := c!":")) c5)
  have c2 := toks_field (q := Rule.colon_delimited_text) lineSkip c3
  have c1 := toks_field (q := Rule.colon_delimited_text) lineSkip c2
  refine toks_mono (toks_rule (q := Rule.item) c1) ?_
  have field : ∀ {v : Str}, (∀ c ∈ v, c ≠ ':' ∧ isNewlineChar c = false) → (∀ c, v.head? = some c → isSpTab c = false) → IsField v :=
    fun h1 h2 => ⟨fun c hc => ⟨(h1 c hc).1, not_newline_iff.1 (h1 c hc).2⟩, fun c hc hb => by
      have := h2 c hc
      rw [blankChar_iff.2 hb] at this
      cases this⟩
  rintro _ ⟨folder, _, rfl, f1, f2, name, _, rfl, n1, n2, _, _, rfl, ⟨colour, rfl, hcol⟩, _, _, rfl, rfl, _, _, rfl, ⟨scale, rfl, hsc⟩,
    _, _, rfl, rfl, _, _, rfl, ⟨_, rfl, style, hst, rfl⟩, _, _, rfl, rfl, _, _, rfl, ⟨weight, rfl, hw⟩, _, _, rfl, rfl, _, _, rfl,
    ⟨_, rfl, al, hal, rfl⟩, brk, rfl, hb⟩
  exact ⟨(⟨folder, name, colour, scale, style, weight, al⟩, brk), rfl, ⟨field f1 f2, field n1 n2, hcol, hsc, hst, hw, hal⟩, hb⟩

theorem toks_drawing : T (rulesE names) fun l => ∃ v, l = [v] ∧ ∃ d : Drawing, d.IsText v := by
  refine toks_one lineSkip ?_
  exact fun s r ts h => rule_text good names h

/-- A repetition of elements of a certain form. -/
theorem elements {A : Type} {f : A → List Str} {V : A → Prop} : ∀ {ls : List (List Str)}, (∀ l ∈ ls, ∃ a, l = f a ∧ V a) →
    ∃ as : List A, ls.flatten = as.flatMap f ∧ (∀ a ∈ as, V a) ∧ (ls ≠ [] → as ≠ [])
  | [], _ => ⟨[], rfl, by simp, fun h => absurd rfl h⟩
  | l :: ls, h => by
    obtain ⟨a, rfl, ha⟩ := h l List.mem_cons_self
    obtain ⟨as, e, h2, _⟩ := elements (ls := ls) fun l hl => h l (List.mem_cons_of_mem _ hl)
    refine ⟨a :: as, by simp [e], ?_, by simp⟩
    intro b hb
    rcases List.mem_cons.1 hb with rfl | hb
    · exact ha
    · exact h2 b hb

theorem toks_symbolitem : T Peg.Symbology.symbolitem fun l => ∃ d : DrawingLine, l = d.tokens ∧ d.Valid := by
  have c := toks_seq lineSkip (toks_str lineSkip (w := c!"SYMBOLITEM:")) (toks_seq lineSkip toks_drawing (toks_opt lineSkip (toks_NL lineSkip (R := Rule))))
  refine toks_mono c ?_
  rintro _ ⟨_, _, rfl, rfl, _, _, rfl, ⟨v, rfl, d, hd⟩, brk, rfl, hb⟩
  exact ⟨⟨d, v, brk⟩, rfl, hd, hb⟩

theorem toks_symbol : T Peg.Symbology.symbol fun l => ∃ s : SymbolDef, l = s.tokens ∧ s.Valid := by
  have c := toks_seq lineSkip (toks_str lineSkip (w := c!"SYMBOL:")) (toks_seq lineSkip toks_integer
    (toks_seq lineSkip (toks_NL lineSkip (R := Rule)) (toks_plus lineSkip toks_symbolitem)))
  refine toks_mono (toks_rule (q := Rule.symbol) c) ?_
  rintro _ ⟨_, _, rfl, rfl, _, _, rfl, ⟨n, rfl, hn⟩, _, _, rfl, ⟨brk, rfl, hb⟩, ls, rfl, hne, hl⟩
  obtain ⟨as, e, h1, h2⟩ := elements hl
  exact ⟨⟨n, brk, as⟩, by simp [SymbolDef.tokens, e], hn, hb, h2 hne, h1⟩

theorem toks_header : T Peg.Symbology.header fun l => ∃ b1 b2, l = [c!"SYMBOLOGY", b1, c!"SYMBOLSIZE", b2] ∧ IsBreak b1 ∧ IsBreak b2 := by
  have c := toks_seq lineSkip (toks_str lineSkip (w := c!"SYMBOLOGY")) (toks_seq lineSkip (toks_NL lineSkip (R := Rule))
    (toks_seq lineSkip (toks_str lineSkip (w := c!"SYMBOLSIZE")) (toks_NL lineSkip (R := Rule))))
  refine toks_mono (toks_rule (q := Rule.header) c) ?_
  rintro _ ⟨_, _, rfl, rfl, _, _, rfl, ⟨b1, rfl, h1⟩, _, _, rfl, rfl, b2, rfl, h2⟩
  exact ⟨b1, b2, rfl, h1, h2⟩

theorem toks_footer : T Peg.Symbology.footer fun l => ∃ n b t, l = [c!"m_ClipArea:", n, b, c!"END", t] ∧ IsInteger n ∧ IsBreak b ∧
    (t = [] ∨ IsBreak t) := by
  have c := toks_seq lineSkip (toks_rule (q := Rule.clip_area) (toks_seq lineSkip (toks_str lineSkip (w := c!"m_ClipArea:")) toks_integer))
    (toks_seq lineSkip (toks_NL lineSkip (R := Rule)) (toks_seq lineSkip (toks_str lineSkip (w := c!"END")) (toks_opt lineSkip (toks_NL lineSkip (R := Rule)))))
  refine toks_mono (toks_rule (q := Rule.footer) c) ?_
  rintro _ ⟨_, _, rfl, ⟨_, _, rfl, rfl, n, rfl, hn⟩, _, _, rfl, ⟨b, rfl, hb⟩, _, _, rfl, rfl, t, rfl, ht⟩
  exact ⟨n, b, t, rfl, hn, hb, ht⟩

/-- What is accepted has the described form. -/
theorem accepted {content : Str} {s r : Str} {ts : List (Tree Rule)}
    (h : Out skip K (.soi ⬝ (.opt Peg.Symbology.NL) ⬝ Peg.Symbology.header ⬝ Peg.Symbology.items ⬝ (.plus Peg.Symbology.symbol) ⬝
      Peg.Symbology.footer ⬝ (.eoi .EOI)) .nonAtomic content [] ts) : ∃ f : File, f.IsText content := by
  obtain ⟨_, m, s1, _, t1, rfl, g0, ⟨rfl, _⟩, ⟨s2, m2, s3, t2, t3, rfl, g2, o2, o3, _⟩, _⟩ := h
  have g0 : K m (s2 ++ m2 ++ s3 ++ []) := g0
  have g2 : K m2 (s3 ++ []) := g2
  have lead : IsFiller [] (m ++ s2 ++ m2) := by
    refine filler_append (filler_append (filler_blanks (lineSkip.isBlank g0)) ?_) (filler_blanks (lineSkip.isBlank g2))
    rcases o2 with o2 | ⟨rfl, _⟩
    · exact (filler_NL lineSkip o2).1
    · exact .nil
  have eoi : T (.eoi Rule.EOI) fun l => ∃ v : Str, l = [v] ∧ v = [] := toks_one lineSkip fun s r ts h => h.1
  have c := toks_seq lineSkip toks_header (toks_seq lineSkip (toks_plus lineSkip toks_item) (toks_seq lineSkip (toks_plus lineSkip toks_symbol)
    (toks_seq lineSkip toks_footer eoi)))
  have kn : K [] [] := k_end (headNot_nil _)
  obtain ⟨l, hl, sp⟩ := c s3 [] [] t3 (by simpa [Peg.Symbology.items] using o3) kn (by simpa using lineSkip.knil _ _ g2)
  obtain ⟨_, _, rfl, ⟨b1, b2, rfl, h1, h2⟩, _, _, rfl, ⟨li, rfl, ni, hi⟩, _, _, rfl, ⟨ly, rfl, ny, hy⟩, _, _, rfl, ⟨n, b, t, rfl, hn, hb, ht⟩,
    _, rfl, rfl⟩ := hl
  obtain ⟨items, ei, i1, i2⟩ := elements hi
  obtain ⟨syms, ey, y1, y2⟩ := elements hy
  refine ⟨⟨m ++ s2 ++ m2, b1, b2, items, syms, n, b, t⟩, ⟨lead, h1, h2, i2 ni, i1, y2 ny, y1, hn, hb, ht⟩, ?_⟩
  rw [ei, ey] at sp
  -- the end of the input is no token
  have drop : ∀ {l : List Str} {s : Str}, Spaced (l ++ [[]]) s → l ≠ [] → Spaced l s := by
    intro l
    induction l with
    | nil => intro _ _ h; exact absurd rfl h
    | cons t l ih =>
      intro s hs _
      obtain ⟨b, rest, rfl, g, hs⟩ := spaced_cons hs
      have g' : ∀ c ∈ b, IsBlankChar c := fun c hc => blankChar_iff.1 (g c hc)
      cases l with
      | nil =>
        obtain ⟨b', rest', rfl, g2, hs⟩ := spaced_cons hs
        obtain rfl := spaced_nil hs
        have := Spaced.cons t (b ++ b') [] [] (fun c hc => by
          rcases List.mem_append.1 hc with hc | hc
          · exact g' c hc
          · exact blankChar_iff.1 (g2 c hc)) .nil
        simpa using this
      | cons t' l => exact .cons t b _ _ g' (ih hs (by simp))
  have sp' := drop (l := [c!"SYMBOLOGY", b1, c!"SYMBOLSIZE", b2] ++ (items.flatMap (fun i => i.1.tokens ++ [i.2]) ++
    (syms.flatMap SymbolDef.tokens ++ [c!"m_ClipArea:", n, b, c!"END", t]))) (by simpa using sp) (by simp)
  have := Spaced.cons (m ++ s2 ++ m2) [] _ _ (by simp) sp'
  simpa [File.tokens] using this

/-- A text is rejected exactly if it is no file of the described form. -/
theorem rejected_unless {F G : Type} [F64 F] [F64 G] [Parse.SymbolRule.Close F] (content : Str)
    (h : ∀ f : File, ¬ f.IsText content) : parse (F := F) (G := G) content = .error .parseError := by
  rcases run_tok Peg.Symbology.symbology rfl lineSkip.ok rfl rfl content with hr | ⟨kids, _, ho⟩
  · simp only [parse]
    rw [hr]; rfl
  · obtain ⟨f, hf⟩ := accepted (s := []) (r := []) ho
    exact absurd hf (h f)

end Verif.Proofs.Symbology
