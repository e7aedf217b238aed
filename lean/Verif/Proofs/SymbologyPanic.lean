import Verif.Proofs.SymbologyFile
import Verif.Tokens.Symbology
import Verif.Peg.Safe
/-!
# Symbology files: where panics can come from
-/

namespace Verif.Proofs.Symbology
open Verif.Peg Verif.Spec Verif.Spec.Symbology Verif.Parse.Symbology Verif.Proofs.SymbolRule
open Verif.Peg.Symbology (Rule skip)
open Verif.Parse.SymbolRule (Kind Close parseRule)

set_option linter.unusedSectionVars false

theorem gap_blank {m r : Str} (h : Gap K .nonAtomic m r) : ∀ c ∈ m, IsBlankChar c := fun c hc =>
  blankChar_iff.1 (((blank1_iff like_ws m r).1 h).1 c hc)

theorem integer_token {s r : Str} {ts : List (Tree Rule)}
    (h : Out skip K Peg.Symbology.integer .nonAtomic s r ts) : IsInteger s ∧ ts = [.node .integer s []] := by
  obtain ⟨kids, h1, h2⟩ := h
  obtain ⟨rfl, hi⟩ := out_integer (by decide) h1
  exact ⟨hi, h2⟩

theorem decimal_token {s r : Str} {ts : List (Tree Rule)}
    (h : Out skip K Peg.Symbology.decimal .nonAtomic s r ts) : IsDecimal s ∧ ts = [.node .decimal s []] := by
  obtain ⟨kids, h1, h2⟩ := h
  obtain ⟨rfl, hd⟩ := out_decimal (by decide) h1
  exact ⟨hd, h2⟩

theorem text_token {s r : Str} {ts : List (Tree Rule)}
    (h : Out skip K Peg.Symbology.colon_delimited_text .nonAtomic s r ts) : ∃ t, ts = [t] := by
  obtain ⟨kids, h1, h2⟩ := h
  exact ⟨_, h2⟩

theorem char_eq {c : Char} {n : Nat} (h : c.toNat = n) : c = Char.ofNat n := by
  rw [← h, Char.ofNat_toNat]

theorem style_token {s r : Str} {ts : List (Tree Rule)}
    (h : Out skip K Peg.Symbology.line_style .nonAtomic s r ts) : ∃ t v, ts = [t] ∧ parseLinestyle t = .ok v := by
  obtain ⟨kids, ⟨c, rfl, hc, rfl⟩, h2⟩ := h
  have h0 : 48 ≤ c.toNat ∧ c.toNat ≤ 52 := by simpa [inRange] using hc
  have : c.toNat = 48 ∨ c.toNat = 49 ∨ c.toNat = 50 ∨ c.toNat = 51 ∨ c.toNat = 52 := by omega
  rcases this with h | h | h | h | h <;> rw [char_eq h] at h2 <;> exact ⟨_, _, h2, rfl⟩

theorem alignment_token {s r : Str} {ts : List (Tree Rule)}
    (h : Out skip K Peg.Symbology.alignment .nonAtomic s r ts) : ∃ t v, ts = [t] ∧ parseAlignment t = .ok v := by
  obtain ⟨kids, h1, h2⟩ := h
  rcases h1 with ⟨rfl, rfl⟩ | ⟨⟨rfl, rfl⟩ | ⟨⟨rfl, rfl⟩ | ⟨h1, _⟩, _⟩, _⟩
  · exact ⟨_, _, h2, rfl⟩
  · exact ⟨_, _, h2, rfl⟩
  · exact ⟨_, _, h2, rfl⟩
  · rcases h1 with ⟨c, rfl, hc, rfl⟩ | ⟨⟨c, rfl, hc, rfl⟩, _⟩
    · have h0 : 48 ≤ c.toNat ∧ c.toNat ≤ 50 := by simpa [inRange] using hc
      have : c.toNat = 48 ∨ c.toNat = 49 ∨ c.toNat = 50 := by omega
      rcases this with h | h | h <;> rw [char_eq h] at h2 <;> exact ⟨_, _, h2, rfl⟩
    · have h0 : 54 ≤ c.toNat ∧ c.toNat ≤ 56 := by simpa [inRange] using hc
      have : c.toNat = 54 ∨ c.toNat = 55 ∨ c.toNat = 56 := by omega
      rcases this with h | h | h <;> rw [char_eq h] at h2 <;> exact ⟨_, _, h2, rfl⟩

theorem unwrap_i32 {n T : Str} (h : IsInteger n) (hb : ¬ FitsI32 n → ∃ s, s <:+: T ∧ Harmful s) :
    Safe Harmful T (unwrap (parseSigned (2 ^ 31) n)) := by
  by_cases hf : FitsI32 n
  · refine Or.inl ⟨intValue n, ?_⟩
    rw [read_i32 h]
    exact gated_true hf
  · exact Or.inr (hb hf)

theorem unwrap_u32 {n T : Str} (h : IsInteger n) (hb : ¬ FitsU32 n → ∃ s, s <:+: T ∧ Harmful s) :
    Safe Harmful T (unwrap (parseUnsigned 10 (2 ^ 32) n)) := by
  by_cases hf : FitsU32 n
  · refine Or.inl ⟨(intValue n).toNat, ?_⟩
    rw [parseUnsigned_integer h, unwrap_gated]
    exact gated_true hf
  · exact Or.inr (hb hf)

theorem item_safe {G : Type} [F64 G] (num : Str → G) (hnum : ∀ s, IsDecimal s → F64.ofText s = some (num s)) {t : Tree Rule}
    (h : Tok skip K Peg.Symbology.item .nonAtomic t) : t.asRule = .item ∧ Safe Harmful t.asStr (parseItem (G := G) t) := by
  obtain ⟨s, r, kids, rfl, h1⟩ := tok_rule rfl h
  refine ⟨rfl, ?_⟩
  obtain ⟨s1, m1, w1, t1, u1, rfl, g1, o1, h2, rfl⟩ := h1
  obtain ⟨s2, m2, w2, t2, u2, rfl, g2, ⟨rfl, rfl⟩, h3, rfl⟩ := h2
  obtain ⟨s3, m3, w3, t3, u3, rfl, g3, o3, h4, rfl⟩ := h3
  obtain ⟨s4, m4, w4, t4, u4, rfl, g4, ⟨rfl, rfl⟩, h5, rfl⟩ := h4
  obtain ⟨s5, m5, w5, t5, u5, rfl, g5, o5, h6, rfl⟩ := h5
  obtain ⟨s6, m6, w6, t6, u6, rfl, g6, ⟨rfl, rfl⟩, h7, rfl⟩ := h6
  obtain ⟨s7, m7, w7, t7, u7, rfl, g7, o7, h8, rfl⟩ := h7
  obtain ⟨s8, m8, w8, t8, u8, rfl, g8, ⟨rfl, rfl⟩, h9, rfl⟩ := h8
  obtain ⟨s9, m9, w9, t9, u9, rfl, g9, o9, h10, rfl⟩ := h9
  obtain ⟨s10, m10, w10, t10, u10, rfl, g10, ⟨rfl, rfl⟩, h11, rfl⟩ := h10
  obtain ⟨s11, m11, w11, t11, u11, rfl, g11, o11, h12, rfl⟩ := h11
  obtain ⟨s12, m12, w12, t12, u12, rfl, g12, ⟨rfl, rfl⟩, h13, rfl⟩ := h12
  obtain ⟨s13, m13, w13, t13, u13, rfl, g13, o13, h14, rfl⟩ := h13
  obtain ⟨x1, rfl⟩ := text_token o1
  obtain ⟨x3, rfl⟩ := text_token o3
  obtain ⟨i5, rfl⟩ := integer_token o5
  obtain ⟨i7, rfl⟩ := decimal_token o7
  obtain ⟨x9, v9, rfl, e9⟩ := style_token o9
  obtain ⟨i11, rfl⟩ := integer_token o11
  obtain ⟨x13, v13, rfl, e13⟩ := alignment_token o13
  have b5 : ¬ FitsI32 s5 → ∃ s, s <:+: s1 ++ m1 ++ (c!":" ++ m2 ++ (s3 ++ m3 ++ (c!":" ++ m4 ++ (s5 ++ m5 ++ (c!":" ++ m6 ++
      (s7 ++ m7 ++ (c!":" ++ m8 ++ (s9 ++ m9 ++ (c!":" ++ m10 ++ (s11 ++ m11 ++ (c!":" ++ m12 ++ (s13 ++ m13 ++ w13)))))))))))) ∧
      Harmful s := fun hf => by
    refine ⟨_, ?_, .number m4 s5 m5 (fun c hc => ?_) i5 hf⟩
    · exact ⟨s1 ++ m1 ++ (c!":" ++ m2 ++ (s3 ++ m3)), m6 ++ (s7 ++ m7 ++ (c!":" ++ m8 ++ (s9 ++ m9 ++ (c!":" ++ m10 ++
        (s11 ++ m11 ++ (c!":" ++ m12 ++ (s13 ++ m13 ++ w13))))))), by simp⟩
    · rcases List.mem_append.1 hc with hc | hc
      · exact gap_blank g4 c hc
      · exact gap_blank g5 c hc
  have b11 : ¬ FitsI32 s11 → ∃ s, s <:+: s1 ++ m1 ++ (c!":" ++ m2 ++ (s3 ++ m3 ++ (c!":" ++ m4 ++ (s5 ++ m5 ++ (c!":" ++ m6 ++
      (s7 ++ m7 ++ (c!":" ++ m8 ++ (s9 ++ m9 ++ (c!":" ++ m10 ++ (s11 ++ m11 ++ (c!":" ++ m12 ++ (s13 ++ m13 ++ w13)))))))))))) ∧
      Harmful s := fun hf => by
    refine ⟨_, ?_, .number m10 s11 m11 (fun c hc => ?_) i11 hf⟩
    · exact ⟨s1 ++ m1 ++ (c!":" ++ m2 ++ (s3 ++ m3 ++ (c!":" ++ m4 ++ (s5 ++ m5 ++ (c!":" ++ m6 ++
        (s7 ++ m7 ++ (c!":" ++ m8 ++ (s9 ++ m9)))))))), m12 ++ (s13 ++ m13 ++ w13), by simp⟩
    · rcases List.mem_append.1 hc with hc | hc
      · exact gap_blank g10 c hc
      · exact gap_blank g11 c hc
  simp only [Tree.asStr] at b5 b11 ⊢
  generalize s1 ++ m1 ++ _ = T at b5 b11 ⊢
  simp only [parseItem, Tree.inner, List.cons_append, List.nil_append, next, run_ok_bind, Tree.asStr]
  refine (unwrap_i32 i5 b5).bind fun v5 _ => ?_
  rw [hnum _ i7, e9]
  simp only [unwrap_some, run_ok_bind]
  refine (unwrap_i32 i11 b11).bind fun v11 _ => ?_
  rw [e13]
  exact safe_ok _

theorem symbol_safe {F : Type} [F64 F] [Close F] (num : Str → F) (hnum : ∀ s, IsDecimal s → F64.ofText s = some (num s))
    {t : Tree Rule} (h : Tok skip K Peg.Symbology.symbol .nonAtomic t) :
    t.asRule = .symbol ∧ Safe Harmful t.asStr (parseSymbolRules (F := F) t) := by
  obtain ⟨s, r, kids, rfl, h1⟩ := tok_rule rfl h
  refine ⟨rfl, ?_⟩
  have hinf := out_infix _ _ _ _ _ h1
  obtain ⟨s1, m1, w1, t1, u1, rfl, g1, ⟨rfl, rfl⟩, h2, rfl⟩ := h1
  obtain ⟨s2, m2, w2, t2, u2, rfl, g2, o2, h3, rfl⟩ := h2
  obtain ⟨i2, rfl⟩ := integer_token o2
  have b2 : ¬ FitsU32 s2 → ∃ s, s <:+: c!"SYMBOL:" ++ m1 ++ (s2 ++ m2 ++ w2) ∧ Harmful s := fun hf =>
    ⟨_, ⟨[], m2 ++ w2, by simp⟩, .symbol m1 s2 (gap_blank g1) i2 hf⟩
  have hk := out_kids _ _ _ _ _ h3
  have hr : ∀ u ∈ u2, Safe Harmful u.asStr (parseRule (F := F) kindOf u) := by
    obtain ⟨k1, hk1, k2, hk2, rfl⟩ := hk
    have : k1 = [] := kids_mute _ _ _ (by decide) hk1
    subst this
    rw [List.nil_append]
    refine kids_plus_all hk2 fun k hk u hu => ?_
    rw [show Peg.Symbology.symbolitem = (.str c!"SYMBOLITEM:") ⬝ (rulesE names ⬝ (.opt Peg.Symbology.NL)) from rfl] at hk
    obtain ⟨k1, e1, k2, ⟨k3, e3, k4, e4, rfl⟩, rfl⟩ := hk
    have e1' : k1 = [] := e1
    have e4' : k4 = [] := kids_mute _ _ _ (by decide) e4
    subst e1' e4'
    obtain ⟨d, v, rfl, hd, hp⟩ := rule_sound good names kind_name num hnum e3
    have : u = v := by simpa using hu
    subst this
    rw [hp]
    by_cases hf : d.Fits
    · rw [if_pos hf]; exact safe_ok _
    · exact safe_bad List.infix_rfl (.angle d _ hd hf)
  simp only [Tree.asStr]
  simp only [parseSymbolRules, Tree.inner, List.cons_append, List.nil_append, next, run_ok_bind, Tree.asStr]
  refine (unwrap_u32 i2 b2).bind fun v _ => ?_
  refine (safe_mapM fun u hu => (hr u hu).mono ?_).bind fun _ _ => safe_ok _
  exact hinf u (by simp [hu])

/-- The tokens of a file. -/
theorem file_tokens {ts : List (Tree Rule)} {s r : Str}
    (h : Out skip K (.soi ⬝ (.opt Peg.Symbology.NL) ⬝ Peg.Symbology.header ⬝ Peg.Symbology.items ⬝ (.plus Peg.Symbology.symbol) ⬝
      Peg.Symbology.footer ⬝ (.eoi .EOI)) .nonAtomic s r ts) :
    ∀ t ∈ ts, t.asStr <:+: s ∧ (t.asRule = .header ∨ t.asRule = .footer ∨ t.asRule = .EOI ∨
      Tok skip K Peg.Symbology.item .nonAtomic t ∨ Tok skip K Peg.Symbology.symbol .nonAtomic t) := by
  have hi := out_infix _ _ _ _ _ h
  have hk := out_kids _ _ _ _ _ h
  intro t ht
  refine ⟨hi t ht, ?_⟩
  obtain ⟨k1, e1, k2, ⟨k3, e3, k4, ⟨k5, ⟨x, ⟨s5, r5, ks, _, e5⟩, rfl⟩, k6, ⟨k7, e7, k8, ⟨k9, e9, k10, ⟨k11, ⟨y, ⟨s11, r11, ks', _, e11⟩, rfl⟩, k12, e12, rfl⟩, rfl⟩,
    rfl⟩, rfl⟩, rfl⟩, rfl⟩ := hk
  have e1' : k1 = [] := e1
  have e3' : k3 = [] := kids_mute _ _ _ (by decide) e3
  have e12' : k12 = [.node .EOI [] []] := e12
  subst e1' e3' e12'
  simp only [List.mem_append, List.nil_append, List.mem_singleton] at ht
  rcases ht with rfl | ht | ht | rfl | rfl
  · obtain rfl := (List.cons.inj e5).1; exact Or.inl rfl
  · refine Or.inr (Or.inr (Or.inr (Or.inl ?_)))
    refine kids_plus_all e7 (fun k hk u hu => ?_) t ht
    obtain ⟨v, hv, rfl⟩ := hk
    rw [List.mem_singleton.1 hu]; exact hv
  · refine Or.inr (Or.inr (Or.inr (Or.inr ?_)))
    refine kids_plus_all e9 (fun k hk u hu => ?_) t ht
    obtain ⟨v, hv, rfl⟩ := hk
    rw [List.mem_singleton.1 hu]; exact hv
  · obtain rfl := (List.cons.inj e11).1; exact Or.inr (Or.inl rfl)
  · exact Or.inr (Or.inr (Or.inl rfl))

/-- A text is rejected, read, or has a harmful part. -/
theorem parse_safe {F G : Type} [F64 F] [F64 G] [Close F] (num : Str → F) (numG : Str → G)
    (hnum : ∀ s, IsDecimal s → F64.ofText s = some (num s)) (hnumG : ∀ s, IsDecimal s → F64.ofText s = some (numG s)) (content : Str) :
    parse (F := F) (G := G) content = .error .parseError ∨ Safe Harmful content (parse (F := F) (G := G) content) := by
  rcases run_tok Peg.Symbology.symbology rfl lineSkip.ok rfl rfl content with h | ⟨kids, h, ho⟩
  · left
    simp only [parse]
    rw [h]; rfl
  · right
    have e : parse (F := F) (G := G) content = kids.foldlM step ⟨[], []⟩ := by
      simp only [parse]
      rw [h]; rfl
    rw [e]
    refine safe_foldlM fun t ht acc => ?_
    obtain ⟨hi, hc⟩ := file_tokens ho t ht
    rcases hc with hc | hc | hc | hc | hc
    · simp only [step, hc]; exact safe_ok _
    · simp only [step, hc]; exact safe_ok _
    · simp only [step, hc]; exact safe_ok _
    · obtain ⟨e, hs⟩ := item_safe numG hnumG hc
      simp only [step, e]
      exact (hs.mono hi).bind fun _ _ => safe_ok _
    · obtain ⟨e, hs⟩ := symbol_safe num hnum hc
      simp only [step, e]
      exact (hs.mono hi).bind fun _ _ => safe_ok _

end Verif.Proofs.Symbology
