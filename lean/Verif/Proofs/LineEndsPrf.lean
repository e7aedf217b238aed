import Verif.Proofs.Prf
import Verif.Proofs.PrfPaths
import Verif.Spec.LineEndsNames
/-!
# Profiles with other line ends
-/

namespace Verif.Proofs.LineEnds
open Verif.Spec (SameLines IsLineEnd IsReturn SameValue SameEntries)
open Verif.Spec.Prf Verif.Parse.Prf

/-- A text without line feed is the same. -/
theorem sameLines_last {s t : Str} (h : SameLines s t) (hn : '\n' ∉ s) : t = s := by
  induction h with
  | nil => rfl
  | char c _ _ _ ih => rw [ih fun x => hn (by simp [x])]
  | lineEnd he _ _ _ => rcases he with rfl | rfl <;> simp at hn

theorem sameLines_no_cr {s t : Str} (h : SameLines s t) (hn : '\n' ∉ s) : '\r' ∉ s := by
  induction h with
  | nil => simp
  | char c h1 h2 _ ih => simp only [List.mem_cons, not_or] at hn ⊢; exact ⟨fun e => h1 e.symm, ih hn.2⟩
  | lineEnd he _ _ _ => rcases he with rfl | rfl <;> simp at hn

/-- The first line and the rest. -/
theorem sameLines_line {u t : Str} (h : SameLines u t) : ∀ {s r : Str}, u = s ++ '\n' :: r → '\n' ∉ s →
    ∃ l e e' r', s = l ++ e ∧ t = l ++ e' ++ '\n' :: r' ∧ '\r' ∉ l ∧ '\n' ∉ l ∧ IsReturn e ∧ IsReturn e' ∧ SameLines r r' := by
  induction h with
  | nil => intro s r hu; cases s <;> simp at hu
  | char c h1 h2 h ih =>
    intro s r hu hn
    cases s with
    | nil => simp only [List.nil_append, List.cons.injEq] at hu; exact absurd hu.1 h2
    | cons d s =>
      simp only [List.cons_append, List.cons.injEq] at hu
      obtain ⟨rfl, hu⟩ := hu
      obtain ⟨l, e, e', r', rfl, rfl, h3, h4, h5, h6, h7⟩ := ih hu fun x => hn (by simp [x])
      exact ⟨c :: l, e, e', r', rfl, rfl, by simpa using ⟨fun x => h1 x.symm, h3⟩, by simpa using ⟨fun x => h2 x.symm, h4⟩, h5, h6, h7⟩
  | @lineEnd s0 t0 e f he hf h ih =>
    intro s r hu hn
    have hf' : ∃ e', IsReturn e' ∧ f = e' ++ ['\n'] := by
      rcases hf with rfl | rfl
      · exact ⟨[], Or.inl rfl, rfl⟩
      · exact ⟨['\r'], Or.inr rfl, rfl⟩
    obtain ⟨e', he', rfl⟩ := hf'
    rcases he with rfl | rfl
    · cases s with
      | nil =>
        simp only [List.nil_append, List.cons_append, List.cons.injEq, true_and] at hu
        subst hu
        exact ⟨[], [], e', t0, rfl, by simp, by simp, by simp, Or.inl rfl, he', h⟩
      | cons d s =>
        simp only [List.cons_append, List.cons.injEq] at hu
        exact absurd (by rw [← hu.1]; simp) hn
    · cases s with
      | nil => simp at hu
      | cons d s =>
        simp only [List.cons_append, List.nil_append, List.cons.injEq] at hu
        obtain ⟨rfl, hu⟩ := hu
        cases s with
        | nil =>
          simp only [List.nil_append, List.cons.injEq, true_and] at hu
          subst hu
          exact ⟨[], ['\r'], e', t0, rfl, by simp, by simp, by simp, Or.inr rfl, he', h⟩
        | cons d s =>
          simp only [List.cons_append, List.cons.injEq] at hu
          exact absurd (by rw [← hu.1]; simp) hn

variable [UnicodeTables]

omit [UnicodeTables] in
/-- The same setting, but for a carriage return at the end of the value. -/
def SameSetting (w w' : Setting) : Prop :=
  w.category = w'.category ∧ w.key = w'.key ∧ SameValue w.value w'.value

/-- Lists of such settings. -/
inductive SameSettings : List Setting → List Setting → Prop where
  | nil : SameSettings [] []
  | cons {w w' : Setting} {ws ws' : List Setting} (h : SameSetting w w') (hs : SameSettings ws ws') :
      SameSettings (w :: ws) (w' :: ws')

omit [UnicodeTables] in
theorem snoc_cases {l e p v : Str} (h : l ++ e = p ++ v) (he : IsReturn e) (hv : v ≠ []) :
    ∃ v', v = v' ++ e ∧ l = p ++ v' := by
  rcases he with rfl | rfl
  · exact ⟨v, by simp, by simpa using h⟩
  · rcases List.eq_nil_or_concat v with rfl | ⟨v', c, rfl⟩
    · exact absurd rfl hv
    · rw [List.concat_eq_append] at h ⊢
      rw [← List.append_assoc] at h
      obtain ⟨h1, h2⟩ := List.append_inj' h rfl
      exact ⟨v', by rw [← h2], h1⟩

theorem line_other {w : Setting} {l e e' : Str} (h : IsLine w (l ++ e)) (hl : '\r' ∉ l) (he : IsReturn e)
    (he' : IsReturn e') (hv : w.value ≠ ['\r']) : ∃ w', IsLine w' (l ++ e') ∧ SameSetting w w' := by
  obtain ⟨b0, b1, b2, ht, h0, h1, h2, hc, hc', hk, hk', hw, hw', hg, hj1, hj2⟩ := h
  obtain ⟨v, hwv, rfl⟩ := snoc_cases ht he hw
  have hvr : '\r' ∉ v := fun x => hl (by simp [x])
  have hvn : v ≠ [] := by
    rintro rfl
    rcases he with rfl | rfl
    · exact hw hwv
    · exact hv hwv
  have hhead : ∀ x : Str, (v ++ x).head? = v.head? := by
    intro x; cases v with
    | nil => exact absurd rfl hvn
    | cons c v => rfl
  refine ⟨⟨w.category, w.key, v ++ e'⟩, ⟨b0, b1, b2, by simp, h0, h1, h2, hc, hc', hk, hk', by simp [hvn], ?_, ?_, hj1, ?_⟩,
    rfl, rfl, v, e, e', hwv, rfl, hvr, he, he'⟩
  · intro c hc
    rcases List.mem_append.1 hc with hc | hc
    · exact hw' c (by rw [hwv]; simp [hc])
    · rcases he' with rfl | rfl
      · cases hc
      · simp only [List.mem_singleton] at hc; subst hc; decide
  · intro c hc
    exact hg c (by rw [hwv, hhead]; rwa [hhead] at hc)
  · intro hb c hc
    exact hj2 hb c (by rw [hwv, hhead]; rwa [hhead] at hc)

omit [UnicodeTables] in
theorem void_no_lf {b : Str} (h : ∀ c ∈ b, isVoidChar c = true) : '\n' ∉ b := by
  intro x
  have := h _ x
  revert this
  decide

theorem line_no_lf {w : Setting} {t : Str} (h : IsLine w t) : '\n' ∉ t := by
  obtain ⟨b0, b1, b2, rfl, h0, h1, h2, hc, hc', hk, hk', hw, hw', _⟩ := h
  have hg : ∀ {b : Str}, (∀ c ∈ b, isGapChar c = true) → '\n' ∉ b := fun h x => by
    have := h _ x
    revert this
    decide
  have hlet : UnicodeTables.letter '\n' ≠ true := fun e => (letter_solid e).2 rfl
  simp only [List.mem_append, not_or]
  refine ⟨⟨⟨⟨⟨void_no_lf h0, fun x => hlet (hc' _ x)⟩, hg h1⟩, fun x => ?_⟩, hg h2⟩, fun x => hw' _ x rfl⟩
  have := hk' _ x
  simp only [isKeyChar, Bool.or_eq_true] at this
  rcases this with (this | this) | this
  · exact hlet this
  · revert this; decide
  · revert this; decide

/-- The settings of a profile with other line ends. -/
theorem file_other {s : Str} {ws : List Setting} (h : IsFile s ws) (hv : ∀ w ∈ ws, w.value ≠ ['\r']) :
    ∀ {t}, SameLines s t → ∃ ws', IsFile t ws' ∧ SameSettings ws ws' := by
  induction h with
  | last b hb =>
    intro t h
    rw [sameLines_last h (void_no_lf hb)]
    exact ⟨[], .last b hb, .nil⟩
  | lastLine w u hu =>
    intro t h
    rw [sameLines_last h (line_no_lf hu)]
    obtain ⟨w', h1, h2⟩ := line_other (l := u) (e := []) (e' := []) (by simpa using hu) (by
      exact sameLines_no_cr h (line_no_lf hu)) (Or.inl rfl) (Or.inl rfl) (hv w (by simp))
    exact ⟨[w'], .lastLine w' u (by simpa using h1), .cons h2 .nil⟩
  | blank b rest ws hb _ ih =>
    intro t h
    obtain ⟨l, e, e', r', rfl, rfl, h3, h4, h5, h6, h7⟩ := sameLines_line h rfl (void_no_lf hb)
    obtain ⟨ws', h8, h9⟩ := ih hv h7
    refine ⟨ws', .blank _ _ _ ?_ h8, h9⟩
    intro c hc
    rcases List.mem_append.1 hc with hc | hc
    · exact hb c (by simp [hc])
    · rcases h6 with rfl | rfl
      · cases hc
      · simp only [List.mem_singleton] at hc; subst hc; decide
  | line w u rest ws hu _ ih =>
    intro t h
    obtain ⟨l, e, e', r', rfl, rfl, h3, h4, h5, h6, h7⟩ := sameLines_line h rfl (line_no_lf hu)
    obtain ⟨ws', h8, h9⟩ := ih (fun w hw => hv w (by simp [hw])) h7
    obtain ⟨w', h10, h11⟩ := line_other hu h3 h5 h6 (hv w (by simp))
    exact ⟨w' :: ws', .line w' _ _ _ h10 h8, .cons h11 h9⟩

/-! ## What is read -/

omit [UnicodeTables] in
theorem sameEntries_insert {m m' : Settings} (h : SameEntries m m') (k : Str × Str) {v v' : Str} (hv : SameValue v v') :
    SameEntries (Map.insert m k v) (Map.insert m' k v') := by
  induction h with
  | nil => exact .cons k hv .nil
  | cons k2 h hs ih =>
    simp only [Map.insert]
    split
    · exact .cons k hv hs
    · exact .cons k2 h ih

omit [UnicodeTables] in
theorem SameSettings.entries {ws ws' : List Setting} (h : SameSettings ws ws') :
    SameEntries (Map.ofList (ws.map fun w => ((w.category, w.key), w.value)))
      (Map.ofList (ws'.map fun w => ((w.category, w.key), w.value))) := by
  have : ∀ m m' : Settings, SameEntries m m' →
      SameEntries ((ws.map fun w => ((w.category, w.key), w.value)).foldl (fun m e => Map.insert m e.1 e.2) m)
        ((ws'.map fun w => ((w.category, w.key), w.value)).foldl (fun m e => Map.insert m e.1 e.2) m') := by
    induction h with
    | nil => intro m m' h; exact h
    | cons h hs ih =>
      intro m m' hm
      refine ih _ _ ?_
      show SameEntries (Map.insert m _ _) (Map.insert m' _ _)
      dsimp only
      rw [h.1, h.2.1]
      exact sameEntries_insert hm _ h.2.2
  exact this [] [] .nil

omit [UnicodeTables] in
theorem sameEntries_get {m m' : Settings} (h : SameEntries m m') (k : Str × Str) :
    (Map.get? m k = none ∧ Map.get? m' k = none) ∨
      ∃ v v', Map.get? m k = some v ∧ Map.get? m' k = some v' ∧ SameValue v v' := by
  induction h with
  | nil => exact Or.inl ⟨rfl, rfl⟩
  | cons k2 h hs ih =>
    simp only [Map.get?]
    split
    · exact Or.inr ⟨_, _, rfl, rfl, h⟩
    · exact ih

theorem parse_other {s t : Str} {ws : List Setting} (h : SameLines s t) (hf : IsFile s ws) (hne : ws ≠ [])
    (hv : ∀ w ∈ ws, w.value ≠ ['\r']) : ∃ m m', parsePrf s = .ok m ∧ parsePrf t = .ok m' ∧ SameEntries m m' := by
  obtain ⟨ws', h1, h2⟩ := file_other hf hv h
  refine ⟨_, _, parse_complete hf hne, parse_complete h1 ?_, h2.entries⟩
  rintro rfl
  cases h2
  exact hne rfl

/-! ## Paths -/
open Verif.PrfPaths

omit [UnicodeTables] in
theorem sameValue_trim {v v' : Str} (h : SameValue v v') : trimEnd v = trimEnd v' := by
  have key : ∀ (u : Str) {e : Str}, IsReturn e → trimEnd (u ++ e) = trimEnd u := by
    intro u e he
    rcases he with rfl | rfl
    · simp
    · simp only [trimEnd, List.reverse_append, List.reverse_cons, List.reverse_nil, List.nil_append, List.singleton_append]
      rw [List.dropWhile_cons_of_pos (by decide)]
  obtain ⟨u, e, e', rfl, rfl, _, he, he'⟩ := h
  rw [key u he, key u he']

omit [UnicodeTables] in
theorem sameValue_join {v v' : Str} (h : SameValue v v') (m m' : Settings) (path : Path) (cwd : Option Path) :
    joinSettingsPath ⟨m, path, cwd⟩ v = joinSettingsPath ⟨m', path, cwd⟩ v' := by
  simp only [joinSettingsPath, sameValue_trim h]

omit [UnicodeTables] in
theorem sameEntries_setting {m m' : Settings} (h : SameEntries m m') (path : Path) (cwd : Option Path) (key : Str) :
    (setting ⟨m, path, cwd⟩ key >>= joinSettingsPath ⟨m, path, cwd⟩) =
      (setting ⟨m', path, cwd⟩ key >>= joinSettingsPath ⟨m', path, cwd⟩) := by
  simp only [PrfPaths.setting]
  rcases sameEntries_get h (c!"Settings", key) with ⟨h1, h2⟩ | ⟨v, v', h1, h2, h3⟩
  · rw [h1, h2]; rfl
  · rw [h1, h2]; exact sameValue_join h3 m m' path cwd

omit [UnicodeTables] in
theorem sameEntries_recent {m m' : Settings} (h : SameEntries m m') (path : Path) (cwd : Option Path) (n : Nat) :
    recentPath ⟨m, path, cwd⟩ n = recentPath ⟨m', path, cwd⟩ n := by
  simp only [recentPath]
  rcases sameEntries_get h (c!"RecentFiles", c!"Recent" ++ showNat n) with ⟨h1, h2⟩ | ⟨v, v', h1, h2, h3⟩
  · rw [h1, h2]
  · rw [h1, h2]
    simp only [sameValue_join h3 m m' path cwd]

omit [UnicodeTables] in
theorem sameEntries_find {es es' : List ((Str × Str) × Str)} (h : SameEntries es es') (m m' : Settings) (path : Path)
    (cwd : Option Path) (name : Str) :
    findFile ⟨m, path, cwd⟩ name es = findFile ⟨m', path, cwd⟩ name es' := by
  induction h with
  | nil => rfl
  | cons k h hs ih => simp only [findFile, sameValue_join h m m' path cwd, ih]

omit [UnicodeTables] in
/-- Any order of the entries. -/
theorem sameEntries_perm {es m m' : List ((Str × Str) × Str)} (hp : es.Perm m) (h : SameEntries m m') :
    ∃ es', es'.Perm m' ∧ SameEntries es es' := by
  induction hp generalizing m' with
  | nil => exact ⟨_, .refl _, h⟩
  | cons x _ ih =>
    cases h with
    | cons k hv hs =>
      obtain ⟨es', h1, h2⟩ := ih hs
      exact ⟨_ :: es', h1.cons _, .cons k hv h2⟩
  | swap x y l =>
    cases h with
    | cons k hv hs =>
      cases hs with
      | cons k2 hv2 hs2 => exact ⟨_, List.Perm.swap .., .cons k2 hv2 (.cons k hv hs2)⟩
  | trans _ _ ih1 ih2 =>
    obtain ⟨es2, h1, h2⟩ := ih2 h
    obtain ⟨es1, h3, h4⟩ := ih1 h2
    exact ⟨es1, h3.trans h1, h4⟩

end Verif.Proofs.LineEnds
