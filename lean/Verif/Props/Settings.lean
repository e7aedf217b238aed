import Verif.Proofs.Settings
/-!
# Settings, line styles and symbols: theorems

C36, C37, C45, C46.
-/

namespace Verif.Settings

/-! ## C36: coordination timing -/

/-- C36: each of the three times is the one of the constraint if it has one, else the one set for the
FIR if that FIR has an override with this time, else the global one. -/
theorem C36_resolve {T : Type} (s : CoordinationSettings T) (fir : Option Str)
    (constraint : Option (CoordinationTiming T)) (field : CoordinationTiming T → Option T)
    (global : CoordinationSettings T → T) (out : ResolvedTiming T → T)
    (hfield : (field, global, out) = ((·.act), (·.act), (·.act)) ∨
      (field, global, out) = ((·.abi), (·.abi), (·.abi)) ∨
      (field, global, out) = ((·.rev), (·.rev), (·.rev))) (t : T) :
    out (resolve s fir constraint) = t ↔
      (∃ c, constraint = some c ∧ field c = some t) ∨
      ((∀ c, constraint = some c → field c = none) ∧
        ((∃ f o, fir = some f ∧ s.firOverrides.get? f = some o ∧ field o = some t) ∨
         ((∀ f o, fir = some f → s.firOverrides.get? f = some o → field o = none) ∧ global s = t))) := by
  have main : ∀ (g : T), pick constraint (fir.bind fun f => s.firOverrides.get? f) field g = t ↔
      (∃ c, constraint = some c ∧ field c = some t) ∨
      ((∀ c, constraint = some c → field c = none) ∧
        ((∃ f o, fir = some f ∧ s.firOverrides.get? f = some o ∧ field o = some t) ∨
         ((∀ f o, fir = some f → s.firOverrides.get? f = some o → field o = none) ∧ g = t))) := by
    intro g
    have hc : (∃ c, constraint = some c ∧ field c = some t) ↔ constraint.bind field = some t := by
      cases constraint <;> simp
    have hn : (∀ c, constraint = some c → field c = none) ↔ constraint.bind field = none := by
      cases constraint <;> simp
    have hf : (∃ f o, fir = some f ∧ s.firOverrides.get? f = some o ∧ field o = some t) ↔
        (fir.bind fun f => s.firOverrides.get? f).bind field = some t := by
      cases fir with
      | none => simp
      | some f => cases h : s.firOverrides.get? f <;> simp [h]
    have hfn : (∀ f o, fir = some f → s.firOverrides.get? f = some o → field o = none) ↔
        (fir.bind fun f => s.firOverrides.get? f).bind field = none := by
      cases fir with
      | none => simp
      | some f =>
        constructor
        · intro h
          cases hg : s.firOverrides.get? f with
          | none => simp [hg]
          | some o => simpa [hg] using h f o rfl hg
        · intro h f' o hf' ho
          cases hf'
          simpa [ho] using h
    rw [hc, hn, hf, hfn]
    unfold pick
    cases constraint.bind field with
    | some x => simp
    | none =>
      cases (fir.bind fun f => s.firOverrides.get? f).bind field <;> simp
  rcases hfield with h | h | h <;> · cases h; exact main _

/-! ## C37: special-use codes -/

theorem nil_or_concat {α : Type} (l : List α) : l = [] ∨ ∃ l' x, l = l' ++ [x] := by
  by_cases h : l = []
  · exact Or.inl h
  · exact Or.inr ⟨l.dropLast, l.getLast h, (List.dropLast_concat_getLast h).symm⟩

open Classical in
theorem specialUse_concat (l : List SquawkDef) (sq : SquawkDef) (k : Str) :
    (specialUseCodes (l ++ [sq])).get? k =
      if ∃ n, k = octal4 n ∧ Covers sq n then some sq.message else (specialUseCodes l).get? k := by
  unfold specialUseCodes Map.ofList
  rw [List.flatMap_append, List.foldl_append]
  have : [sq].flatMap squawkEntries = squawkEntries sq := by simp
  rw [this, get?_entries sq _ (fun e he => (covers_of.1 he).1)]
  have e : (∃ e ∈ squawkEntries sq, e.1 = k) ↔ ∃ n, k = octal4 n ∧ Covers sq n := by
    constructor
    · rintro ⟨e, he, rfl⟩
      exact (covers_of.1 he).2
    · rintro ⟨n, hk, hn⟩
      exact ⟨(k, sq.message), covers_of.2 ⟨rfl, n, hk, hn⟩, rfl⟩
  simp only [e]

/-- C37: the table maps exactly the codes covered by some entry, in octal with at least four digits,
to the message of the last entry covering them. -/
theorem C37_special_use_codes (l : List SquawkDef) (k m : Str) :
    (specialUseCodes l).get? k = some m ↔
      ∃ n before sq after, IsCode k n ∧ l = before ++ sq :: after ∧ Covers sq n ∧ sq.message = m ∧
        ∀ sq' ∈ after, ¬ Covers sq' n := by
  classical
  generalize hn : l.length = len
  induction len generalizing l with
  | zero =>
    rw [List.length_eq_zero_iff.1 hn]
    constructor
    · intro h; cases h
    · rintro ⟨n, before, sq, after, _, h, _⟩
      cases before <;> cases h
  | succ len ih =>
    have hne : l ≠ [] := by rintro rfl; cases hn
    obtain ⟨l', x, rfl⟩ : ∃ l' x, l = l' ++ [x] :=
      ⟨l.dropLast, l.getLast hne, (List.dropLast_concat_getLast hne).symm⟩
    rw [specialUse_concat]
    split
    · next h =>
      obtain ⟨n, hk, hc⟩ := h
      have hcode := (octal4_iff _ _).1 hk
      constructor
      · intro hm
        cases hm
        exact ⟨n, l', x, [], hcode, rfl, hc, rfl, by simp⟩
      · rintro ⟨n', before, sq, after, hcode', hl, hcov, hmsg, hlast⟩
        have hnn := isCode_number hcode hcode'
        subst hnn
        rcases nil_or_concat after with rfl | ⟨after, y, rfl⟩
        ·
          have := List.append_inj' hl rfl
          have : x = sq := by simpa using this.2
          subst this
          rw [hmsg]
        ·
          have e : l' ++ [x] = (before ++ sq :: after) ++ [y] := by rw [hl]; simp
          have := List.append_inj' e rfl
          have : x = y := by simpa using this.2
          subst this
          exact absurd hc (hlast x (by simp))
    · next h =>
      rw [ih l' (by simpa using hn)]
      constructor
      · rintro ⟨n, before, sq, after, hcode, rfl, hcov, hmsg, hlast⟩
        refine ⟨n, before, sq, after ++ [x], hcode, by simp, hcov, hmsg, ?_⟩
        intro sq' hsq'
        rcases List.mem_append.1 hsq' with h1 | h1
        · exact hlast sq' h1
        · have : sq' = x := by simpa using h1
          subst this
          intro hc
          exact h ⟨n, (octal4_iff _ _).2 hcode, hc⟩
      · rintro ⟨n, before, sq, after, hcode, hl, hcov, hmsg, hlast⟩
        rcases nil_or_concat after with rfl | ⟨after, y, rfl⟩
        ·
          have := List.append_inj' hl rfl
          have : x = sq := by simpa using this.2
          subst this
          exact absurd ⟨n, (octal4_iff _ _).2 hcode, hcov⟩ h
        ·
          have e : l' ++ [x] = (before ++ sq :: after) ++ [y] := by rw [hl]; simp
          have := List.append_inj' e rfl
          exact ⟨n, before, sq, after, hcode, this.1, hcov, hmsg,
            fun sq' h' => hlast sq' (by simp [h'])⟩

/-- C37: entries with both or neither of code and range, or with a malformed number, cover nothing. -/
theorem C37_ignored (sq : SquawkDef) (n : Nat) (h : Covers sq n) :
    (sq.code = none ↔ sq.range ≠ none) ∧
    (∀ s, sq.code = some s → Octal s n) ∧
    (∀ a b, sq.range = some (a, b) → ∃ lo hi, Octal a lo ∧ Octal b hi) := by
  rcases h with ⟨s, h1, h2, h3⟩ | ⟨a, b, lo, hi, h1, h2, ha, hb, _⟩
  · refine ⟨by simp [h1, h2], ?_, by simp [h2]⟩
    intro s' hs'
    rw [h1] at hs'
    cases hs'
    exact h3
  · refine ⟨by simp [h1, h2], by simp [h1], ?_⟩
    intro a' b' h'
    rw [h2] at h'
    cases h'
    exact ⟨lo, hi, ha, hb⟩

/-! ## C45: line styles -/

section LineStyles
variable {F : Type} (f : Nat → F) (upper : Str → Str)

/-- C45: the built-in styles are what they are whatever the file says. -/
theorem C45_builtin (styles : Option (Map Str (List F))) :
    let t := lineStyles f upper styles
    t.get? c!"SOLID" = some none ∧
    t.get? c!"DOT" = some (some [(f 1, f 1)]) ∧
    t.get? c!"ALTERNATE" = some (some [(f 1, f 1)]) ∧
    t.get? c!"DASH" = some (some [(f 3, f 3)]) ∧
    t.get? c!"DASHDOT" = some (some [(f 3, f 3), (f 1, f 3)]) ∧
    t.get? c!"DASHDOTDOT" = some (some [(f 3, f 3), (f 1, f 3), (f 1, f 3)]) := by
  simp only [lineStyles, Map.ofList, List.foldl_append, builtinStyles, List.foldl_cons, List.foldl_nil,
    Map.get?_insert]
  refine ⟨?_, ?_, ?_, ?_, ?_, ?_⟩ <;> simp

theorem lineStyles_other (styles : Map Str (List F)) (k : Str) (hk : k ∉ builtinNames) :
    (lineStyles f upper (some styles)).get? k =
      (styles.reverse.find? fun e => decide (upper e.1 = k)).map fun e => pattern e.2 := by
  simp only [builtinNames, List.mem_cons, List.not_mem_nil, or_false, not_or] at hk
  obtain ⟨h1, h2, h3, h4, h5, h6⟩ := hk
  simp only [lineStyles, Map.ofList, List.foldl_append, builtinStyles, List.foldl_cons, List.foldl_nil,
    Map.get?_insert, Ne.symm h1, Ne.symm h2, Ne.symm h3, Ne.symm h4, Ne.symm h5, Ne.symm h6, if_false,
    Option.getD_some, List.foldl_map]
  rw [Map.get?_foldl_insert (E := Str × List F)]
  cases styles.reverse.find? fun e => decide (upper e.1 = k) <;> rfl

/-- C45: any other style is found under its upper-case name with the pairs of its dash list. -/
theorem C45_other (styles : Map Str (List F)) (k : Str) (hk : k ∉ builtinNames) :
    ((lineStyles f upper (some styles)).get? k = none ↔ ∀ e ∈ styles, upper e.1 ≠ k) ∧
    ∀ p, (lineStyles f upper (some styles)).get? k = some p →
      ∃ e ∈ styles, upper e.1 = k ∧ IsPattern e.2 p := by
  rw [lineStyles_other f upper styles k hk]
  constructor
  · simp
  · intro p hp
    obtain ⟨e, he, rfl⟩ := Option.map_eq_some_iff.1 hp
    refine ⟨e, List.mem_reverse.1 (List.mem_of_find?_eq_some he), ?_, pattern_spec e.2⟩
    simpa using List.find?_some he

/-- C45: without TopSky files there are only the built-in styles. -/
theorem C45_without_topsky (k : Str) (hk : k ∉ builtinNames) :
    (lineStyles f upper none).get? k = none :=
  ((C45_other f upper [] k hk).1).2 (by simp)

/-- A dash list determines its pattern. -/
theorem isPattern_unique {l : List F} {p q : Option (List (F × F))} (hp : IsPattern l p)
    (hq : IsPattern l q) : p = q := by
  cases p with
  | none =>
    cases q with
    | none => rfl
    | some ds => have h1 : l.length < 2 := hp; have := hq.1; omega
  | some ds =>
    cases q with
    | none => have h1 : l.length < 2 := hq; have := hp.1; omega
    | some es =>
      congr 1
      apply List.ext_getElem?
      intro i
      cases h : ds[i]? with
      | some x => exact ((hq.2.2 i x).2 ((hp.2.2 i x).1 h)).symm
      | none =>
        cases h2 : es[i]? with
        | none => rfl
        | some x =>
          have := (hp.2.2 i x).2 ((hq.2.2 i x).1 h2)
          rw [h] at this; cases this

end LineStyles

/-! ## C46: symbols -/

/-- C46 (partial: VOR excluded): a symbol is the TopSky symbol of its name, else the symbology symbol
of its type, else the built-in default. -/
theorem C46_symbols_partial {F : Type} (f : Int → F) (symbology : Map SymbolType (Symbol F))
    (topsky : Option (Map Str (Symbol F))) (k : Kind) (hk : k ≠ .vor) :
    symbolOf f symbology topsky k =
      match topsky.bind (·.get? (topskyName k)), symbology.get? (symbologyType k) with
      | some s, _ => s
      | none, some s => s
      | none, none => defaultSymbol f k := by
  have key : ∀ (a b : Option (Symbol F)) (d : Symbol F),
      (a.or b).getD d = match a, b with
        | some s, _ => s
        | none, some s => s
        | none, none => d := by
    intro a b d
    cases a <;> cases b <;> rfl
  cases k <;> first | exact key _ _ _ | exact absurd rfl hk

/-- C46 for VORs: the first two steps hold, the last one yields the default of NDBs. -/
theorem C46_vor {F : Type} (f : Int → F) (symbology : Map SymbolType (Symbol F))
    (topsky : Option (Map Str (Symbol F))) :
    symbolOf f symbology topsky .vor =
      match topsky.bind (·.get? (topskyName .vor)), symbology.get? (symbologyType .vor) with
      | some s, _ => s
      | none, some s => s
      | none, none => defaultSymbol f .ndb := by
  unfold symbolOf topskyName symbologyType
  cases topsky.bind (·.get? c!"VOR") <;> cases symbology.get? .vor <;> rfl

/-- C46, negated: the fallback of the VOR symbol is not the built-in VOR symbol. -/
theorem C46_vor_wrong {F : Type} (f : Int → F) :
    symbolOf f [] none .vor ≠ defaultSymbol f .vor := by
  intro h
  cases h

/-! ## Examples -/

section Examples

example : resolve (⟨1, 2, 3, 4, [(c!"EDMM", ⟨some 10, none, some 30⟩)]⟩ : CoordinationSettings Nat)
    (some c!"EDMM") (some ⟨none, some 200, some 300⟩) = ⟨10, 200, 300⟩ := by decide

/-- A range, a single code inside it and entries that are ignored. -/
example : let t := specialUseCodes [⟨none, some (c!"7500", c!"7502"), c!"a"⟩, ⟨some c!"7501", none, c!"b"⟩,
      ⟨some c!"8", none, c!"c"⟩, ⟨some c!"7502", some (c!"0", c!"7777"), c!"d"⟩, ⟨some c!"12", none, c!"e"⟩]
    t.get? c!"7500" = some c!"a" ∧ t.get? c!"7501" = some c!"b" ∧ t.get? c!"7502" = some c!"a" ∧
    t.get? c!"7503" = none ∧ t.get? c!"0012" = some c!"e" ∧ t.get? c!"12" = none := by decide +kernel

example : IsCode c!"7500" 3904 ∧ Octal c!"+12" 10 ∧ Covers ⟨some c!"12", none, []⟩ 10 :=
  ⟨(octal4_iff _ _).1 (by decide), (octalU16_iff _ _).1 (by decide),
    Or.inl ⟨_, rfl, rfl, (octalU16_iff _ _).1 (by decide)⟩⟩

example : (lineStyles id id (some [(c!"MINE", [4, 2, 5]), (c!"DASH", [9, 9]), (c!"ONE", [1])])).get? c!"MINE" =
    some (some [(4, 2)]) := by decide

example : (lineStyles id id (some [(c!"ONE", [1])])).get? c!"ONE" = some none ∧
    c!"ONE" ∉ builtinNames := by decide

end Examples

end Verif.Settings
