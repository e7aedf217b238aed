import Verif.Spec.Maps
/-! # Building one map (helper lemmas) -/

set_option linter.unusedSectionVars false

namespace Verif.Maps
open World Spec
variable [World]

theorem snoc_induction {α : Type} {P : List α → Prop} (h0 : P [])
    (hs : ∀ l a, P l → P (l ++ [a])) (l : List α) : P l := by
  have : ∀ n (l : List α), l.length = n → P l := by
    intro n
    induction n with
    | zero => intro l hl; rw [List.length_eq_zero_iff.1 hl]; exact h0
    | succ n ih =>
      intro l hl
      have hne : l ≠ [] := by intro h; rw [h] at hl; simp at hl
      rw [← List.dropLast_concat_getLast hne]
      exact hs _ _ (ih _ (by rw [List.length_dropLast, hl]; rfl))
  exact this _ l rfl

@[simp] theorem modifyLast_append {α : Type} (f : α → α) (l : List α) (a : α) :
    modifyLast f (l ++ [a]) = l ++ [f a] := by
  induction l with
  | nil => rfl
  | cons b l ih =>
    cases l with
    | nil => rfl
    | cons c l =>
      simp only [List.cons_append, modifyLast, List.cons.injEq, true_and]
      exact ih

theorem closeRing_eq (l : List Point) : closeRing l = ringOf l := by
  cases l with
  | nil => rfl
  | cons a l =>
    have : (a :: l).getLast? = some (l.getLastD a) := by
      rw [List.getLast?_cons, List.getLastD_eq_getLast?]
    simp only [closeRing, List.head?_cons, this, ringOf]

variable (s : Settings) (getColour : Str → Option Col) (conv : Loc → Option Point)

/-! ### The specification, one rule at a time -/

theorem expected_snoc (i : Attr) (pre : List MapRule) (r : MapRule) :
    expected s getColour conv i (pre ++ [r]) = expected s getColour conv i pre ++
      (drawn s conv pre r).map fun e => (inEffect s getColour i pre, e) := by
  unfold expected
  rw [List.zipIdx_append, List.flatMap_append]
  congr 1
  · rw [List.flatMap_def, List.flatMap_def]
    congr 1
    apply List.map_congr_left
    rintro ⟨x, k⟩ hx
    have hk := List.snd_lt_add_of_mem_zipIdx hx
    simp only at hk ⊢
    have : (pre ++ [r]).take k = pre.take k := List.take_append_of_le_length (by omega)
    rw [this]
  · simp

theorem inEffect_snoc (i : Attr) (pre : List MapRule) (r : MapRule) :
    inEffect s getColour i (pre ++ [r]) =
      match configures s getColour r with
      | some f => f (inEffect s getColour i pre)
      | none => inEffect s getColour i pre := by
  unfold inEffect
  rw [List.filterMap_append]
  cases h : configures s getColour r <;> simp [h]

theorem collected_snoc (pre : List MapRule) (r : MapRule) :
    collected (pre ++ [r]) =
      if isFlush r then [] else collected pre ++ (coordOf r).toList := by
  unfold collected
  rw [List.reverse_append]
  simp only [List.reverse_cons, List.reverse_nil, List.nil_append, List.cons_append,
    List.takeWhile_cons]
  cases h : isFlush r
  · simp only [Bool.not_false, if_true, List.reverse_cons, List.filterMap_append, Bool.false_eq_true,
      if_false]
    cases h2 : coordOf r <;> simp [h2]
  · simp

theorem sinceChange_snoc (pre : List MapRule) (r : MapRule) :
    sinceChange s getColour conv (pre ++ [r]) =
      match configures s getColour r with
      | some _ => []
      | none => sinceChange s getColour conv pre ++ drawn s conv pre r := by
  unfold sinceChange
  rw [List.zipIdx_append, List.flatMap_append]
  have hlast : ([r].zipIdx (0 + pre.length)).flatMap (fun (x : MapRule × Nat) =>
      if ∀ r' ∈ (pre ++ [r]).drop x.2, configures s getColour r' = none then
        drawn s conv ((pre ++ [r]).take x.2) x.1 else []) =
      match configures s getColour r with
      | some _ => []
      | none => drawn s conv pre r := by
    cases h : configures s getColour r <;> simp [h]
  cases h : configures s getColour r with
  | some f =>
    simp only [h] at hlast
    rw [hlast, List.append_nil, List.flatMap_eq_nil_iff]
    rintro ⟨x, k⟩ hx
    have hk := List.snd_lt_add_of_mem_zipIdx hx
    simp only at hk ⊢
    rw [if_neg]
    intro hall
    have := hall r (by rw [List.drop_append_of_le_length (by omega)]; simp)
    rw [h] at this; cases this
  | none =>
    simp only [h] at hlast
    rw [hlast]
    simp only
    congr 1
    rw [List.flatMap_def, List.flatMap_def]
    congr 1
    apply List.map_congr_left
    rintro ⟨x, k⟩ hx
    have hk := List.snd_lt_add_of_mem_zipIdx hx
    simp only at hk ⊢
    have e1 : (pre ++ [r]).take k = pre.take k := List.take_append_of_le_length (by omega)
    have e2 : (pre ++ [r]).drop k = pre.drop k ++ [r] := List.drop_append_of_le_length (by omega)
    rw [e1, e2]
    have : (∀ r' ∈ pre.drop k ++ [r], configures s getColour r' = none) ↔
        (∀ r' ∈ pre.drop k, configures s getColour r' = none) := by
      constructor
      · intro hh r' hr'; exact hh r' (List.mem_append_left _ hr')
      · intro hh r' hr'
        rcases List.mem_append.1 hr' with h1 | h1
        · exact hh r' h1
        · simp at h1; rw [h1]; exact h
    simp only [this]

theorem configures_draws_nothing (pre : List MapRule) (r : MapRule)
    (h : configures s getColour r ≠ none) : drawn s conv pre r = [] := by
  cases r <;> first | rfl | (exact absurd rfl h)

/-! ### The invariant -/

def viewLines (gs : List MapGroup) : List (Attr × List Point) :=
  gs.flatMap fun g => g.lines.map fun x => (g.attr, x)
def viewSymbols (gs : List MapGroup) : List (Attr × Symbol) :=
  gs.flatMap fun g => g.symbols.map fun x => (g.attr, x)
def viewLabels (gs : List MapGroup) : List (Attr × Label) :=
  gs.flatMap fun g => g.labels.map fun x => (g.attr, x)
def viewPolygons (gs : List MapGroup) : List (Attr × List Point) :=
  gs.flatMap fun g => g.polygons.map fun x => (g.attr, x)

def elemLine : Elem → Option (List Point) | .line p => some p | _ => none
def elemSymbol : Elem → Option Symbol | .symbol p => some p | _ => none
def elemLabel : Elem → Option Label | .label p => some p | _ => none
def elemPolygon : Elem → Option (List Point) | .polygon p => some p | _ => none

/-- Adding elements to a group. -/
def addElems (es : List Elem) (g : MapGroup) : MapGroup :=
  { g with
    lines := g.lines ++ es.filterMap elemLine
    symbols := g.symbols ++ es.filterMap elemSymbol
    labels := g.labels ++ es.filterMap elemLabel
    polygons := g.polygons ++ es.filterMap elemPolygon }

theorem addElems_nil (g : MapGroup) : addElems [] g = g := by simp [addElems]

/-- What one rule does to the groups and the coordinate buffer. -/
theorem ruleStep_groups (colour : Col) (m : MapV) (pre : List MapRule) (gs : List MapGroup)
    (g : MapGroup) (hg : m.groups = gs ++ [g]) (r : MapRule) :
    (ruleStep s getColour conv colour (m, collected pre) r).1.groups =
      (match configures s getColour r with
        | some f => configChange s colour (gs ++ [g]) f
        | none => gs ++ [addElems (drawn s conv pre r) g]) ∧
    (ruleStep s getColour conv colour (m, collected pre) r).2 = collected (pre ++ [r]) := by
  rw [collected_snoc]
  cases r with
  | colour name =>
    cases h : getColour name with
    | none => simp [ruleStep, configures, h, hg, drawn, addElems_nil, isFlush, coordOf]
    | some c => simp [ruleStep, configures, h, hg, isFlush, coordOf]
  | fontSize f =>
    constructor
    · simp only [ruleStep, configures, hg]
      congr 1
    · simp [ruleStep, isFlush, coordOf]
  | symbol sym =>
    constructor
    · simp only [ruleStep, configures, hg, drawn, modifyLast_append, addSymbol]
      cases h : conv sym.location with
      | none => simp [addElems_nil]
      | some p =>
        cases h2 : sym.label <;>
          simp [addElems, elemLine, elemSymbol, elemLabel, elemPolygon]
    · simp [ruleStep, isFlush, coordOf]
  | text t =>
    constructor
    · simp only [ruleStep, configures, hg, drawn, modifyLast_append, addText]
      cases h : conv t.location with
      | none => simp [addElems_nil]
      | some p => simp [addElems, elemLine, elemSymbol, elemLabel, elemPolygon]
    · simp [ruleStep, isFlush, coordOf]
  | line ls =>
    constructor
    · simp only [ruleStep, configures, hg, drawn, modifyLast_append, addLines, addElems]
      have e1 : (ls.map fun l => Elem.line (l.filterMap conv)).filterMap elemLine =
          ls.map fun l => l.filterMap conv := by
        rw [List.filterMap_map]; exact congrFun (List.filterMap_eq_map' (f := fun l => List.filterMap conv l)) ls
      have e2 : (ls.map fun l => Elem.line (l.filterMap conv)).filterMap elemSymbol = [] := by
        simp [List.filterMap_map, elemSymbol]
      have e3 : (ls.map fun l => Elem.line (l.filterMap conv)).filterMap elemLabel = [] := by
        simp [List.filterMap_map, elemLabel]
      have e4 : (ls.map fun l => Elem.line (l.filterMap conv)).filterMap elemPolygon = [] := by
        simp [List.filterMap_map, elemPolygon]
      rw [e1, e2, e3, e4]
      simp
    · simp [ruleStep, isFlush, coordOf]
  | coordPoly h =>
    constructor
    · simp [ruleStep, configures, hg, drawn, addPolygon, closeRing_eq, addElems, elemLine, elemSymbol, elemLabel,
        elemPolygon]
    · simp [ruleStep, isFlush]
  | coordLine =>
    constructor
    · simp [ruleStep, configures, hg, drawn, addLines, addElems, elemLine, elemSymbol, elemLabel,
        elemPolygon]
    · simp [ruleStep, isFlush]
  | _ => constructor <;> simp [ruleStep, configures, hg, drawn, addElems_nil, isFlush, coordOf]

theorem configChange_snoc (colour : Col) (gs : List MapGroup) (g : MapGroup) (f : Attr → Attr) :
    configChange s colour (gs ++ [g]) f =
      if g.lines = [] ∧ g.symbols = [] ∧ g.labels = [] then gs ++ [{ g with attr := f g.attr }]
      else gs ++ [g] ++ [⟨f g.attr, [], [], [], []⟩] := by
  unfold configChange
  simp only [List.getLast?_concat, modifyLast_append]
  by_cases h : g.lines = [] ∧ g.symbols = [] ∧ g.labels = []
  · simp [h]
  · rw [if_neg h, if_neg]
    simp only [Bool.and_eq_true, List.isEmpty_iff]
    intro hh; exact h ⟨hh.1.1, hh.1.2, hh.2⟩

theorem of_map_pair {α : Type} (a : Attr) (es : List Elem) (f : Elem → Option α)
    (g : Attr × Elem → Option (Attr × α)) (h : ∀ a e, g (a, e) = (f e).map fun x => (a, x)) :
    (es.map fun e => (a, e)).filterMap g = (es.filterMap f).map fun x => (a, x) := by
  induction es with
  | nil => rfl
  | cons e es ih =>
    simp only [List.map_cons, List.filterMap_cons, h]
    cases f e <;> simp [ih]

/-- The state after the rules `pre`. -/
structure Inv (colour : Col) (pre : List MapRule) (st : MapV × List Loc) : Prop where
  buffer : st.2 = collected pre
  groups : ∃ gs g, st.1.groups = gs ++ [g] ∧ g.attr = inEffect s getColour (initial s colour) pre
  lines : viewLines st.1.groups = linesOf (expected s getColour conv (initial s colour) pre)
  symbols : viewSymbols st.1.groups = symbolsOf (expected s getColour conv (initial s colour) pre)
  labels : viewLabels st.1.groups = labelsOf (expected s getColour conv (initial s colour) pre)
  polygons : (viewPolygons st.1.groups).map (·.2) =
    (polygonsOf (expected s getColour conv (initial s colour) pre)).map (·.2)

def run (colour : Col) (d : MapDef) (rules : List MapRule) : MapV × List Loc :=
  rules.foldl (ruleStep s getColour conv colour)
    (⟨d.name, s.autoFolder, [defaultGroup s colour], false, []⟩, [])

theorem run_snoc (colour : Col) (d : MapDef) (pre : List MapRule) (r : MapRule) :
    run s getColour conv colour d (pre ++ [r]) =
      ruleStep s getColour conv colour (run s getColour conv colour d pre) r := by
  simp [run, List.foldl_append]

theorem views_addElems (gs : List MapGroup) (g : MapGroup) (es : List Elem) :
    viewLines (gs ++ [addElems es g]) = viewLines (gs ++ [g]) ++ (es.filterMap elemLine).map (fun x => (g.attr, x)) ∧
    viewSymbols (gs ++ [addElems es g]) = viewSymbols (gs ++ [g]) ++ (es.filterMap elemSymbol).map (fun x => (g.attr, x)) ∧
    viewLabels (gs ++ [addElems es g]) = viewLabels (gs ++ [g]) ++ (es.filterMap elemLabel).map (fun x => (g.attr, x)) ∧
    viewPolygons (gs ++ [addElems es g]) = viewPolygons (gs ++ [g]) ++ (es.filterMap elemPolygon).map (fun x => (g.attr, x)) := by
  simp [viewLines, viewSymbols, viewLabels, viewPolygons, addElems]

theorem views_configChange (colour : Col) (gs : List MapGroup) (g : MapGroup) (f : Attr → Attr) :
    viewLines (configChange s colour (gs ++ [g]) f) = viewLines (gs ++ [g]) ∧
    viewSymbols (configChange s colour (gs ++ [g]) f) = viewSymbols (gs ++ [g]) ∧
    viewLabels (configChange s colour (gs ++ [g]) f) = viewLabels (gs ++ [g]) ∧
    (viewPolygons (configChange s colour (gs ++ [g]) f)).map (·.2) = (viewPolygons (gs ++ [g])).map (·.2) ∧
    (g.polygons = [] ∨ ¬ (g.lines = [] ∧ g.symbols = [] ∧ g.labels = []) →
      viewPolygons (configChange s colour (gs ++ [g]) f) = viewPolygons (gs ++ [g])) := by
  rw [configChange_snoc]
  split
  · next h =>
    refine ⟨?_, ?_, ?_, ?_, ?_⟩
    · simp [viewLines, h.1]
    · simp [viewSymbols, h.2.1]
    · simp [viewLabels, h.2.2]
    · simp [viewPolygons]
    · rintro (h2 | h2)
      · simp [viewPolygons, h2]
      · exact absurd h h2
  · simp [viewLines, viewSymbols, viewLabels, viewPolygons]

theorem configChange_last (colour : Col) (gs : List MapGroup) (g : MapGroup) (f : Attr → Attr) :
    ∃ gs' g', configChange s colour (gs ++ [g]) f = gs' ++ [g'] ∧ g'.attr = f g.attr := by
  rw [configChange_snoc]
  split
  · exact ⟨gs, _, rfl, rfl⟩
  · exact ⟨gs ++ [g], _, rfl, rfl⟩

theorem inv_run (colour : Col) (d : MapDef) (rules : List MapRule) :
    Inv s getColour conv colour rules (run s getColour conv colour d rules) := by
  induction rules using snoc_induction with
  | h0 =>
    refine ⟨rfl, ⟨[], _, rfl, rfl⟩, rfl, rfl, rfl, rfl⟩
  | hs pre r ih =>
    rw [run_snoc]
    generalize run s getColour conv colour d pre = st at ih
    obtain ⟨m, buf⟩ := st
    obtain ⟨gs, g, hgs, hattr⟩ := ih.groups
    have hbuf := ih.buffer
    simp only at hbuf hgs
    subst hbuf
    obtain ⟨e1, e2⟩ := ruleStep_groups s getColour conv colour m pre gs g hgs r
    have hl := ih.lines
    have hsy := ih.symbols
    have hla := ih.labels
    have hpo := ih.polygons
    simp only [hgs] at hl hsy hla hpo
    cases hc : configures s getColour r with
    | none =>
      rw [hc] at e1
      simp only at e1
      obtain ⟨v1, v2, v3, v4⟩ := views_addElems gs g (drawn s conv pre r)
      refine ⟨e2, ⟨gs, _, e1, ?_⟩, ?_, ?_, ?_, ?_⟩
      · rw [inEffect_snoc, hc]; exact hattr
      · rw [e1, v1, expected_snoc, linesOf, List.filterMap_append, of_map_pair _ _ elemLine _ (by intro a e; cases e <;> rfl), hattr, hl, linesOf]
      · rw [e1, v2, expected_snoc, symbolsOf, List.filterMap_append, of_map_pair _ _ elemSymbol _ (by intro a e; cases e <;> rfl), hattr, hsy, symbolsOf]
      · rw [e1, v3, expected_snoc, labelsOf, List.filterMap_append, of_map_pair _ _ elemLabel _ (by intro a e; cases e <;> rfl), hattr, hla, labelsOf]
      · rw [e1, v4, expected_snoc, polygonsOf, List.filterMap_append, of_map_pair _ _ elemPolygon _ (by intro a e; cases e <;> rfl), hattr, List.map_append, hpo, polygonsOf, List.map_append]
    | some f =>
      rw [hc] at e1
      simp only at e1
      obtain ⟨v1, v2, v3, v4, _⟩ := views_configChange s colour gs g f
      have hd := configures_draws_nothing s getColour conv pre r (by rw [hc]; simp)
      obtain ⟨gs', g', hg', ha'⟩ := configChange_last s colour gs g f
      refine ⟨e2, ⟨gs', g', e1.trans hg', ?_⟩, ?_, ?_, ?_, ?_⟩
      · rw [inEffect_snoc, hc, ha', hattr]
      · rw [e1, v1, expected_snoc, hd, hl]; simp
      · rw [e1, v2, expected_snoc, hd, hsy]; simp
      · rw [e1, v3, expected_snoc, hd, hla]; simp
      · rw [e1, v4, expected_snoc, hd, hpo]; simp

/-- The last group holds what was drawn since the last change, and polygons carry their attributes. -/
structure PolyInv (colour : Col) (pre : List MapRule) (groups : List MapGroup) : Prop where
  polygons : viewPolygons groups = polygonsOf (expected s getColour conv (initial s colour) pre)
  last : ∃ gs g, groups = gs ++ [g] ∧
    g.lines = (sinceChange s getColour conv pre).filterMap elemLine ∧
    g.symbols = (sinceChange s getColour conv pre).filterMap elemSymbol ∧
    g.labels = (sinceChange s getColour conv pre).filterMap elemLabel ∧
    g.polygons = (sinceChange s getColour conv pre).filterMap elemPolygon

theorem polyInv_run (colour : Col) (d : MapDef) (rules : List MapRule)
    (hn : NoChangeAfterPolygonsOnly s getColour conv rules) :
    PolyInv s getColour conv colour rules (run s getColour conv colour d rules).1.groups := by
  induction rules using snoc_induction with
  | h0 => exact ⟨rfl, [], _, rfl, rfl, rfl, rfl, rfl⟩
  | hs pre r ih =>
    have ih := ih (by
      intro b x a hpre hx
      exact hn b x (a ++ [r]) (by rw [hpre]; simp) hx)
    have hinv := inv_run s getColour conv colour d pre
    rw [run_snoc]
    generalize run s getColour conv colour d pre = st at ih hinv
    obtain ⟨m, buf⟩ := st
    have hbuf := hinv.buffer
    simp only at hbuf
    subst hbuf
    obtain ⟨gs, g, hgs, l1, l2, l3, l4⟩ := ih.last
    simp only at hgs
    have hattr : g.attr = inEffect s getColour (initial s colour) pre := by
      obtain ⟨gs2, g2, hgs2, ha⟩ := hinv.groups
      simp only at hgs2
      rw [hgs] at hgs2
      have := List.append_inj' hgs2 rfl
      simp at this
      rw [this.2]; exact ha
    obtain ⟨e1, _⟩ := ruleStep_groups s getColour conv colour m pre gs g hgs r
    have hpo := ih.polygons
    simp only [hgs] at hpo
    have hsc := sinceChange_snoc s getColour conv pre r
    cases hc : configures s getColour r with
    | none =>
      rw [hc] at e1 hsc
      simp only at e1 hsc
      obtain ⟨_, _, _, v4⟩ := views_addElems gs g (drawn s conv pre r)
      refine ⟨?_, gs, _, e1, ?_, ?_, ?_, ?_⟩
      · rw [e1, v4, expected_snoc, polygonsOf, List.filterMap_append, of_map_pair _ _ elemPolygon _ (by intro a e; cases e <;> rfl), hattr, hpo, polygonsOf]
      · rw [hsc, List.filterMap_append, ← l1]; rfl
      · rw [hsc, List.filterMap_append, ← l2]; rfl
      · rw [hsc, List.filterMap_append, ← l3]; rfl
      · rw [hsc, List.filterMap_append, ← l4]; rfl
    | some f =>
      rw [hc] at e1 hsc
      simp only at e1 hsc
      obtain ⟨_, _, _, _, v5⟩ := views_configChange s colour gs g f
      have hd := configures_draws_nothing s getColour conv pre r (by rw [hc]; simp)
      have hcase : g.polygons = [] ∨ ¬ (g.lines = [] ∧ g.symbols = [] ∧ g.labels = []) := by
        rcases hn pre r [] rfl (by rw [hc]; simp) with h | ⟨e, he, hp⟩
        · left; rw [l4, h]; rfl
        · right
          rintro ⟨h1, h2, h3⟩
          rw [l1, List.filterMap_eq_nil_iff] at h1
          rw [l2, List.filterMap_eq_nil_iff] at h2
          rw [l3, List.filterMap_eq_nil_iff] at h3
          cases e with
          | line _ => have := h1 _ he; cases this
          | symbol _ => have := h2 _ he; cases this
          | label _ => have := h3 _ he; cases this
          | polygon _ => cases hp
      refine ⟨?_, ?_⟩
      · rw [e1, v5 hcase, expected_snoc, hd, hpo]; simp
      · rw [e1, configChange_snoc, hsc]
        split
        · next hemp =>
          refine ⟨gs, _, rfl, ?_, ?_, ?_, ?_⟩
          · rw [hemp.1]; rfl
          · rw [hemp.2.1]; rfl
          · rw [hemp.2.2]; rfl
          · rcases hcase with h | h
            · rw [h]; rfl
            · exact absurd hemp h
        · exact ⟨gs ++ [g], _, rfl, rfl, rfl, rfl, rfl⟩

/-! ### The other fields -/

theorem foldl_folder (colour : Col) (rules : List MapRule) (st : MapV × List Loc) :
    (rules.foldl (ruleStep s getColour conv colour) st).1.folder =
      ((rules.filterMap fun | .folder f => some f | _ => none).getLast?).getD st.1.folder := by
  induction rules generalizing st with
  | nil => rfl
  | cons r rules ih =>
    rw [List.foldl_cons, ih]
    cases r with
    | folder f => simp [ruleStep, List.getLast?_cons]
    | colour n => simp only [ruleStep]; cases getColour n <;> rfl
    | _ => rfl

theorem foldl_name (colour : Col) (rules : List MapRule) (st : MapV × List Loc) :
    (rules.foldl (ruleStep s getColour conv colour) st).1.name = st.1.name := by
  induction rules generalizing st with
  | nil => rfl
  | cons r rules ih =>
    rw [List.foldl_cons, ih]
    cases r with
    | colour n => simp only [ruleStep]; cases getColour n <;> rfl
    | _ => rfl

theorem foldl_hidden (colour : Col) (rules : List MapRule) (st : MapV × List Loc) :
    (rules.foldl (ruleStep s getColour conv colour) st).1.hidden = true ↔
      st.1.hidden = true ∨ MapRule.hidden ∈ rules := by
  induction rules generalizing st with
  | nil => simp
  | cons r rules ih =>
    rw [List.foldl_cons, ih]
    cases r with
    | hidden => simp [ruleStep]
    | colour n => simp only [ruleStep]; cases getColour n <;> simp
    | _ => simp [ruleStep]

theorem activeGroups_cons_other (r : MapRule) (l : List MapRule)
    (h : (∀ a, r ≠ .active a) ∧ (∀ a, r ≠ .andActive a)) :
    activeGroups (r :: l) = activeGroups l ∧ leadingAnds (r :: l) = leadingAnds l := by
  cases r with
  | active a => exact absurd rfl (h.1 a)
  | andActive a => exact absurd rfl (h.2 a)
  | _ => exact ⟨rfl, rfl⟩

theorem foldl_active (colour : Col) (rules : List MapRule) (st : MapV × List Loc) :
    (rules.foldl (ruleStep s getColour conv colour) st).1.active =
      modifyLast (· ++ leadingAnds rules) st.1.active ++ activeGroups rules := by
  induction rules generalizing st with
  | nil =>
    have : ∀ l : List (List Active), modifyLast (· ++ ([] : List Active)) l = l := by
      intro l
      induction l using snoc_induction with
      | h0 => rfl
      | hs l a _ => simp
    simp only [leadingAnds, activeGroups, List.foldl_nil]
    rw [this, List.append_nil]
  | cons r rules ih =>
    rw [List.foldl_cons, ih]
    have other : (∀ a, r ≠ .active a) ∧ (∀ a, r ≠ .andActive a) →
        (ruleStep s getColour conv colour st r).1.active = st.1.active →
        modifyLast (· ++ leadingAnds rules) (ruleStep s getColour conv colour st r).1.active ++
          activeGroups rules = modifyLast (· ++ leadingAnds (r :: rules)) st.1.active ++
          activeGroups (r :: rules) := by
      intro h h2
      rw [(activeGroups_cons_other r rules h).1, (activeGroups_cons_other r rules h).2, h2]
    cases r with
    | active a =>
      simp only [ruleStep, leadingAnds, activeGroups, modifyLast_append]
      have : ∀ l : List (List Active), modifyLast (· ++ ([] : List Active)) l = l := by
        intro l
        induction l using snoc_induction with
        | h0 => rfl
        | hs l a _ => simp
      rw [this]
      simp
    | andActive a =>
      simp only [ruleStep, leadingAnds, activeGroups]
      congr 1
      induction st.1.active using snoc_induction with
      | h0 => rfl
      | hs l x _ => simp
    | colour n => apply other ⟨by simp, by simp⟩; simp only [ruleStep]; cases getColour n <;> rfl
    | _ => exact other ⟨by simp, by simp⟩ rfl

end Verif.Maps
