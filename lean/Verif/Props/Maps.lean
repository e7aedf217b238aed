import Verif.Proofs.MapFolders
/-! # C28-C31: TopSky maps -/

set_option linter.unusedSectionVars false

namespace Verif.Maps
open World Spec

section Props
variable [World]
variable (s : Settings) (getColour : Str → Option Col) (conv : Loc → Option Point)

/-- A map is shown if one of its colours is known. -/
def Spec.HasColour (getColour : Str → Option Col) (d : MapDef) : Prop :=
  ∃ name c, MapRule.colour name ∈ d.rules ∧ getColour name = some c

theorem firstColour_spec (rules : List MapRule) :
    (∃ c, firstColour getColour rules = some c) ↔
      ∃ name c, MapRule.colour name ∈ rules ∧ getColour name = some c := by
  unfold firstColour
  constructor
  · rintro ⟨c, h⟩
    rw [List.findSome?_eq_some_iff] at h
    obtain ⟨l1, a, l2, h1, h2, _⟩ := h
    cases a <;> simp only at h2 <;> try cases h2
    next name => exact ⟨name, c, by rw [h1]; simp, h2⟩
  · rintro ⟨name, c, h1, h2⟩
    cases h : rules.findSome? fun x => match x with | MapRule.colour c => getColour c | _ => none with
    | some c => exact ⟨c, rfl⟩
    | none =>
      rw [List.findSome?_eq_none_iff] at h
      have := h _ h1
      simp only [h2] at this
      cases this

/-- The known colours among the COLOR rules. -/
def Spec.knownColours (getColour : Str → Option Col) (rules : List MapRule) : List Col :=
  rules.filterMap fun
    | .colour name => getColour name
    | _ => none

theorem firstColour_eq (rules : List MapRule) :
    firstColour getColour rules = (knownColours getColour rules).head? := by
  unfold firstColour knownColours
  rw [List.head?_filterMap]
  rfl

/-- C28: a map is built exactly if one of its colours is known; it keeps its name and is in the
folder named last; it is hidden exactly if a rule says so. -/
theorem C28_built (d : MapDef) :
    ((∃ m, buildMap s getColour conv d = some m) ↔ HasColour getColour d) ∧
    ∀ m, buildMap s getColour conv d = some m →
      m.name = d.name ∧ m.folder = folderOf s d.rules ∧ (m.hidden = true ↔ isHidden d.rules) := by
  constructor
  · rw [HasColour, ← firstColour_spec]
    unfold buildMap
    cases firstColour getColour d.rules <;> simp
  · intro m h
    unfold buildMap at h
    rw [Option.map_eq_some_iff] at h
    obtain ⟨c, _, rfl⟩ := h
    refine ⟨foldl_name .., foldl_folder .., ?_⟩
    rw [foldl_hidden]; simp [isHidden]

/-- The definitions of the maps shown in a folder, in file order. -/
noncomputable def Spec.inFolder (s : Settings) (getColour : Str → Option Col) (f : Str)
    (defs : List MapDef) : List MapDef :=
  open Classical in
  defs.filter fun d => decide (HasColour getColour d) && decide (folderOf s d.rules = f)

theorem inFolder_built (f : Str) (defs : List MapDef) :
    ((inFolder s getColour f defs).map fun d => some (d.name)) =
      ((defs.filterMap (buildMap s getColour conv)).filter fun m => m.folder = f).map
        (fun m => some m.name) ∧
    ((inFolder s getColour f defs).map (buildMap s getColour conv)) =
      ((defs.filterMap (buildMap s getColour conv)).filter fun m => m.folder = f).map some := by
  classical
  induction defs with
  | nil => exact ⟨rfl, rfl⟩
  | cons d defs ih =>
    obtain ⟨h1, h2⟩ := C28_built s getColour conv d
    unfold inFolder at ih ⊢
    rw [List.filter_cons, List.filterMap_cons]
    cases hb : buildMap s getColour conv d with
    | none =>
      have : ¬ HasColour getColour d := by
        rw [← h1, hb]; simp
      simp only [this, decide_false, Bool.false_and, Bool.false_eq_true, if_false]
      exact ih
    | some m =>
      have hc : HasColour getColour d := h1.1 ⟨m, hb⟩
      obtain ⟨e1, e2, _⟩ := h2 m hb
      rw [List.filter_cons]
      by_cases e : folderOf s d.rules = f
      · simp only [hc, e, e2, decide_true, Bool.and_self, if_true, List.map_cons, ih.1, ih.2, hb, e1,
          and_self]
      · simp only [hc, e, e2, decide_true, decide_false, Bool.and_false, Bool.false_eq_true, if_false]
        exact ih

/-- C28: loading succeeds.  A folder exists exactly if a shown map is in it.  Its entries are exactly
the shown maps of that folder, in order, each once, under its own name or the first free name with a
suffix; keys are distinct and equal to the map's name. -/
theorem C28_folders (overrides : List OverrideSct) (defs : List MapDef) :
    ∃ folders, fromTopsky s getColour conv overrides defs = .ok folders ∧ ∀ f,
      (folders.get? f = none ↔ inFolder s getColour f defs = []) ∧
      ∀ fd, folders.get? f = some fd →
        fd.name = f ∧
        (fd.hidden = true ↔ f = s.autoFolder ∨ ⟨f, none⟩ ∈ overrides) ∧
        ∃ given, AreNamesFor ((inFolder s getColour f defs).map (·.name)) given ∧ given.Nodup ∧
          fd.maps.map (·.1) = given ∧
          fd.maps.map (fun e => some e.2) = List.zipWith
            (fun d n => (buildMap s getColour conv d).map fun m => { m with name := n })
            (inFolder s getColour f defs) given := by
  obtain ⟨folders, h1, h2⟩ := addMaps_ok s overrides [] [] (defs.filterMap (buildMap s getColour conv))
    (by intro f; rfl)
  refine ⟨folders, h1, ?_⟩
  intro f
  have hf := h2 f
  rw [List.nil_append] at hf
  obtain ⟨b1, b2⟩ := inFolder_built s getColour conv f defs
  generalize ((defs.filterMap (buildMap s getColour conv)).filter fun m => m.folder = f) = ms at hf b1 b2
  generalize inFolder s getColour f defs = ds at b1 b2
  have hnil : ds = [] ↔ ms = [] := by
    have := congrArg List.length b2
    simp only [List.length_map] at this
    rw [← List.length_eq_zero_iff, ← List.length_eq_zero_iff, this]
  have hnames : ds.map (·.name) = ms.map (·.name) := by
    have := congrArg (List.filterMap id) b1
    simpa [List.filterMap_map] using this
  constructor
  · cases hg : folders.get? f with
    | none => rw [hg] at hf; simp only [FolderOk] at hf; simp [hnil, hf]
    | some fd =>
      rw [hg] at hf
      constructor
      · intro h; cases h
      · intro h; exact absurd (hnil.1 h) hf.1
  · intro fd hg
    rw [hg] at hf
    obtain ⟨hne, hn, hh, given, hgiv, hnd, hmaps⟩ := hf
    have hlen : ms.length = given.length := by have := hgiv.1; simpa using this
    refine ⟨hn, ?_, given, by rw [hnames]; exact hgiv, hnd, ?_, ?_⟩
    · rw [hh]; simp
    · rw [hmaps]; exact entries_keys hlen
    · rw [hmaps, entries, List.map_zipWith]
      have : ∀ (ds : List MapDef) (ms : List MapV) (given : List Str),
          ds.map (buildMap s getColour conv) = ms.map some →
          List.zipWith (fun (m : MapV) n => some ({ m with name := n })) ms given =
          List.zipWith (fun d n => (buildMap s getColour conv d).map fun m => { m with name := n }) ds given := by
        intro ds
        induction ds with
        | nil => intro ms given h; cases ms with
          | nil => rfl
          | cons _ _ => cases h
        | cons d ds ih =>
          intro ms given h
          cases ms with
          | nil => cases h
          | cons m ms =>
            simp only [List.map_cons, List.cons.injEq] at h
            cases given with
            | nil => rfl
            | cons g given =>
              simp only [List.zipWith_cons_cons, List.cons.injEq]
              exact ⟨by rw [h.1]; rfl, ih ms given h.2⟩
      exact this ds ms given b2

theorem entries_name (ms : List MapV) (given : List Str) (n : Str) (m : MapV)
    (h : (n, m) ∈ entries ms given) : m.name = n := by
  unfold entries at h
  induction ms generalizing given with
  | nil => cases h
  | cons a ms ih =>
    cases given with
    | nil => cases h
    | cons g given =>
      simp only [List.zipWith_cons_cons, List.mem_cons, Prod.mk.injEq] at h
      rcases h with ⟨rfl, rfl⟩ | h
      · rfl
      · exact ih _ h

/-- C28: the key of a map is its name. -/
theorem C28_key_is_name (overrides : List OverrideSct) (defs : List MapDef) (folders : Map Str Folder)
    (h : fromTopsky s getColour conv overrides defs = .ok folders) (f : Str) (fd : Folder)
    (hf : folders.get? f = some fd) (n : Str) (m : MapV) (hm : (n, m) ∈ fd.maps) : m.name = n := by
  obtain ⟨folders', h1, h2⟩ := addMaps_ok s overrides [] [] (defs.filterMap (buildMap s getColour conv))
    (by intro f; rfl)
  have : folders' = folders := by
    have := h1.symm.trans h
    simpa using this
  subst this
  have := h2 f
  rw [hf] at this
  obtain ⟨_, _, _, given, _, _, hmaps⟩ := this
  rw [hmaps] at hm
  exact entries_name _ _ _ _ hm

/-! ### C29 -/

/-- C29, in part: in a map, the lines, symbols and labels of the groups, each with the attributes of
its group, are exactly those the rules draw, with the attributes in effect, in order.  Polygons: the
same polygons in the same order; with their attributes if no attribute is changed when only polygons
were drawn since the last change.  Missing: polygons without that condition, where it is false, see
`C29_polygon_recoloured`. -/
theorem C29_attributes_partial (d : MapDef) (m : MapV) (h : buildMap s getColour conv d = some m) :
    ∃ c, (knownColours getColour d.rules).head? = some c ∧
      let all := expected s getColour conv (initial s c) d.rules
      (m.groups.flatMap fun g => g.lines.map fun x => (g.attr, x)) = linesOf all ∧
      (m.groups.flatMap fun g => g.symbols.map fun x => (g.attr, x)) = symbolsOf all ∧
      (m.groups.flatMap fun g => g.labels.map fun x => (g.attr, x)) = labelsOf all ∧
      m.groups.flatMap (·.polygons) = (polygonsOf all).map (·.2) ∧
      (NoChangeAfterPolygonsOnly s getColour conv d.rules →
        (m.groups.flatMap fun g => g.polygons.map fun x => (g.attr, x)) = polygonsOf all) := by
  unfold buildMap at h
  rw [Option.map_eq_some_iff] at h
  obtain ⟨c, hc, rfl⟩ := h
  have hinv := inv_run s getColour conv c d d.rules
  refine ⟨c, by rw [← firstColour_eq]; exact hc, hinv.lines, hinv.symbols, hinv.labels, ?_, ?_⟩
  · rw [← hinv.polygons, viewPolygons, List.map_flatMap]
    simp only [List.map_map, Function.comp_def, List.map_id']
    rfl
  · intro hn
    exact (polyInv_run s getColour conv c d d.rules hn).polygons

/-- C29 fails for polygons: a polygon drawn in one colour is recoloured by the next COLOR rule. -/
theorem C29_polygon_recoloured (name c1 c2 : Str) (k1 k2 : Col) (h1 : getColour c1 = some k1)
    (h2 : getColour c2 = some k2) (hne : k1 ≠ k2) (l : Loc) (hatch : Str) :
    let rules := [.colour c1, .coord l, .coordPoly hatch, .colour c2]
    ∃ m, buildMap s getColour conv ⟨name, rules⟩ = some m ∧
      (m.groups.flatMap fun g => g.polygons.map fun x => (g.attr.colour, x)) =
        [(k2, ringOf ([l].filterMap conv))] ∧
      (polygonsOf (expected s getColour conv (initial s k1) rules)).map
        (fun p => (p.1.colour, p.2)) = [(k1, ringOf ([l].filterMap conv))] ∧
      m.groups.flatMap (fun g => g.polygons.map fun x => (g.attr, x)) ≠
        polygonsOf (expected s getColour conv (initial s k1) rules) := by
  intro rules
  have key : ∃ m, buildMap s getColour conv ⟨name, rules⟩ = some m ∧
      (m.groups.flatMap fun g => g.polygons.map fun x => (g.attr.colour, x)) =
        [(k2, ringOf ([l].filterMap conv))] ∧
      (polygonsOf (expected s getColour conv (initial s k1) rules)).map
        (fun p => (p.1.colour, p.2)) = [(k1, ringOf ([l].filterMap conv))] := by
    simp only [buildMap, firstColour, List.findSome?_cons, h1, Option.map_some, rules]
    refine ⟨_, rfl, ?_, ?_⟩
    · simp [ruleStep, h1, h2, configChange, defaultGroup, modifyLast, addPolygon, closeRing_eq]
    · simp [expected, List.zipIdx, drawn, polygonsOf, collected, isFlush, coordOf, inEffect,
        configures, h1, initial, List.filterMap_cons]
      cases conv l <;> rfl
  obtain ⟨m, e1, e2, e3⟩ := key
  refine ⟨m, e1, e2, e3, ?_⟩
  intro he
  have := congrArg (List.map fun p => (p.1.colour, p.2)) he
  rw [e3, List.map_flatMap] at this
  simp only [List.map_map, Function.comp_def] at this
  rw [e2] at this
  simp only [List.cons.injEq, Prod.mk.injEq, and_true] at this
  exact hne this.symm

/-! ### C30 -/

/-- C30: the active field is one group per ACTIVE rule, with the AND_ACTIVE rules up to the next. -/
theorem C30_active (d : MapDef) (m : MapV) (h : buildMap s getColour conv d = some m) :
    m.active = activeGroups d.rules := by
  unfold buildMap at h
  rw [Option.map_eq_some_iff] at h
  obtain ⟨c, _, rfl⟩ := h
  rw [foldl_active]
  rfl

/-! ### C31 -/

/-- C31: the polygons are one per COORDPOLY rule, of the resolvable coordinates collected since the
last COORDPOLY or COORDLINE before it. -/
theorem C31_polygons (d : MapDef) (m : MapV) (h : buildMap s getColour conv d = some m) :
    m.groups.flatMap (·.polygons) = d.rules.zipIdx.flatMap fun (r, i) =>
      match r with
      | .coordPoly _ => [ringOf ((collected (d.rules.take i)).filterMap conv)]
      | _ => [] := by
  obtain ⟨c, _, _, _, _, hp, _⟩ := C29_attributes_partial s getColour conv d m h
  rw [hp, expected, polygonsOf, List.filterMap_flatMap, List.map_flatMap]
  congr 1
  funext ⟨r, i⟩
  cases r <;> try rfl
  case symbol sym => simp only [drawn]; cases conv sym.location <;> rfl
  case text t => simp only [drawn]; cases conv t.location <;> rfl
  case line ls =>
    simp only [drawn, List.map_map, List.filterMap_map]
    simp [Function.comp_def]

/-- C31: the lines are those of the LINE rules, and one per COORDLINE rule, of the resolvable
coordinates collected since the last COORDPOLY or COORDLINE before it; in rule order. -/
theorem C31_lines (d : MapDef) (m : MapV) (h : buildMap s getColour conv d = some m) :
    m.groups.flatMap (·.lines) = d.rules.zipIdx.flatMap fun (r, i) =>
      match r with
      | .line ls => ls.map fun l => l.filterMap conv
      | .coordLine => [(collected (d.rules.take i)).filterMap conv]
      | _ => [] := by
  obtain ⟨c, _, hl, _⟩ := C29_attributes_partial s getColour conv d m h
  have := congrArg (List.map (·.2)) hl
  rw [List.map_flatMap] at this
  simp only [List.map_map, Function.comp_def, List.map_id'] at this
  have e : m.groups.flatMap (·.lines) = m.groups.flatMap fun g => g.lines := rfl
  rw [e, this, expected, linesOf, List.filterMap_flatMap, List.map_flatMap]
  congr 1
  funext ⟨r, i⟩
  cases r <;> try rfl
  case symbol sym => simp only [drawn]; cases conv sym.location <;> rfl
  case text t => simp only [drawn]; cases conv t.location <;> rfl
  case line ls =>
    simp only [drawn, List.map_map, List.filterMap_map, Function.comp_def]
    simp

end Props

section Examples

/-- Integers for colours, sizes and offsets, pairs of integers for points. -/
local instance exWorld : World where
  Loc := Int × Int
  Point := Int × Int
  Col := Int
  Num := Int
  Offset := Int
  Active := Nat
  LineStyle := Str
  Alignment := Nat
  add a b := a + b
  sub a b := a - b
  mul a b := a * b
  defaultLineStyle := c!"SOLID"
  defaultAlignment := 0
  pointEq a b := a == b

private def exSettings : Settings := ⟨(12 : Int), (1 : Int), c!"AUTO", (3 : Int)⟩
private def exColour (n : Str) : Option Col :=
  if n = c!"red" then some (1 : Int) else if n = c!"blue" then some (2 : Int) else none
private def exConv (l : Loc) : Option Point := some l

/-- Two maps of one name, one of a folder of its own, one without colour. -/
private def exDefs : List MapDef :=
  [⟨c!"A", [.folder c!"F", .colour c!"red", .line [[((0, 0) : Int × Int), ((1, 1) : Int × Int)]],
      .fontSize (.add (2 : Int)), .text ⟨((5, 5) : Int × Int), c!"hi", none⟩, .active (7 : Nat),
      .andActive (8 : Nat), .coord ((0, 0) : Int × Int), .coord ((2, 0) : Int × Int), .coordLine]⟩,
   ⟨c!"A", [.folder c!"F", .colour c!"blue", .coord ((0, 0) : Int × Int), .coord ((2, 0) : Int × Int),
      .coordPoly c!"", .hidden]⟩,
   ⟨c!"A", [.folder c!"G", .colour c!"blue"]⟩,
   ⟨c!"B", [.folder c!"F", .colour c!"green"]⟩]

example : (do
    let fs ← fromTopsky exSettings exColour exConv [] exDefs
    Except.ok (fs.map fun f => (f.1, f.2.maps.map fun m => (m.1, m.2.hidden)))
      : Run (List (Str × List (Str × Bool)))) =
    .ok [(c!"F", [(c!"A", false), (c!"A_2", true)]), (c!"G", [(c!"A", false)])] := by rfl

/-- the groups of the first map: font size, lines, labels -/
example : (do
    let d ← exDefs.head?
    let m ← buildMap exSettings exColour exConv d
    some (m.groups.map fun g => (g.attr.fontSize, g.lines, g.labels.map (·.text)), m.active)) =
    some ([((12 : Int), [[((0, 0) : Int × Int), ((1, 1) : Int × Int)]], []),
      ((14 : Int), [[((0, 0) : Int × Int), ((2, 0) : Int × Int)]], [c!"hi"])],
      [[(7 : Nat), (8 : Nat)]]) := by rfl

example : HasColour exColour ⟨c!"A", [.colour c!"red"]⟩ := ⟨c!"red", (1 : Int), by simp, rfl⟩

/-- the condition of C29 holds for a map that draws a polygon and a line before a change … -/
example : NoChangeAfterPolygonsOnly exSettings exColour exConv
    [.coordPoly c!"", .coordLine, .colour c!"red"] := by
  intro b r a h hr
  match b, h with
  | [], h => simp at h; obtain ⟨rfl, _⟩ := h; exact absurd rfl hr
  | [_], h => simp at h; obtain ⟨_, rfl, _⟩ := h; exact absurd rfl hr
  | [_, _], h =>
    simp at h; obtain ⟨rfl, rfl, rfl, _⟩ := h
    exact .inr ⟨.line [], by simp [sinceChange, List.zipIdx, configures, drawn, collected, isFlush], rfl⟩
  | _ :: _ :: _ :: _, h => simp at h

/-- … and the witness of its failure exists. -/
example : exColour c!"red" = some (1 : Int) ∧ exColour c!"blue" = some (2 : Int) := ⟨rfl, rfl⟩

end Examples

end Verif.Maps
