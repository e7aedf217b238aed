import Verif.Proofs.LineEnds
import Verif.Spec.LineEndsNames
/-!
# Sector files and ASR files depend on the line ends only in some names
-/

namespace Verif.Proofs.LineEnds
open Verif.Peg Verif.Parse
open Verif.Spec (SameLines drawingName sctNames asrNames)

/-- Results that differ in something that `g` removes. -/
theorem map_bind {A B A' B' : Type} {x y : Run A} {g : A → A'} (h : x.map g = y.map g) {f f' : A → Run B} {r : B → B'}
    (hf : ∀ a a', g a = g a' → (f a).map r = (f' a').map r) : (x >>= f).map r = (y >>= f').map r := by
  cases x with
  | error e =>
    cases y with
    | error e' => simp only [Except.map, Except.error.injEq] at h; rw [h]; rfl
    | ok a' => simp [Except.map] at h
  | ok a =>
    cases y with
    | error e' => simp [Except.map] at h
    | ok a' =>
      simp only [Except.map, Except.ok.injEq] at h
      exact hf a a' h

/-! ## Sector files -/
section

def sctBig : Big Sct.Rule :=
  ⟨fun r => match r with
    | .non_coordinate_or_double_fix_name | .info_section | .vor_section | .ndb_section | .fixes_section
    | .airport_section | .runway_section | .high_airway_section | .low_airway_section | .labels_section | .region => true
    | _ => false,
   fun r => match r with
    | .sct | .sid_section | .star_section | .artcc_high_section | .artcc_section | .artcc_low_section | .region_section
    | .geo_section | .coloured_lines => true
    | _ => false,
   fun _ => false, (· == .coloured_lines),
   fun r r' => match r with
    | .sct => r' != .coloured_lines && r' != .region && r' != .non_coordinate_or_double_fix_name
    | .coloured_lines => r' == .non_coordinate_or_double_fix_name || r' == .coloured_line
    | .region_section => r' == .region || r' == .colour_definition
    | _ => r' == .coloured_lines || r' == .colour_definition⟩

theorem sct_skip : EvenSkip sctBig true Sct.skip :=
  evenSkip_both (by decide) (by decide) (by decide) (by decide) (by decide) (by decide) (by decide) (by decide)

theorem sct_even [T : UnicodeTables] : even sctBig true Peg.Sct.sct .nonAtomic false = true := by
  rw [← clear_eq T]
  rfl

variable {F : Type} [F64 F] [Dms.DmsArith F]

/-- The drawings of a section under other names. -/
def sectionNames (g : Str → Str) : Sct.Section F → Sct.Section F
  | .sid l => .sid (l.map (drawingName g))
  | .star l => .star (l.map (drawingName g))
  | .artccHigh l => .artccHigh (l.map (drawingName g))
  | .artcc l => .artcc (l.map (drawingName g))
  | .artccLow l => .artccLow (l.map (drawingName g))
  | .geo l => .geo (l.map (drawingName g))
  | x => x

theorem sct_colour (colours : Map Str Colours.Colour) (t t' : Tree Sct.Rule) (h : Alike sctBig t t')
    (hc : t.asRule = .colour_definition) : Sct.storeColour colours t = Sct.storeColour colours t' := by
  cases h with
  | same => rfl
  | line => rfl
  | @box r _ _ _ _ h => simp only [Tree.asRule_node] at hc; subst hc; cases h

/-- The entries of a section. -/
theorem sct_entries {A : Type} {f : Tree Sct.Rule → Run (Option A)} {g : A → A} {k k' : List (Tree Sct.Rule)}
    (hk : Alikes sctBig k k') (hf : ∀ t ∈ k, ∀ t', Alike sctBig t t' → t.asRule ≠ .colour_definition →
      (f t).map (Option.map g) = (f t').map (Option.map g)) :
    ∀ colours, (Sct.entries f colours k).map (Prod.map (List.map g) id) =
      (Sct.entries f colours k').map (Prod.map (List.map g) id) := by
  induction k generalizing k' with
  | nil => cases hk; intro; rfl
  | cons t k ih =>
    intro colours
    cases hk with
    | @cons _ t' _ k' h hk =>
    have ih := ih hk fun u hu => hf u (List.mem_cons_of_mem _ hu)
    simp only [Sct.entries, ← h.rule]
    by_cases hc : t.asRule = .colour_definition
    · simp only [hc, if_true, sct_colour colours t t' h hc]
      exact map_bind (g := id) rfl fun a a' e => by cases e; exact ih a
    · simp only [hc, if_false]
      refine map_bind (hf t List.mem_cons_self t' h hc) fun a a' e => ?_
      refine map_bind (ih colours) fun x x' e2 => ?_
      obtain ⟨l, c⟩ := x
      obtain ⟨l', c'⟩ := x'
      simp only [Prod.map_apply, id, Prod.mk.injEq] at e2
      have : a.toList.map g = a'.toList.map g := by
        cases a <;> cases a' <;> simp_all
      show Except.ok _ = Except.ok _
      simp [this, e2]

variable [DecidableEq F]

theorem sct_drawing (t t' : Tree Sct.Rule) (h : Alike sctBig t t') (hc : t.asRule = .coloured_lines) :
    (Sct.parseDrawing (F := F) t).map (drawingName unix) = (Sct.parseDrawing t').map (drawingName unix) := by
  cases h with
  | same => rfl
  | line => rfl
  | @box r s s' k k' h hk hh hl hs hp =>
    simp only [Tree.asRule_node] at hc
    subst hc
    have hl := hl rfl
    cases hk with
    | nil => rfl
    | cons ht hk =>
      simp only [List.tail_cons] at hl
      subst hl
      simp only [Sct.parseDrawing, Sct.nextStr, Tree.inner_node, next_cons]
      show (Sct.parseLineGroups _ >>= _).map _ = (Sct.parseLineGroups _ >>= _).map _
      refine map_bind (g := id) rfl fun a a' e => ?_
      cases e
      show Except.ok _ = Except.ok _
      simp [drawingName, ht.text]

theorem sct_section (t t' : Tree Sct.Rule) (h : Alike sctBig t t') (colours : Map Str Colours.Colour) :
    (Sct.parseSection (F := F) t colours).map (Prod.map (Prod.map id (sectionNames unix)) id) =
      (Sct.parseSection t' colours).map (Prod.map (Prod.map id (sectionNames unix)) id) := by
  cases h with
  | same => rfl
  | line => rfl
  | @box r s s' k k' h hk hh hl hs hp =>
    have draw : ∀ r, (∀ t ∈ k, (t.asRule == .coloured_lines || t.asRule == .colour_definition) = true) →
        ∀ (name : Sct.SectionName) (mk : List (Sct.Drawing F) → Sct.Section F),
        (∀ l, sectionNames unix (mk l) = mk (l.map (drawingName unix))) →
        (Sct.entries (fun t => some <$> Sct.parseDrawing (F := F) t) colours (Tree.node r s k).inner >>= fun x =>
          pure ((name, mk x.1), x.2)).map (Prod.map (Prod.map id (sectionNames unix)) id) =
        (Sct.entries (fun t => some <$> Sct.parseDrawing (F := F) t) colours (Tree.node r s' k').inner >>= fun x =>
          pure ((name, mk x.1), x.2)).map (Prod.map (Prod.map id (sectionNames unix)) id) := by
      intro r hp name mk hmk
      refine map_bind (sct_entries (g := drawingName unix) hk (fun t ht t' h hc => ?_) colours) fun a a' e => ?_
      · have hr : t.asRule = .coloured_lines := by
          have := hp t ht
          simpa [hc] using this
        have := sct_drawing (F := F) t t' h hr
        revert this
        generalize Sct.parseDrawing (F := F) t = x
        generalize Sct.parseDrawing (F := F) t' = y
        intro this
        exact map_bind (f := fun a => Except.ok (some a)) (f' := fun a => Except.ok (some a)) this
          fun a a' e => by simp [Except.map, e]
      · obtain ⟨l, c⟩ := a
        obtain ⟨l', c'⟩ := a'
        simp only [Prod.map_apply, id, Prod.mk.injEq] at e
        show Except.ok _ = Except.ok _
        simp [hmk, e]
    cases r
    case sid_section => exact draw _ hp _ _ fun _ => rfl
    case star_section => exact draw _ hp _ _ fun _ => rfl
    case artcc_high_section => exact draw _ hp _ _ fun _ => rfl
    case artcc_section => exact draw _ hp _ _ fun _ => rfl
    case artcc_low_section => exact draw _ hp _ _ fun _ => rfl
    case geo_section => exact draw _ hp _ _ fun _ => rfl
    case region_section =>
      refine map_bind (sct_entries (f := fun t => some <$> Sct.parseRegion (F := F) t) (g := id) hk (fun t ht t' h hc => ?_) colours)
        fun a a' e => ?_
      · cases h with
        | same => rfl
        | line => rfl
        | @box r _ _ _ _ h =>
          have := hp _ ht
          simp only [Tree.asRule_node] at this
          cases r <;> first | exact absurd h (by decide) | exact absurd this (by decide)
      · obtain ⟨l, c⟩ := a
        obtain ⟨l', c'⟩ := a'
        simp only [Prod.map_apply, id, Prod.mk.injEq, List.map_id] at e
        rw [e.1, e.2]
    all_goals first | rfl | cases h

theorem sct_sections {k k' : List (Tree Sct.Rule)} (hk : Alikes sctBig k k') :
    ∀ colours, (Sct.parseSections (F := F) colours k).map (Prod.map (List.map (Prod.map id (sectionNames unix))) id) =
      (Sct.parseSections colours k').map (Prod.map (List.map (Prod.map id (sectionNames unix))) id) := by
  induction k generalizing k' with
  | nil => cases hk; intro; rfl
  | cons t k ih =>
    intro colours
    cases hk with
    | @cons _ t' _ k' h hk =>
    have ih := ih hk
    simp only [Sct.parseSections, ← h.rule]
    by_cases hc : t.asRule = .colour_definition
    · simp only [hc, if_true, sct_colour colours t t' h hc]
      exact map_bind (g := id) rfl fun a a' e => by cases e; exact ih a
    · simp only [hc, if_false]
      refine map_bind (sct_section (F := F) t t' h colours) fun a a' e => ?_
      obtain ⟨a, c⟩ := a
      obtain ⟨a', c'⟩ := a'
      simp only [Prod.map_apply, id, Prod.mk.injEq] at e
      obtain ⟨e1, rfl⟩ := e
      refine map_bind (ih c) fun x x' e2 => ?_
      obtain ⟨l, c⟩ := x
      obtain ⟨l', c'⟩ := x'
      simp only [Prod.map_apply, id, Prod.mk.injEq] at e2
      show Except.ok _ = Except.ok _
      simp [e1, e2]

theorem ofList_map {K V W : Type} [DecidableEq K] (f : V → W) (l : List (K × V)) (k : K) :
    Map.get? (Map.ofList (l.map (Prod.map id f))) k = (Map.get? (Map.ofList l) k).map f := by
  have : ∀ (m : Map K V) (m' : Map K W), Map.get? m' k = (Map.get? m k).map f →
      Map.get? ((l.map (Prod.map id f)).foldl (fun m e => Map.insert m e.1 e.2) m') k =
        (Map.get? (l.foldl (fun m e => Map.insert m e.1 e.2) m) k).map f := by
    induction l with
    | nil => intro m m' h; exact h
    | cons e l ih =>
      intro m m' h
      refine ih _ _ ?_
      obtain ⟨k', v⟩ := e
      simp only [Map.get?_insert, Prod.map_apply, id]
      split
      · rfl
      · exact h
  exact this [] [] rfl

omit [Dms.DmsArith F] [DecidableEq F] in
theorem assemble_names (g : Str → Str) (l : List (Sct.SectionName × Sct.Section F)) (colours : Map Str Colours.Colour) :
    sctNames g (Sct.assemble (Map.ofList l) colours) =
      Sct.assemble (Map.ofList (l.map (Prod.map id (sectionNames g)))) colours := by
  simp only [Sct.assemble, sctNames, ofList_map, Sct.Sct.mk.injEq]
  refine ⟨?_, ?_, ?_, ?_, ?_, ?_, ?_, ?_, ?_, ?_, ?_, ?_, ?_, ?_, ?_, ?_, ?_⟩ <;> first | trivial | (
    generalize Map.get? (Map.ofList l) _ = x
    cases x with
    | none => rfl
    | some x => cases x <;> rfl)

theorem sct_same [UnicodeTables] {s t : Str} (h : SameLines s t) :
    (Sct.parse (F := F) s).map (sctNames unix) = (Sct.parse t).map (sctNames unix) := by
  have key : ∀ s, (Sct.parse (F := F) s).map (sctNames unix) = (run Peg.Sct.skip Peg.Sct.sct s).bind fun pairs => (do
      let (p, _) ← next pairs
      let (sections, colours) ← Sct.parseSections (F := F) [] p.inner
      return Sct.assemble (Map.ofList sections) colours : Run (Sct.Sct F)).map (sctNames unix) := by
    intro s
    simp only [Sct.parse]
    generalize run Peg.Sct.skip Peg.Sct.sct s = x
    cases x <;> rfl
  rw [key, key]
  refine run_sameLines sct_skip sct_even (fun _ _ h => ?_) h
  cases h with
  | nil => rfl
  | cons h _ =>
    refine map_bind (sct_sections (F := F) h.kids []) fun a a' e => ?_
    obtain ⟨a, c⟩ := a
    obtain ⟨a', c'⟩ := a'
    simp only [Prod.map_apply, id, Prod.mk.injEq] at e
    show Except.ok _ = Except.ok _
    rw [assemble_names, assemble_names, e.1, e.2]
end

/-! ## ASR files -/
section

def asrBig : Big Asr.Rule :=
  ⟨fun r => match r with
    | .runways | .free_text | .asr | .INTEGER | .DECIMAL | .BOOL | .coord_part | .sct_coord_part | .value | .multivalue
    | .runway_desig | .centerline | .ext_centerline | .name | .symbol | .frequency | .line | .exit | .taxiway
    | .terminal_taxiway | .EOI | .deg | .min | .sec | .hemi => false
    | _ => true,
   fun r => r == .asr || r == .runways || r == .free_text, fun _ => false, fun r => r == .runways || r == .free_text, fun _ _ => true⟩

theorem asr_skip : EvenSkip asrBig false Asr.skip :=
  evenSkip_one (by decide) (by decide) (by decide) (by decide)

theorem asr_even : even asrBig false Peg.Asr.asr .nonAtomic false = true := by decide

variable {F : Type} [F64 F]

/-- A setting with another name of the airport or of the free texts. -/
def dataNames (g : Str → Str) : Asr.AsrData F → Asr.AsrData F
  | .runway (a, r) => .runway (g a, r)
  | .freeText (a, r) => .freeText (g a, r)
  | x => x

omit [F64 F] in
theorem asr_first {t t' : Tree Asr.Rule} (h : Alike asrBig t t') (k : List (Tree Asr.Rule)) :
    (Asr.nextStr (t :: k)).map (Prod.map unix id) = (Asr.nextStr (t' :: k)).map (Prod.map unix id) := by
  show Except.ok _ = Except.ok _
  simp [h.text]

theorem asr_setting (t t' : Tree Asr.Rule) (h : Alike asrBig t t') :
    (Asr.parseSetting (F := F) t).map (Option.map (dataNames unix)) =
      (Asr.parseSetting t').map (Option.map (dataNames unix)) := by
  cases h with
  | same => rfl
  | line => rfl
  | @box r s s' k k' h hk hh hl hs hp =>
    cases r
    case runways =>
      have hl := hl rfl
      cases hk with
      | nil => rfl
      | cons ht hk =>
        simp only [List.tail_cons] at hl
        subst hl
        refine map_bind (asr_first ht _) fun a a' e => ?_
        obtain ⟨n, ts⟩ := a
        obtain ⟨n', ts'⟩ := a'
        simp only [Prod.map_apply, id, Prod.mk.injEq] at e
        obtain ⟨e, rfl⟩ := e
        refine map_bind (g := id) rfl fun a a' e => ?_
        cases e
        refine map_bind (g := id) rfl fun a a' e => ?_
        cases e
        refine map_bind (g := id) rfl fun a a' e => ?_
        cases e
        dsimp only
        split <;> first
          | rfl
          | (show Except.ok _ = Except.ok _
             simp [dataNames, e])
    case free_text =>
      have hl := hl rfl
      cases hk with
      | nil => rfl
      | cons ht hk =>
        simp only [List.tail_cons] at hl
        subst hl
        refine map_bind (asr_first ht _) fun a a' e => ?_
        obtain ⟨n, ts⟩ := a
        obtain ⟨n', ts'⟩ := a'
        simp only [Prod.map_apply, id, Prod.mk.injEq] at e
        obtain ⟨e, rfl⟩ := e
        refine map_bind (g := id) rfl fun a a' e => ?_
        cases e
        show Except.ok _ = Except.ok _
        simp [dataNames, e]
    all_goals first | rfl | cases h

theorem asr_collect {k k' : List (Tree Asr.Rule)} (hk : Alikes asrBig k k') :
    (Asr.collect (F := F) k).map (List.map (dataNames unix)) = (Asr.collect k').map (List.map (dataNames unix)) := by
  induction k generalizing k' with
  | nil => cases hk; rfl
  | cons t k ih =>
    cases hk with
    | @cons _ t' _ k' h hk =>
    refine map_bind (asr_setting (F := F) t t' h) fun a a' e => ?_
    refine map_bind (ih hk) fun x x' e2 => ?_
    have : a.toList.map (dataNames unix) = a'.toList.map (dataNames unix) := by
      cases a <;> cases a' <;> simp_all
    show Except.ok _ = Except.ok _
    simp [this, e2]

omit [F64 F] in
theorem findMapOr_names {B : Type} (g : Str → Str) (l : List (Asr.AsrData F)) (f : Asr.AsrData F → Option B) (d : B)
    (hf : ∀ x, f (dataNames g x) = f x) :
    Asr.findMapOr (l.map (dataNames g)) f d = Asr.findMapOr l f d := by
  simp only [Asr.findMapOr, List.findSome?_map]
  congr 2
  funext x
  exact hf x

omit [F64 F] in
theorem map_names (g : Str → Str) (l : List (Asr.AsrData F)) :
    Asr.AsrMap.ofData (l.map (dataNames g)) =
      { Asr.AsrMap.ofData l with
        runways := (Asr.AsrMap.ofData l).runways.map (fun r => (g r.1, r.2))
        freeText := (Asr.AsrMap.ofData l).freeText.map (fun r => (g r.1, r.2)) } := by
  have : ∀ acc : Asr.AsrMap, (l.map (dataNames g)).foldl Asr.AsrMap.push
      { acc with
        runways := acc.runways.map (fun r => (g r.1, r.2))
        freeText := acc.freeText.map (fun r => (g r.1, r.2)) } =
      { l.foldl Asr.AsrMap.push acc with
        runways := (l.foldl Asr.AsrMap.push acc).runways.map (fun r => (g r.1, r.2))
        freeText := (l.foldl Asr.AsrMap.push acc).freeText.map (fun r => (g r.1, r.2)) } := by
    induction l with
    | nil => intro acc; rfl
    | cons x l ih =>
      intro acc
      simp only [List.map_cons, List.foldl_cons]
      rw [← ih (acc.push x)]
      congr 1
      cases x <;> simp [dataNames, Asr.AsrMap.push]
  exact this {}

theorem build_names (g : Str → Str) (l : List (Asr.AsrData F)) :
    asrNames g (Asr.build l) = Asr.build (l.map (dataNames g)) := by
  simp only [asrNames, Asr.build, map_names, List.filterMap_map]
  congr 1
  case e_pluginSettings =>
    congr 2
    funext x
    cases x <;> rfl
  all_goals exact (findMapOr_names g l _ _ (fun x => by cases x <;> rfl)).symm

theorem asr_same {s t : Str} (h : SameLines s t) :
    (Asr.parse (F := F) s).map (asrNames unix) = (Asr.parse t).map (asrNames unix) := by
  have key : ∀ s, (Asr.parse (F := F) s).map (asrNames unix) = (run Peg.Asr.skip Peg.Asr.asr s).bind fun pairs => (do
      let (p, _) ← next pairs
      let sections ← Asr.collect p.inner
      return Asr.build sections : Run (Asr.Asr F)).map (asrNames unix) := by
    intro s
    simp only [Asr.parse]
    generalize run Peg.Asr.skip Peg.Asr.asr s = x
    cases x <;> rfl
  rw [key, key]
  refine run_sameLines asr_skip asr_even (fun _ _ h => ?_) h
  cases h with
  | nil => rfl
  | cons h _ =>
    refine map_bind (asr_collect (F := F) h.kids) fun a a' e => ?_
    show Except.ok _ = Except.ok _
    rw [build_names, build_names, e]
end

end Verif.Proofs.LineEnds
