import Verif.Proofs.AsrFile
/-!
# Lemmas about .asr files: from the tokens to the settings
-/

set_option linter.unusedSectionVars false

namespace Verif.Parse.Asr
open Verif.Peg Verif.Peg.Asr Verif.Spec.Asr

instance (w : Line) : Decidable w.Fits := by
  unfold Line.Fits
  split <;> infer_instance

variable {F : Type} [F64 F]

def flagData (k : Flag) (b : Bool) : AsrData F :=
  match k with
  | .disablePanning => .disablePanning b
  | .disableZooming => .disableZooming b
  | .geoReferenced => .displayTypeGeoReferenced b
  | .needRadarContent => .displayTypeNeedRadarContent b
  | .showLeader => .showLeader b
  | .showC => .showC b
  | .showStandby => .showStandby b
  | .turnLeader => .turnLeader b

def intData (k : IntKey) (n : Str) : AsrData F :=
  match k with
  | .above => .above (filterOf n)
  | .below => .below (filterOf n)
  | .historyDots => .historyDots (intValue n).toNat
  | .leader => .leader (leaderOf n)
  | .simulationMode => .simulationMode (modeOf n)

def textData (k : TextKey) (v : Str) : AsrData F :=
  match k with
  | .displayType => .displayType (displayTypeOf v)
  | .sectorFile => .sectorFile v
  | .sectorTitle => .sectorTitle v
  | .tagFamily => .tagFamily v

def nameData (k : NameKey) (v : Str) : AsrData F :=
  match k with
  | .sid => .sid v
  | .star => .star v
  | .geo => .geo v
  | .region => .region v
  | .artcc => .artccBoundary v
  | .artccLow => .artccLowBoundary v
  | .artccHigh => .artccHighBoundary v

/-- What a line contributes. -/
def lineData (num : Str → F) : Line → Option (AsrData F)
  | .flag k b => some (flagData k b)
  | .int k n => some (intData k n)
  | .text k v => some (textData k v)
  | .displayRotation x => some (.displayRotation (num x))
  | .windowArea a b c d => some (.windowArea (⟨num b, num a⟩, ⟨num d, num c⟩))
  | .plugin p k v => some (.pluginSetting (p, k, v))
  | .named k n => some (nameData k n)
  | .airport n t => some (.airport (n, t))
  | .fix n t => some (.fix (n, t))
  | .ndb n t => some (.ndb (n, t))
  | .vor n t => some (.vor (n, t))
  | .lowAirway n t => some (.lowAirway (n, t))
  | .highAirway n t => some (.highAirway (n, t))
  | .ground n t => some (.groundNetwork (n, t))
  | .freeText g n => some (.freeText (g, n))
  | .runway ap a b .centreline => some (.runway (ap, a, b, .centreline))
  | .runway ap a b .name => some (.runway (ap, a, b, .name))
  | .runway _ _ _ (.extended _) => none

theorem isInt_isInteger {n : Str} (h : IsInt n) : IsInteger n := by
  obtain ⟨sg, ds, rfl, h1, h2⟩ := isInt_split h
  exact ⟨sg, ds, rfl, by rcases h1 with rfl | rfl <;> simp [IsSign], h2⟩

theorem isInt_unsigned {n : Str} (h : IsInt n) (hn : n.head? ≠ some '-') : 0 ≤ intValue n := by
  rcases h with h | ⟨ds, rfl, h⟩
  · have : intValue n = digitsValue n := by
      cases n with
      | nil => rfl
      | cons c t =>
        have h1 := isDigit_ne (h.2 c List.mem_cons_self) (d := '-') (by decide)
        have h2 := isDigit_ne (h.2 c List.mem_cons_self) (d := '+') (by decide)
        unfold intValue
        split
        · next heq => simp at heq; exact absurd heq.1 h1
        · next heq => simp at heq; exact absurd heq.1 h2
        · rfl
    omega
  · exact absurd rfl hn

/-- `num` reads every number as the code does. -/
def Reads (num : Str → F) : Prop := ∀ s, IsNumber s → F64.ofText s = some (num s)

theorem toNat_zero {n : Str} (h : IsInt n) (hn : n.head? ≠ some '-') : (intValue n).toNat = 0 ↔ intValue n = 0 := by
  have := isInt_unsigned h hn
  omega

/-- The numbers of a line are numbers. -/
def Nums : Line → Prop
  | .int _ n => IsInt n
  | .displayRotation x => IsNumber x
  | .windowArea a b c d => IsNumber a ∧ IsNumber b ∧ IsNumber c ∧ IsNumber d
  | _ => True

theorem valid_nums {w : Line} (h : w.Valid) : Nums w := by
  cases w <;> first | exact h | trivial

theorem setting_line {num : Str → F} (hn : Reads num) {w : Line} (hv : Nums w) :
    parseSetting (lineTree w) = if w.Fits then .ok (lineData num w) else .error .panic := by
  cases w with
  | flag k b => cases k <;> cases b <;> rfl
  | int k n =>
    have hi := isInt_isInteger hv
    cases k with
    | above =>
      simp only [parseSetting, lineTree, lineRule, IntKey.rule, Tree.asRule_node, Tree.inner_node, lineKids, nextStr, next_cons,
        run_ok_bind, Tree.asStr_node, run_pure, parseUnsigned_integer hi]
      by_cases hf : (Line.int .above n).Fits
      · rw [if_pos hf]
        simp only [Line.Fits] at hf
        rw [if_pos ⟨hf.1, by omega⟩]
        simp only [unwrap, run_ok_bind, lineData, intData, filterOf, toNat_zero hv hf.1]
        split <;> rfl
      · rw [if_neg hf]
        simp only [Line.Fits] at hf
        rw [if_neg (fun h => hf ⟨h.1, by omega⟩)]
        rfl
    | below =>
      simp only [parseSetting, lineTree, lineRule, IntKey.rule, Tree.asRule_node, Tree.inner_node, lineKids, nextStr, next_cons,
        run_ok_bind, Tree.asStr_node, run_pure, parseUnsigned_integer hi]
      by_cases hf : (Line.int .below n).Fits
      · rw [if_pos hf]
        simp only [Line.Fits] at hf
        rw [if_pos ⟨hf.1, by omega⟩]
        simp only [unwrap, run_ok_bind, lineData, intData, filterOf, toNat_zero hv hf.1]
        split <;> rfl
      · rw [if_neg hf]
        simp only [Line.Fits] at hf
        rw [if_neg (fun h => hf ⟨h.1, by omega⟩)]
        rfl
    | historyDots =>
      simp only [parseSetting, lineTree, lineRule, IntKey.rule, Tree.asRule_node, Tree.inner_node, lineKids, nextStr, next_cons,
        run_ok_bind, Tree.asStr_node, run_pure, parseUnsigned_integer hi]
      by_cases hf : (Line.int .historyDots n).Fits
      · rw [if_pos hf]
        simp only [Line.Fits] at hf
        rw [if_pos ⟨hf.1, by omega⟩]
        rfl
      · rw [if_neg hf]
        simp only [Line.Fits] at hf
        rw [if_neg (fun h => hf ⟨h.1, by omega⟩)]
        rfl
    | leader =>
      simp only [parseSetting, lineTree, lineRule, IntKey.rule, Tree.asRule_node, Tree.inner_node, lineKids, nextStr, next_cons,
        run_ok_bind, Tree.asStr_node, run_pure, parseSigned_integer hi (bound := 2 ^ 7) (by decide)]
      by_cases hf : (Line.int .leader n).Fits
      · rw [if_pos hf]
        simp only [Line.Fits] at hf
        rw [if_pos (by constructor <;> omega)]
        simp only [unwrap, run_ok_bind, lineData, intData, leaderOf]
        split
        · rfl
        · have : (intValue n).natAbs = (-intValue n).toNat := by omega
          rw [this]
      · rw [if_neg hf]
        simp only [Line.Fits] at hf
        rw [if_neg (by intro h; apply hf; constructor <;> omega)]
        rfl
    | simulationMode =>
      simp only [parseSetting, lineTree, lineRule, IntKey.rule, Tree.asRule_node, Tree.inner_node, lineKids, nextStr, next_cons,
        run_ok_bind, Tree.asStr_node, run_pure]
      rw [if_pos (show (Line.int .simulationMode n).Fits from trivial)]
      simp only [lineData, intData, modeOf]
      by_cases h1 : n = c!"1"
      · subst h1; rfl
      · rw [if_neg h1]
  | text k v =>
    rw [if_pos (by simp [Line.Fits])]
    cases k
    · simp only [parseSetting, lineTree, lineRule, TextKey.rule, Tree.asRule_node, Tree.inner_node, lineKids, nextStr, next_cons,
        run_ok_bind, Tree.asStr_node, run_pure, lineData, textData, displayTypeOf]
      simp
    · rfl
    · rfl
    · rfl
  | displayRotation x =>
    rw [if_pos (by simp [Line.Fits])]
    simp [parseSetting, lineTree, lineRule, lineKids, nextF64, nextStr, hn x hv, unwrap, lineData]
  | windowArea a b c d =>
    obtain ⟨ha, hb, hc, hd⟩ := hv
    rw [if_pos (by simp [Line.Fits])]
    simp [parseSetting, lineTree, lineRule, lineKids, coordTree, nextF64, nextStr, hn _ ha, hn _ hb, hn _ hc, hn _ hd, unwrap, lineData]
  | plugin p k v => rfl
  | named k n => cases k <;> rfl
  | airport n t => cases t <;> rfl
  | fix n t => cases t <;> rfl
  | ndb n t => cases t <;> rfl
  | vor n t => cases t <;> rfl
  | lowAirway n t => cases t <;> rfl
  | highAirway n t => cases t <;> rfl
  | ground n t => cases t <;> rfl
  | freeText g n => rfl
  | runway ap a b t => cases t <;> rfl

/-- All lines fit: the data of the lines.  One does not: a panic. -/
theorem collect_lines {num : Str → F} (hn : Reads num) : ∀ ws : List Line, (∀ w ∈ ws, Nums w) →
    collect (ws.map lineTree ++ [.node .EOI [] []]) =
      if ∀ w ∈ ws, w.Fits then .ok (ws.filterMap (lineData num)) else .error .panic := by
  intro ws
  induction ws with
  | nil => intro _; rfl
  | cons w ws ih =>
    intro hv
    have h1 := setting_line hn (hv w List.mem_cons_self)
    have h2 := ih fun v h => hv v (List.mem_cons_of_mem _ h)
    simp only [List.map_cons, List.cons_append, collect, h1]
    by_cases hw : w.Fits
    · rw [if_pos hw, run_ok_bind, h2]
      by_cases hws : ∀ w ∈ ws, w.Fits
      · rw [if_pos hws, if_pos (by simpa using ⟨hw, hws⟩)]
        simp only [run_ok_bind, run_pure, List.filterMap_cons]
        cases lineData num w <;> rfl
      · rw [if_neg hws, if_neg (fun h => hws fun v hv => h v (List.mem_cons_of_mem _ hv))]
        rfl
    · rw [if_neg hw, if_neg (fun h => hw (h w List.mem_cons_self))]
      rfl

theorem lines_valid {s : Str} {ws : List Line} (h : IsLines s ws) : ∀ w ∈ ws, w.Valid := by
  induction h with
  | last w f hv _ _ => intro v hw; rw [List.mem_singleton.1 hw]; exact hv
  | cons w f s ws hv _ _ _ ih =>
    intro v hw
    rcases List.mem_cons.1 hw with rfl | hw
    · exact hv
    · exact ih v hw

/-- The outcome for a file. -/
theorem file_parse {num : Str → F} (hn : Reads num) {content : Str} {ws : List Line} (h : IsFile content ws) :
    parse content = if ∀ w ∈ ws, w.Fits then .ok (build (ws.filterMap (lineData num))) else .error .panic := by
  have hv : ∀ w ∈ ws, w.Valid := by obtain ⟨_, _, _, _, h⟩ := h; exact lines_valid h
  simp only [parse, file_run h, run_ok_bind, next_cons, Tree.inner_node, collect_lines hn ws fun w hw => valid_nums (hv w hw)]
  split <;> rfl

/-! ## The meaning of the data -/

theorem findMapOr_lines {B : Type} (num : Str → F) (ws : List Line) (f : AsrData F → Option B) (g : Line → Option B)
    (d : B) (h : ∀ w, (lineData num w).bind f = g w) :
    findMapOr (ws.filterMap (lineData num)) f d = first ws g d := by
  unfold findMapOr first
  have : (ws.filterMap (lineData num)).findSome? f = ws.findSome? g := by
    induction ws with
    | nil => rfl
    | cons w ws ih =>
      rw [List.findSome?_cons, ← h w, ← ih, List.filterMap_cons]
      cases lineData num w <;> rfl
  rw [List.head?_filterMap, this]

theorem map_field {X : Type} (sel : AsrMap → List X) (g : AsrData F → Option X) (h0 : sel {} = [])
    (h : ∀ acc d, sel (acc.push d) = sel acc ++ (g d).toList) (ds : List (AsrData F)) :
    sel (AsrMap.ofData ds) = ds.filterMap g := by
  have : ∀ acc, sel (ds.foldl AsrMap.push acc) = sel acc ++ ds.filterMap g := by
    induction ds with
    | nil => simp
    | cons d ds ih =>
      intro acc
      rw [List.foldl_cons, ih, h, List.filterMap_cons]
      cases g d <;> simp
  rw [AsrMap.ofData, this, h0, List.nil_append]

theorem map_lines {X : Type} (num : Str → F) (ws : List Line) (sel : AsrMap → List X) (g : AsrData F → Option X)
    (k : Line → Option X) (h0 : sel {} = []) (h : ∀ acc d, sel (AsrMap.push (F := F) acc d) = sel acc ++ (g d).toList)
    (hk : ∀ w, (lineData num w).bind g = k w) :
    sel (AsrMap.ofData (ws.filterMap (lineData num))) = ws.filterMap k := by
  rw [map_field sel g h0 h, List.filterMap_filterMap]
  congr
  funext w
  exact hk w

theorem ofList_last {A B : Type} [DecidableEq A] (l : List (A × B)) (k : A) :
    (Map.ofList l).get? k = (l.filterMap fun e => if e.1 = k then some e.2 else none).getLast? := by
  have : ∀ m : Map A B, (l.foldl (fun m e => m.insert e.1 e.2) m).get? k =
      (match (l.filterMap fun e => if e.1 = k then some e.2 else none).getLast? with
      | some v => some v
      | none => m.get? k) := by
    induction l with
    | nil => intro m; rfl
    | cons e l ih =>
      intro m
      rw [List.foldl_cons, ih, List.filterMap_cons]
      by_cases h : e.1 = k
      · simp only [if_pos h]
        rw [List.getLast?_cons]
        cases (l.filterMap fun e => if e.1 = k then some e.2 else none).getLast? with
        | some v => rfl
        | none => rw [← h]; simp
      · simp only [if_neg h]
        cases (l.filterMap fun e => if e.1 = k then some e.2 else none).getLast? with
        | some v => rfl
        | none => exact Map.get?_insert_ne _ _ h
  have h := this []
  rw [Map.ofList, h]
  cases (l.filterMap fun e => if e.1 = k then some e.2 else none).getLast? <;> rfl

theorem lit_eq {num : Str → F} (hn : Reads num) {ds fs : Str} (h : IsDigits ds ∧ IsDigits fs) :
    lit F ds fs h = num (ds ++ '.' :: fs) := by
  have := hn (ds ++ '.' :: fs) ⟨ds, '.' :: fs, rfl, Or.inl h.1, Or.inr ⟨fs, rfl, h.2⟩⟩
  unfold lit
  simp [this]

theorem findSome?_map' {A B C : Type} (f : A → Option B) (g : B → C) (l : List A) :
    l.findSome? (fun a => (f a).map g) = (l.findSome? f).map g := by
  induction l with
  | nil => rfl
  | cons a l ih => rw [List.findSome?_cons, List.findSome?_cons, ih]; cases f a <;> rfl

/-- Go through all kinds of lines. -/
macro "by_line" : tactic => `(tactic| (
  intro w
  cases w
  case flag k b => cases k <;> rfl
  case int k b => cases k <;> rfl
  case text k b => cases k <;> rfl
  case named k b => cases k <;> rfl
  case runway a b c t => cases t <;> rfl
  all_goals rfl))

theorem build_means {num : Str → F} (hn : Reads num) (ws : List Line) (hv : ∀ w ∈ ws, Nums w) (hf : ∀ w ∈ ws, w.Fits) :
    Means num ws (build (ws.filterMap (lineData num))) where
  above := findMapOr_lines num ws _ _ _ (by by_line)
  below := findMapOr_lines num ws _ _ _ (by by_line)
  historyDots := by
    refine Eq.trans (congrArg Nat.cast (findMapOr_lines num ws _
      (fun w => (w.int? .historyDots).map fun n => (intValue n).toNat) 5 (by by_line))) ?_
    unfold first
    rw [List.head?_filterMap, List.head?_filterMap]
    cases h : ws.findSome? fun w => (w.int? .historyDots).map fun n => (intValue n).toNat with
    | none =>
      have : ws.findSome? (fun w => (w.int? .historyDots).map intValue) = none := by
        rw [List.findSome?_eq_none_iff] at h ⊢
        simpa using h
      rw [this]; rfl
    | some v =>
      obtain ⟨l1, w, l2, rfl, h1, h2⟩ := List.findSome?_eq_some_iff.1 h
      have : (l1 ++ w :: l2).findSome? (fun w => (w.int? .historyDots).map intValue) = some (v : Int) := by
        rw [List.findSome?_eq_some_iff]
        refine ⟨l1, w, l2, rfl, ?_, by simpa using h2⟩
        cases w with
        | int k n =>
          cases k with
          | historyDots =>
            simp only [Line.int?, if_true, Option.map_some, Option.some.injEq] at h1 ⊢
            have hf1 := hf (.int .historyDots n) (by simp)
            have := isInt_unsigned (hv (.int .historyDots n) (by simp)) hf1.1
            omega
          | _ => simp [Line.int?] at h1
        | _ => simp [Line.int?] at h1
      rw [this]; rfl
  leader := findMapOr_lines num ws _ _ _ (by by_line)
  simulationMode := findMapOr_lines num ws _ _ _ (by by_line)
  disablePanning := findMapOr_lines num ws _ _ _ (by by_line)
  disableZooming := findMapOr_lines num ws _ _ _ (by by_line)
  geoReferenced := findMapOr_lines num ws _ _ _ (by by_line)
  needRadarContent := findMapOr_lines num ws _ _ _ (by by_line)
  showLeader := findMapOr_lines num ws _ _ _ (by by_line)
  showC := findMapOr_lines num ws _ _ _ (by by_line)
  showStandby := findMapOr_lines num ws _ _ _ (by by_line)
  turnLeader := findMapOr_lines num ws _ _ _ (by by_line)
  displayType := findMapOr_lines num ws _ _ _ (by by_line)
  sectorFile := findMapOr_lines num ws _ _ _ (by by_line)
  sectorTitle := findMapOr_lines num ws _ _ _ (by by_line)
  tagFamily := findMapOr_lines num ws _ _ _ (by by_line)
  displayRotation := by
    refine Eq.trans (findMapOr_lines num ws _ (fun w => w.rotation?.map num) _ (by by_line)) ?_
    simp only [lit_eq hn]
    unfold first
    rw [List.head?_filterMap, List.head?_filterMap, findSome?_map']
    cases ws.findSome? Line.rotation? <;> rfl
  windowArea := by
    refine Eq.trans (findMapOr_lines num ws _
      (fun w => w.window?.map fun (a, b, c, d) => ((⟨num b, num a⟩, ⟨num d, num c⟩) : Point F × Point F)) _ (by by_line)) ?_
    simp only [lit_eq hn]
    unfold first
    rw [List.head?_filterMap, List.head?_filterMap, findSome?_map']
    cases ws.findSome? Line.window? <;> rfl
  plugins := by
    intro p k
    simp only [build, ofList_last, List.filterMap_filterMap]
    congr
    funext w
    cases w
    case plugin p' k' v =>
      by_cases h : p' = p ∧ k' = k
      · simp [lineData, h]
      · simp [lineData, h]
    case flag k b => cases k <;> rfl
    case int k b => cases k <;> rfl
    case text k b => cases k <;> rfl
    case named k b => cases k <;> rfl
    case runway a b c t => cases t <;> rfl
    all_goals rfl
  runways := map_lines num ws _ (fun | .runway v => some v | _ => none) _ rfl (by intro acc d; cases d <;> simp [AsrMap.push]) (by by_line)
  airports := map_lines num ws _ (fun | .airport v => some v | _ => none) _ rfl (by intro acc d; cases d <;> simp [AsrMap.push]) (by by_line)
  fixes := map_lines num ws _ (fun | .fix v => some v | _ => none) _ rfl (by intro acc d; cases d <;> simp [AsrMap.push]) (by by_line)
  ndbs := map_lines num ws _ (fun | .ndb v => some v | _ => none) _ rfl (by intro acc d; cases d <;> simp [AsrMap.push]) (by by_line)
  vors := map_lines num ws _ (fun | .vor v => some v | _ => none) _ rfl (by intro acc d; cases d <;> simp [AsrMap.push]) (by by_line)
  lowAirways := map_lines num ws _ (fun | .lowAirway v => some v | _ => none) _ rfl (by intro acc d; cases d <;> simp [AsrMap.push]) (by by_line)
  highAirways := map_lines num ws _ (fun | .highAirway v => some v | _ => none) _ rfl (by intro acc d; cases d <;> simp [AsrMap.push]) (by by_line)
  groundNetwork := map_lines num ws _ (fun | .groundNetwork v => some v | _ => none) _ rfl (by intro acc d; cases d <;> simp [AsrMap.push]) (by by_line)
  freeText := map_lines num ws _ (fun | .freeText v => some v | _ => none) _ rfl (by intro acc d; cases d <;> simp [AsrMap.push]) (by by_line)
  sids := map_lines num ws _ (fun | .sid v => some v | _ => none) _ rfl (by intro acc d; cases d <;> simp [AsrMap.push]) (by by_line)
  stars := map_lines num ws _ (fun | .star v => some v | _ => none) _ rfl (by intro acc d; cases d <;> simp [AsrMap.push]) (by by_line)
  geo := map_lines num ws _ (fun | .geo v => some v | _ => none) _ rfl (by intro acc d; cases d <;> simp [AsrMap.push]) (by by_line)
  regions := map_lines num ws _ (fun | .region v => some v | _ => none) _ rfl (by intro acc d; cases d <;> simp [AsrMap.push]) (by by_line)
  artccBoundary := map_lines num ws _ (fun | .artccBoundary v => some v | _ => none) _ rfl (by intro acc d; cases d <;> simp [AsrMap.push]) (by by_line)
  artccLowBoundary := map_lines num ws _ (fun | .artccLowBoundary v => some v | _ => none) _ rfl (by intro acc d; cases d <;> simp [AsrMap.push]) (by by_line)
  artccHighBoundary := map_lines num ws _ (fun | .artccHighBoundary v => some v | _ => none) _ rfl (by intro acc d; cases d <;> simp [AsrMap.push]) (by by_line)

end Verif.Parse.Asr
