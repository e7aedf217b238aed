import Verif.Spec.SctItems
/-!
# Lemmas about the drawn items of a sector file
-/

namespace Verif.Proofs.SctItems
open Verif.Model.SctItems Verif.Spec.SctItems
open Verif.Locations (Db Location FloatOps Point)
open Verif.Colours (Colour)

theorem dedup_eq {A : Type} [DecidableEq A] (l : List A) : dedup l = l.destutter (· ≠ ·) := by
  have key : ∀ (l : List A) (a : A), dedup (a :: l) = List.destutter' (· ≠ ·) a l := by
    intro l
    induction l with
    | nil => intro a; rfl
    | cons b l ih =>
      intro a
      unfold dedup
      by_cases h : a = b
      · subst h
        rw [if_pos rfl, ih, List.destutter'_cons_neg _ (by simp)]
      · rw [if_neg h, ih, List.destutter'_cons_pos _ h]
  cases l with
  | nil => rfl
  | cons a l => exact key l a

section
variable {F : Type} [FloatOps F] [UnicodeTables] {db : Db F} {place : Parse.Sct.Loc F → Option (Point F)}

theorem points_eq {l : List (Parse.Sct.Loc F)} (h : ∀ p ∈ l, db.convertLocation (location p) = .ok (place p)) :
    points db l = .ok (l.filterMap place) := by
  induction l with
  | nil => rfl
  | cons a l ih =>
    unfold points
    rw [h a List.mem_cons_self, ih fun p hp => h p (List.mem_cons_of_mem _ hp)]
    show Except.ok _ = _
    cases e : place a with
    | none => rw [List.filterMap_cons_none e]
    | some p => rw [List.filterMap_cons_some e]

variable [DecidableEq F]

theorem lines_eq {ls : List (List (Parse.Sct.Loc F))} (h : ∀ l ∈ ls, ∀ p ∈ l, db.convertLocation (location p) = .ok (place p)) :
    Model.SctItems.lines db ls = .ok ((ls.map (line place)).filter (· ≠ [])) := by
  induction ls with
  | nil => rfl
  | cons a ls ih =>
    unfold Model.SctItems.lines
    rw [points_eq (h a List.mem_cons_self), ih fun l hl => h l (List.mem_cons_of_mem _ hl)]
    show Except.ok _ = _
    rw [dedup_eq, List.map_cons, List.filter_cons]
    unfold line
    cases e : List.destutter (· ≠ ·) (a.filterMap place) with
    | nil => simp
    | cons x l => simp

theorem coloured_eq {get : Str → Option Colour} {sid : Colour} {g : Lines.Group (Parse.Sct.Loc F)}
    (h : ∀ l ∈ g.lines, ∀ p ∈ l, db.convertLocation (location p) = .ok (place p)) :
    coloured db get sid g = .ok (if Spec.SctItems.lines place g ≠ [] then some ⟨colour get sid g, Spec.SctItems.lines place g⟩ else none) := by
  unfold coloured
  rw [lines_eq h]
  show Except.ok _ = _
  unfold Spec.SctItems.lines colour
  cases e : (g.lines.map (line place)).filter (· ≠ []) with
  | nil => simp
  | cons x l => simp

def named (place : Parse.Sct.Loc F → Option (Point F)) (get : Str → Option Colour) (sid : Colour) (name : Str) (gs : List (Lines.Group (Parse.Sct.Loc F))) :
    List (Str × Coloured F) :=
  (gs.filter (Spec.SctItems.lines place · ≠ [])).map fun g => (name, ⟨colour get sid g, Spec.SctItems.lines place g⟩)

theorem groups_eq {get : Str → Option Colour} {sid : Colour} {name : Str} {gs : List (Lines.Group (Parse.Sct.Loc F))}
    (h : ∀ g ∈ gs, ∀ l ∈ g.lines, ∀ p ∈ l, db.convertLocation (location p) = .ok (place p)) :
    groups db get sid name gs = .ok (named place get sid name gs) := by
  induction gs with
  | nil => rfl
  | cons a gs ih =>
    unfold groups
    rw [coloured_eq (h a List.mem_cons_self), ih fun l hl => h l (List.mem_cons_of_mem _ hl)]
    show Except.ok _ = _
    unfold named
    rw [List.filter_cons]
    by_cases e : Spec.SctItems.lines place a = []
    · simp [e]
    · simp [e]

theorem allGroups_eq {get : Str → Option Colour} {sid : Colour} {ds : List (Parse.Sct.Drawing F)}
    (h : ∀ d ∈ ds, ∀ g ∈ d.lineGroups, ∀ l ∈ g.lines, ∀ p ∈ l, db.convertLocation (location p) = .ok (place p)) :
    allGroups db get sid ds = .ok (ds.flatMap fun d => named place get sid d.name d.lineGroups) := by
  induction ds with
  | nil => rfl
  | cons a ds ih =>
    unfold allGroups
    rw [groups_eq (h a List.mem_cons_self), ih fun l hl => h l (List.mem_cons_of_mem _ hl)]
    rfl

end

section
variable {V : Type}

theorem get?_multi_insert (m : MultiMap Str V) (k k' : Str) (v : V) :
    Map.get? (MultiMap.insert m k v) k' = if k = k' then some (MultiMap.getVec m k ++ [v]) else Map.get? m k' := by
  unfold MultiMap.insert MultiMap.getVec
  rw [Map.get?_insert]

theorem holds_insert {m : MultiMap Str V} {f : Str → List V} (h : Holds m f) (k : Str) (v : V) :
    Holds (MultiMap.insert m k v) fun n => if k = n then f n ++ [v] else f n := by
  intro n
  rw [get?_multi_insert]
  by_cases hn : k = n
  · subst hn
    have e : MultiMap.getVec m k = f k := by
      unfold MultiMap.getVec
      rw [h k]
      cases e : f k <;> rfl
    simp only [if_true]
    rw [e, if_neg (by simp)]
  · simp only [if_neg hn]
    exact h n

theorem collect_holds (l : List (Str × V)) : Holds (collect l) fun n => (l.filter (·.1 = n)).map (·.2) := by
  have key : ∀ (l : List (Str × V)) (m : MultiMap Str V) (f : Str → List V), Holds m f →
      Holds (l.foldl (fun m e => MultiMap.insert m e.1 e.2) m) fun n => f n ++ (l.filter (·.1 = n)).map (·.2) := by
    intro l
    induction l with
    | nil =>
      intro m f h n
      show Map.get? m n = _
      rw [h n]
      simp
    | cons e l ih =>
      intro m f h n
      rw [List.foldl_cons, ih _ _ (holds_insert h e.1 e.2) n]
      refine congrArg (fun x : List V => if x.isEmpty then none else some x) ?_
      by_cases hn : e.1 = n
      · simp [hn]
      · simp [hn]
  have := key l [] (fun _ => []) (fun _ => rfl)
  intro n
  show Map.get? (l.foldl _ _) n = _
  rw [this n]
  simp

theorem holds_congr {m : MultiMap Str V} {f g : Str → List V} (h : Holds m f) (e : ∀ n, f n = g n) : Holds m g := fun n => by rw [h n, e]

/-- `MultiMap::iter` yields every name once. -/
theorem collect_nodup (l : List (Str × V)) : (Map.keys (collect l)).Nodup := by
  have key : ∀ (l : List (Str × V)) (m : MultiMap Str V), (Map.keys m).Nodup → (Map.keys (l.foldl (fun m e => MultiMap.insert m e.1 e.2) m)).Nodup := by
    intro l
    induction l with
    | nil => exact fun m h => h
    | cons e l ih => exact fun m h => ih _ (Map.nodup_insert h _ _)
  exact key l [] List.nodup_nil

end

section
variable {F : Type} [FloatOps F] [UnicodeTables] [DecidableEq F] {db : Db F} {place : Parse.Sct.Loc F → Option (Point F)}

theorem drawings_eq {get : Str → Option Colour} {sid : Colour} {ds : List (Parse.Sct.Drawing F)}
    (h : ∀ d ∈ ds, ∀ g ∈ d.lineGroups, ∀ l ∈ g.lines, ∀ p ∈ l, db.convertLocation (location p) = .ok (place p)) :
    ∃ m, drawings db get sid ds = .ok m ∧ Holds m (drawn place get sid ds) := by
  unfold drawings
  rw [allGroups_eq h]
  refine ⟨_, rfl, holds_congr (collect_holds _) fun n => ?_⟩
  unfold drawn
  clear h
  induction ds with
  | nil => rfl
  | cons d ds ih =>
    rw [List.flatMap_cons, List.filter_append, List.map_append, ih, List.filter_cons]
    have hn : ∀ gs : List (Lines.Group (Parse.Sct.Loc F)), ((named place get sid d.name gs).filter (·.1 = n)).map (·.2) =
        if d.name = n then (gs.filter (Spec.SctItems.lines place · ≠ [])).map fun g => ⟨colour get sid g, Spec.SctItems.lines place g⟩ else [] := by
      intro gs
      unfold named
      rw [List.filter_map]
      by_cases e : d.name = n
      · simp [e, Function.comp_def]
      · simp [e, Function.comp_def]
    rw [hn]
    by_cases e : d.name = n
    · simp [e]
    · simp [e]

/-! ## Airways -/

variable {fmt : F → Str}

omit [FloatOps F] [UnicodeTables] [DecidableEq F] in
theorem mem_adjacency {ls : List (Line F)} {h : Str} {l : Line F} (hl : l ∈ MultiMap.getVec (adjacency fmt ls) h) :
    l ∈ ls ∧ (coordHash fmt l.start = h ∨ coordHash fmt l.stop = h) := by
  unfold MultiMap.getVec adjacency at hl
  rw [collect_holds] at hl
  split at hl
  · simp at hl
  · simp only [Option.getD_some, List.mem_map, List.mem_filter, List.mem_flatMap, List.mem_cons, List.not_mem_nil, or_false, decide_eq_true_eq] at hl
    obtain ⟨⟨k, l'⟩, ⟨⟨x, hx, hk⟩, hh⟩, rfl⟩ := hl
    rcases hk with hk | hk
    · cases hk; exact ⟨hx, Or.inl hh⟩
    · cases hk; exact ⟨hx, Or.inr hh⟩

def dot (p : Point F) : Line F := ⟨p, p⟩

omit [FloatOps F] [UnicodeTables] [DecidableEq F] in
theorem dot_hash {p q : Point F} : lineHash fmt (dot p) = lineHash fmt (dot q) ↔ coordHash fmt p = coordHash fmt q := by
  unfold lineHash dot
  constructor
  · intro h
    have : (coordHash fmt p).length = (coordHash fmt q).length := by
      have := congrArg List.length h
      simp only [List.length_append] at this
      omega
    exact (List.append_inj h this).1
  · intro h
    rw [h]

omit [FloatOps F] [UnicodeTables] in
theorem build_dot {ps : List (Point F)} {p : Point F} {visited : List Str} {n : Nat} (h : lineHash fmt (dot p) ∈ visited) :
    build fmt (adjacency fmt (ps.map dot)) (n + 1) p visited = .ok ([p], visited) := by
  unfold build
  have : (MultiMap.getVec (adjacency fmt (ps.map dot)) (coordHash fmt p)).find? (fun line => decide (lineHash fmt line ∉ visited)) = none := by
    rw [List.find?_eq_none]
    intro l hl
    obtain ⟨h1, h2⟩ := mem_adjacency hl
    obtain ⟨q, hq, rfl⟩ := List.mem_map.1 h1
    have : coordHash fmt q = coordHash fmt p := h2.elim id id
    simp only [decide_eq_true_eq, not_not]
    rw [dot_hash.2 this]
    exact h
  rw [this]

omit [FloatOps F] [UnicodeTables] in
theorem chain_dots {all ps : List (Point F)} {acc : List (List (Point F))} {visited : List Str} {n : Nat} :
    chain fmt (adjacency fmt (all.map dot)) (n + 1) (ps.map dot) acc visited =
      .ok (acc ++ ((firsts (coordHash fmt) ps).filter fun p => lineHash fmt (dot p) ∉ visited).map ([·])) := by
  induction ps generalizing acc visited with
  | nil => simp [chain, firsts]
  | cons p ps ih =>
    rw [List.map_cons]
    unfold chain
    by_cases h : lineHash fmt (dot p) ∈ visited
    · rw [if_pos h, ih]
      rw [show firsts (coordHash fmt) (p :: ps) = p :: (firsts (coordHash fmt) ps).filter fun b => coordHash fmt b ≠ coordHash fmt p from rfl,
        List.filter_cons_of_neg (by simpa using h), List.filter_filter]
      congr 3
      refine List.filter_congr fun q _ => ?_
      by_cases hq : coordHash fmt q = coordHash fmt p
      · simp [hq, dot_hash.2 hq, h]
      · simp [hq]
    · rw [if_neg h]
      show (build fmt (adjacency fmt (all.map dot)) (n + 1) p (lineHash fmt (dot p) :: visited) >>= fun r => _) = _
      rw [build_dot List.mem_cons_self]
      show chain fmt (adjacency fmt (all.map dot)) (n + 1) (ps.map dot) (acc ++ [[p]]) (lineHash fmt (dot p) :: visited) = _
      rw [ih]
      rw [show firsts (coordHash fmt) (p :: ps) = p :: (firsts (coordHash fmt) ps).filter fun b => coordHash fmt b ≠ coordHash fmt p from rfl,
        List.filter_cons_of_pos (by simpa using h), List.filter_filter, List.map_cons, List.append_assoc, List.cons_append, List.nil_append]
      congr 4
      refine List.filter_congr fun q _ => ?_
      simp only [List.mem_cons, dot_hash, not_or, decide_not, Bool.and_comm, Bool.decide_and]

omit [FloatOps F] [UnicodeTables] in
theorem joined_dots {ps : List (Point F)} : joined fmt (ps.map dot) = .ok ((firsts (coordHash fmt) ps).map ([·])) := by
  unfold joined
  rw [chain_dots]
  simp

omit [FloatOps F] [UnicodeTables] [DecidableEq F] in
theorem coordHash_iff (hf : ∀ x, 'y' ∉ fmt x) {p q : Point F} :
    coordHash fmt p = coordHash fmt q ↔ (fmt p.1, fmt p.2) = (fmt q.1, fmt q.2) := by
  have key : ∀ a b c d : Str, 'y' ∉ a → 'y' ∉ c → a ++ 'y' :: b = c ++ 'y' :: d → a = c ∧ b = d := by
    intro a
    induction a with
    | nil =>
      intro b c d _ hc h
      cases c with
      | nil => exact ⟨rfl, (List.cons.inj h).2⟩
      | cons x c => exact absurd (by rw [← (List.cons.inj h).1]; exact List.mem_cons_self) hc
    | cons x a ih =>
      intro b c d ha hc h
      cases c with
      | nil => exact absurd (by rw [(List.cons.inj h).1]; exact List.mem_cons_self) ha
      | cons y c =>
        obtain ⟨h1, h2⟩ := List.cons.inj h
        obtain ⟨h3, h4⟩ := ih b c d (fun h => ha (List.mem_cons_of_mem _ h)) (fun h => hc (List.mem_cons_of_mem _ h)) h2
        exact ⟨by rw [h1, h3], h4⟩
  constructor
  · intro h
    obtain ⟨h1, h2⟩ := key _ _ _ _ (hf _) (hf _) (List.cons.inj h).2
    rw [h1, h2]
  · intro h
    unfold coordHash
    rw [(Prod.mk.inj h).1, (Prod.mk.inj h).2]

theorem firsts_congr {A K L : Type} [DecidableEq K] [DecidableEq L] {k : A → K} {k' : A → L} (h : ∀ a b, k a = k b ↔ k' a = k' b) (l : List A) :
    firsts k l = firsts k' l := by
  induction l with
  | nil => rfl
  | cons a l ih =>
    unfold firsts
    rw [ih]
    congr 1
    exact List.filter_congr fun b _ => by simp [h]

omit [DecidableEq F] in
theorem airwayLines_eq {l : List (Parse.Sct.Airway F)} (h : ∀ a ∈ l, db.convertLocation (location a.start) = .ok (place a.start)) :
    airwayLines db l = .ok ((l.filterMap fun a => place a.start).map dot) := by
  induction l with
  | nil => rfl
  | cons a l ih =>
    unfold airwayLines
    rw [h a List.mem_cons_self, ih fun b hb => h b (List.mem_cons_of_mem _ hb)]
    show Except.ok _ = _
    rw [List.filterMap_cons]
    cases e : place a.start with
    | none => rfl
    | some p => rfl

/-- The points that are drawn for an airway. -/
def dots (fmt : F → Str) (place : Parse.Sct.Loc F → Option (Point F)) (l : List (Parse.Sct.Airway F)) : List (List (Point F)) :=
  (firsts (coordHash fmt) (l.filterMap fun a => place a.start)).map ([·])

theorem airwayToLines_eq {l : List (Parse.Sct.Airway F)} (h : ∀ a ∈ l, db.convertLocation (location a.start) = .ok (place a.start)) :
    airwayToLines fmt db l = .ok (dots fmt place l) := by
  unfold airwayToLines
  rw [airwayLines_eq h]
  exact joined_dots

theorem namedAirways_eq {l : List (Str × List (Parse.Sct.Airway F))} (h : ∀ e ∈ l, ∀ a ∈ e.2, db.convertLocation (location a.start) = .ok (place a.start)) :
    namedAirways fmt db l = .ok (l.map fun e => (e.1, dots fmt place e.2)) := by
  induction l with
  | nil => rfl
  | cons e l ih =>
    obtain ⟨n, as⟩ := e
    unfold namedAirways
    rw [airwayToLines_eq (h _ List.mem_cons_self), ih fun b hb => h b (List.mem_cons_of_mem _ hb)]
    rfl

omit [FloatOps F] [UnicodeTables] [DecidableEq F] in
theorem filter_single {K V : Type} [DecidableEq K] {l : List (K × V)} (hn : (l.map (·.1)).Nodup) {k : K} {v : V} (h : (k, v) ∈ l) :
    l.filter (·.1 = k) = [(k, v)] := by
  induction l with
  | nil => cases h
  | cons e l ih =>
    rw [List.map_cons, List.nodup_cons] at hn
    rw [List.filter_cons]
    rcases List.mem_cons.1 h with rfl | h
    · rw [if_pos (by simp)]
      congr 1
      rw [List.filter_eq_nil_iff]
      intro a ha
      simp only [decide_eq_true_eq]
      intro e
      exact hn.1 (List.mem_map.2 ⟨a, ha, e⟩)
    · have : e.1 ≠ k := by
        intro e'
        exact hn.1 (List.mem_map.2 ⟨(k, v), h, e'.symm⟩)
      rw [if_neg (by simpa using this), ih hn.2 h]

theorem airways_eq {order : List (Str × List (Parse.Sct.Airway F)) → List (Str × List (Parse.Sct.Airway F))} (ho : ∀ l, (order l).Perm l)
    {l : List (Parse.Sct.Airway F)} (h : ∀ a ∈ l, db.convertLocation (location a.start) = .ok (place a.start)) :
    ∃ m, airways fmt db order l = .ok m ∧
      Holds m fun n => if (l.filter (·.designator = n)).isEmpty then [] else [dots fmt place (l.filter (·.designator = n))] := by
  have hh := collect_holds (l.map fun a => (a.designator, a))
  have hh' : Holds (collect (l.map fun a => (a.designator, a))) fun n => l.filter (·.designator = n) := by
    refine holds_congr hh fun n => ?_
    rw [List.filter_map, List.map_map]
    simp [Function.comp_def]
  have hnd := collect_nodup (l.map fun a => (a.designator, a))
  unfold airways
  generalize collect (l.map fun a => (a.designator, a)) = m at hh' hnd
  have hmem : ∀ e : Str × List (Parse.Sct.Airway F), e ∈ order m ↔ Map.get? m e.1 = some e.2 := by
    intro e
    rw [(ho m).mem_iff]
    exact Map.mem_iff_get? hnd
  have hname : ((order m).map (·.1)).Nodup := ((ho m).map _).nodup_iff.2 hnd
  rw [namedAirways_eq (place := place)]
  · refine ⟨_, rfl, holds_congr (collect_holds _) fun n => ?_⟩
    rw [List.filter_map, List.map_map]
    have e1 : ((fun e : Str × List (List (Point F)) => decide (e.1 = n)) ∘ fun e : Str × List (Parse.Sct.Airway F) => (e.1, dots fmt place e.2)) = fun e => decide (e.1 = n) := rfl
    rw [e1]
    by_cases hn : (l.filter (·.designator = n)).isEmpty = true
    · have : (order m).filter (fun e => decide (e.1 = n)) = [] := by
        rw [List.filter_eq_nil_iff]
        intro e he
        have := (hmem e).1 he
        simp only [decide_eq_true_eq]
        rintro rfl
        rw [hh' e.1, if_pos hn] at this
        cases this
      rw [this, if_pos hn]
      rfl
    · rw [if_neg hn, filter_single hname ((hmem (n, l.filter (·.designator = n))).2 (by rw [hh', if_neg hn]))]
      rfl
  · intro e he a ha
    have := (hmem e).1 he
    rw [hh' e.1] at this
    split at this
    · cases this
    · injection this with this
      rw [← this] at ha
      exact h a (List.mem_of_mem_filter ha)

end

end Verif.Proofs.SctItems
