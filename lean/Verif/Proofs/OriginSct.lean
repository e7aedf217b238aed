import Verif.Proofs.OriginEse
import Verif.Proofs.SctTokens
/-!
# Where the texts of a sector file come from
-/

namespace Verif.Proofs.OriginSct
open Verif.Proofs.Sct
open Verif.Proofs Verif.Peg Verif.Spec Verif.Spec.Origin Verif.Parse.Sct Verif.Parse
open Verif.Peg.Sct (Rule skip)
open Verif.Dms (DmsArith)
open Verif.Colours (Colour)
open Verif.Proofs.OriginEse (next_ok mem_insert mem_ofList row_infix)

set_option linter.unusedSectionVars false

theorem nextStr_ok {ts : List (Tree Rule)} {p : Str × List (Tree Rule)} (h : nextStr ts = .ok p) : ∃ t, ts = t :: p.2 ∧ p.1 = t.asStr := by
  obtain ⟨⟨t, us⟩, h1, h⟩ := run_bind_ok_iff.1 h
  cases h
  exact ⟨t, next_ok h1, rfl⟩

theorem nextUnsigned_ok {b : Nat} {ts : List (Tree Rule)} {p : Nat × List (Tree Rule)} (h : nextUnsigned b ts = .ok p) : ∃ t, ts = t :: p.2 := by
  obtain ⟨⟨t, us⟩, h1, h⟩ := run_bind_ok_iff.1 h
  obtain ⟨n, _, h⟩ := run_bind_ok_iff.1 h
  cases h
  obtain ⟨t, e, _⟩ := nextStr_ok h1
  exact ⟨t, e⟩

variable {F : Type} [F64 F] [DmsArith F]

theorem nextCoordinate_ok {ts : List (Tree Rule)} {p : Point F × List (Tree Rule)} (h : nextCoordinate ts = .ok p) : ∃ t, ts = t :: p.2 := by
  obtain ⟨⟨t, us⟩, h1, h⟩ := run_bind_ok_iff.1 h
  obtain ⟨n, _, h⟩ := run_bind_ok_iff.1 h
  cases h
  exact ⟨t, next_ok h1⟩

theorem origin_location {t : Tree Rule} {v : Loc F} (ht : All Ordered t) (h : parseLocation t = .ok v) : InOrder (location v) t.asStr := by
  have hr := ht.queue
  unfold parseLocation at h
  split at h
  · obtain ⟨_, _, h⟩ := run_bind_ok_iff.1 h
    cases h
    exact .nil _
  · obtain ⟨⟨s, us⟩, h1, h⟩ := run_bind_ok_iff.1 h
    cases h
    obtain ⟨u, e, e'⟩ := nextStr_ok h1
    dsimp only at e e'
    rw [e] at hr
    show InOrder [s] _
    rw [e']
    exact hr.str fun T _ => .nil _
  · cases h

theorem nextLocation_ok {ts : List (Tree Rule)} {p : Loc F × List (Tree Rule)} (h : nextLocation ts = .ok p) :
    ∃ t, ts = t :: p.2 ∧ parseLocation t = .ok p.1 := by
  obtain ⟨⟨t, us⟩, h1, h⟩ := run_bind_ok_iff.1 h
  obtain ⟨n, hl, h⟩ := run_bind_ok_iff.1 h
  cases h
  exact ⟨t, next_ok h1, hl⟩

theorem Queue.tail {R : Type} {t : Tree R} {ts : List (Tree R)} {T : Str} (h : Queue (t :: ts) T) : Queue ts T :=
  ⟨h.1.sub (List.sublist_cons_self _ _), fun u hu => h.2 u (List.mem_cons_of_mem _ hu)⟩

theorem findCoordinate_row {ts us : List (Tree Rule)} {t : Tree Rule} {T : Str} (h : Queue ts T) (hf : findCoordinate ts = .ok (t, us)) : Queue us T := by
  induction ts with
  | nil => cases hf
  | cons a ts ih =>
    rw [findCoordinate] at hf
    split at hf
    · cases hf
      exact Queue.tail h
    · exact ih (Queue.tail h) hf

theorem origin_airport {t : Tree Rule} {v : Airport F} (ht : All Ordered t) (h : parseAirport t = .ok v) : InOrder (airport v) t.asStr := by
  have hr := ht.queue
  obtain ⟨⟨s1, ts1⟩, a1, h⟩ := run_bind_ok_iff.1 h
  obtain ⟨⟨t2, ts2⟩, a2, h⟩ := run_bind_ok_iff.1 h
  obtain ⟨_, _, h⟩ := run_bind_ok_iff.1 h
  obtain ⟨⟨s3, ts3⟩, a3, h⟩ := run_bind_ok_iff.1 h
  cases h
  obtain ⟨t1, e1, e1'⟩ := nextStr_ok a1
  obtain ⟨t3, e3, e3'⟩ := nextStr_ok a3
  dsimp only at e1 e1' e3 e3' a2
  rw [e1] at hr
  show InOrder [s1, s3] _
  rw [e1', e3']
  refine hr.str fun T hr => ?_
  have hr := findCoordinate_row hr a2
  rw [e3] at hr
  exact hr.str fun T _ => .nil _

theorem origin_airway {t : Tree Rule} {v : Option (Airway F)} (ht : All Ordered t) (h : parseAirway t = .ok v) :
    InOrder (v.toList.flatMap airway) t.asStr := by
  have hr := ht.queue
  obtain ⟨⟨s1, ts1⟩, a1, h⟩ := run_bind_ok_iff.1 h
  obtain ⟨t1, e1, e1'⟩ := nextStr_ok a1
  dsimp only at e1 e1' h
  split at h
  · rename_i a b l
    obtain ⟨l1, b1, h⟩ := run_bind_ok_iff.1 h
    obtain ⟨l2, b2, h⟩ := run_bind_ok_iff.1 h
    cases h
    rw [e1] at hr
    show InOrder ((s1 :: (location l1 ++ location l2)) ++ []) _
    rw [List.append_nil, e1']
    refine hr.str fun T hr => hr.step (origin_location (hr.2 _ List.mem_cons_self) b1) fun T hr => ?_
    have := hr.step (l' := []) (origin_location (hr.2 _ List.mem_cons_self) b2) fun T hr => .nil _
    rwa [List.append_nil] at this
  · cases h
    exact .nil _

theorem origin_fix {t : Tree Rule} {v : Option (Fix F)} (ht : All Ordered t) (h : parseFix t = .ok v) :
    InOrder (v.toList.flatMap fix) t.asStr := by
  have hr := ht.queue
  unfold parseFix at h
  split at h
  · obtain ⟨⟨s1, ts1⟩, a1, h⟩ := run_bind_ok_iff.1 h
    obtain ⟨_, _, h⟩ := run_bind_ok_iff.1 h
    cases h
    obtain ⟨t1, e1, e1'⟩ := nextStr_ok a1
    dsimp only at e1 e1'
    rw [e1] at hr
    show InOrder [s1] _
    rw [e1']
    exact hr.str fun T _ => .nil _
  · cases h
    exact .nil _

theorem origin_navaid {t : Tree Rule} {v : Navaid F} (ht : All Ordered t) (h : parseNavaid t = .ok v) : InOrder (navaid v) t.asStr := by
  have hr := ht.queue
  obtain ⟨⟨s1, ts1⟩, a1, h⟩ := run_bind_ok_iff.1 h
  obtain ⟨⟨s2, ts2⟩, a2, h⟩ := run_bind_ok_iff.1 h
  obtain ⟨_, _, h⟩ := run_bind_ok_iff.1 h
  cases h
  obtain ⟨t1, e1, e1'⟩ := nextStr_ok a1
  obtain ⟨t2, e2, e2'⟩ := nextStr_ok a2
  dsimp only at e1 e1' e2 e2'
  rw [e1, e2] at hr
  show InOrder [s1, s2] _
  rw [e1', e2']
  exact hr.str fun T hr => hr.str fun T _ => .nil _

/-- The same for a value that is always there. -/
theorem origin_some {A : Type} {f : Tree Rule → Run A} {fields : A → List Str}
    (hf : ∀ t v, All Ordered t → f t = .ok v → InOrder (fields v) t.asStr) {t : Tree Rule} {v : Option A} (ht : All Ordered t)
    (h : some <$> f t = .ok v) : InOrder (v.toList.flatMap fields) t.asStr := by
  cases e : f t with
  | error _ => rw [e] at h; cases h
  | ok a =>
    rw [e] at h
    cases h
    simpa using hf t a ht e

theorem origin_ndb {t : Tree Rule} {v : Option (Navaid F)} (ht : All Ordered t) (h : parseNdb t = .ok v) :
    InOrder (v.toList.flatMap navaid) t.asStr := by
  unfold parseNdb at h
  split at h
  · exact origin_some (fun _ _ => origin_navaid) ht h
  · cases h
    exact .nil _

theorem origin_region {t : Tree Rule} {v : Region F} (ht : All Ordered t) (h : parseRegion t = .ok v) : InOrder (region v) t.asStr := by
  have hr := ht.queue
  obtain ⟨⟨s1, ts1⟩, a1, h⟩ := run_bind_ok_iff.1 h
  obtain ⟨⟨s2, ts2⟩, a2, h⟩ := run_bind_ok_iff.1 h
  obtain ⟨_, _, h⟩ := run_bind_ok_iff.1 h
  cases h
  obtain ⟨t1, e1, e1'⟩ := nextStr_ok a1
  obtain ⟨t2, e2, e2'⟩ := nextStr_ok a2
  dsimp only at e1 e1' e2 e2'
  rw [e1, e2] at hr
  show InOrder [s1, s2] _
  rw [e1', e2']
  exact hr.str fun T hr => hr.str fun T _ => .nil _

theorem origin_label {t : Tree Rule} {v : Label F} (ht : All Ordered t) (h : parseLabel t = .ok v) : InOrder (label v) t.asStr := by
  have hr := ht.queue
  obtain ⟨⟨s1, ts1⟩, a1, h⟩ := run_bind_ok_iff.1 h
  obtain ⟨⟨l2, ts2⟩, a2, h⟩ := run_bind_ok_iff.1 h
  obtain ⟨⟨s3, ts3⟩, a3, h⟩ := run_bind_ok_iff.1 h
  cases h
  obtain ⟨t1, e1, e1'⟩ := nextStr_ok a1
  obtain ⟨t2, e2, e2'⟩ := nextLocation_ok a2
  obtain ⟨t3, e3, e3'⟩ := nextStr_ok a3
  dsimp only at e1 e1' e2 e2' e3 e3'
  rw [e1, e2, e3] at hr
  show InOrder (s1 :: (location l2 ++ [s3])) _
  rw [e1', e3']
  exact hr.str fun T hr => hr.step (origin_location (hr.2 _ List.mem_cons_self) e2') fun T hr => hr.str fun T _ => .nil _

theorem origin_runway {t : Tree Rule} {v : Runway F} (ht : All Ordered t) (h : parseRunway t = .ok v) : InOrder (runway v) t.asStr := by
  have hr := ht.queue
  obtain ⟨⟨s1, ts1⟩, a1, h⟩ := run_bind_ok_iff.1 h
  obtain ⟨⟨s2, ts2⟩, a2, h⟩ := run_bind_ok_iff.1 h
  obtain ⟨⟨s3, ts3⟩, a3, h⟩ := run_bind_ok_iff.1 h
  obtain ⟨⟨s4, ts4⟩, a4, h⟩ := run_bind_ok_iff.1 h
  obtain ⟨⟨s5, ts5⟩, a5, h⟩ := run_bind_ok_iff.1 h
  obtain ⟨⟨s6, ts6⟩, a6, h⟩ := run_bind_ok_iff.1 h
  obtain ⟨⟨s7, ts7⟩, a7, h⟩ := run_bind_ok_iff.1 h
  cases h
  obtain ⟨t1, e1, e1'⟩ := nextStr_ok a1
  obtain ⟨t2, e2, e2'⟩ := nextStr_ok a2
  obtain ⟨t3, e3⟩ := nextUnsigned_ok a3
  obtain ⟨t4, e4⟩ := nextUnsigned_ok a4
  obtain ⟨t5, e5⟩ := nextCoordinate_ok a5
  obtain ⟨t6, e6⟩ := nextCoordinate_ok a6
  obtain ⟨t7, e7, e7'⟩ := nextStr_ok a7
  dsimp only at e1 e1' e2 e2' e3 e4 e5 e6 e7 e7'
  rw [e1, e2, e3, e4, e5, e6, e7] at hr
  show InOrder [s1, s2, s7] _
  rw [e1', e2', e7']
  exact hr.str fun T hr => hr.str fun T hr => hr.skip fun T hr => hr.skip fun T hr => hr.skip fun T hr => hr.skip fun T hr =>
    hr.str fun T _ => .nil _

/-! ## Lines -/

theorem flatMap_sublist {A B : Type} (f : A → List B) {l l' : List A} (h : l.Sublist l') : (l.flatMap f).Sublist (l'.flatMap f) := by
  induction h with
  | slnil => exact .slnil
  | cons a _ ih => exact ih.trans (List.sublist_append_right _ _)
  | cons_cons a _ ih => exact List.Sublist.append (List.Sublist.refl _) ih

section
open Verif.Lines
variable {L : Type} [DecidableEq L]

theorem modifyLast_concat {α : Type} (f : α → α) (a : α) : ∀ l : List α, modifyLast f (l ++ [a]) = l ++ [f a]
  | [] => rfl
  | [b] => rfl
  | b :: c :: l => by
    show b :: modifyLast f (c :: l ++ [a]) = _
    rw [modifyLast_concat f a (c :: l)]
    rfl

theorem addLine_sublist (acc : List (List L)) (l : L × L) : (addLine acc l).flatten.Sublist (acc.flatten ++ [l.1, l.2]) := by
  unfold addLine
  split
  · split
    · rcases List.eq_nil_or_concat acc with rfl | ⟨init, x, rfl⟩
      · exact List.nil_sublist _
      · rw [List.concat_eq_append, modifyLast_concat]
        simp only [List.flatten_append, List.flatten_cons, List.flatten_nil, List.append_nil, List.append_assoc]
        exact List.Sublist.append (List.Sublist.refl _) (List.Sublist.append (List.Sublist.refl _) (List.sublist_cons_self _ _))
    · exact List.sublist_append_left _ _
  · rw [List.flatten_append]
    refine List.Sublist.append (List.Sublist.refl _) ?_
    unfold newLine
    split
    · simp
    · simp

theorem addColoured_sublist (acc : List (Group L)) (l : ColouredLine L) :
    ((addColoured acc l).flatMap fun g => g.lines.flatten).Sublist ((acc.flatMap fun g => g.lines.flatten) ++ [l.start, l.stop]) := by
  unfold addColoured
  split
  · rcases List.eq_nil_or_concat acc with rfl | ⟨init, x, rfl⟩
    · exact List.nil_sublist _
    · rw [List.concat_eq_append, modifyLast_concat]
      simp only [List.flatMap_append, List.flatMap_cons, List.flatMap_nil, List.append_nil, List.append_assoc]
      exact List.Sublist.append (List.Sublist.refl _) (addLine_sublist _ _)
  · rw [List.flatMap_append]
    refine List.Sublist.append (List.Sublist.refl _) ?_
    simp only [List.flatMap_cons, List.flatMap_nil, List.append_nil, List.flatten_cons, List.flatten_nil]
    unfold newLine
    split
    · simp
    · simp

theorem addColoured_colours (acc : List (Group L)) (l : ColouredLine L) :
    ((addColoured acc l).filterMap (·.colour)).Sublist (acc.filterMap (·.colour) ++ l.colour.toList) := by
  unfold addColoured
  split
  · rcases List.eq_nil_or_concat acc with rfl | ⟨init, x, rfl⟩
    · exact List.nil_sublist _
    · rw [List.concat_eq_append, modifyLast_concat]
      simp only [List.filterMap_append, List.append_assoc]
      refine List.Sublist.append (List.Sublist.refl _) ?_
      simp only [List.filterMap_cons, List.filterMap_nil]
      exact List.sublist_append_left _ _
  · rw [List.filterMap_append]
    refine List.Sublist.append (List.Sublist.refl _) ?_
    cases h : l.colour <;> simp

theorem lineGroups_sublist (ls : List (ColouredLine L)) :
    ((lineGroups ls).flatMap fun g => g.lines.flatten).Sublist (ls.flatMap fun l => [l.start, l.stop]) := by
  have : ∀ (ls : List (ColouredLine L)) (acc : List (Group L)), ((ls.foldl addColoured acc).flatMap fun g => g.lines.flatten).Sublist
      ((acc.flatMap fun g => g.lines.flatten) ++ ls.flatMap fun l => [l.start, l.stop]) := by
    intro ls
    induction ls with
    | nil => intro acc; simp
    | cons l ls ih =>
      intro acc
      refine (ih _).trans ?_
      rw [List.flatMap_cons, ← List.append_assoc]
      exact List.Sublist.append (addColoured_sublist acc l) (List.Sublist.refl _)
  simpa [lineGroups] using this ls []

theorem lineGroups_colours (ls : List (ColouredLine L)) :
    ((lineGroups ls).filterMap (·.colour)).Sublist (ls.flatMap fun l => l.colour.toList) := by
  have : ∀ (ls : List (ColouredLine L)) (acc : List (Group L)), ((ls.foldl addColoured acc).filterMap (·.colour)).Sublist
      (acc.filterMap (·.colour) ++ ls.flatMap fun l => l.colour.toList) := by
    intro ls
    induction ls with
    | nil => intro acc; simp
    | cons l ls ih =>
      intro acc
      refine (ih _).trans ?_
      rw [List.flatMap_cons, ← List.append_assoc]
      exact List.Sublist.append (addColoured_colours acc l) (List.Sublist.refl _)
  simpa [lineGroups] using this ls []
end

theorem origin_line {t : Tree Rule} {v : Lines.ColouredLine (Loc F)} (ht : All Ordered t) (h : parseColouredLine t = .ok v) :
    InOrder (location v.start ++ location v.stop) t.asStr ∧ InOrder v.colour.toList t.asStr := by
  have hr := ht.queue
  obtain ⟨⟨l1, ts1⟩, a1, h⟩ := run_bind_ok_iff.1 h
  obtain ⟨⟨l2, ts2⟩, a2, h⟩ := run_bind_ok_iff.1 h
  cases h
  obtain ⟨t1, e1, e1'⟩ := nextLocation_ok a1
  obtain ⟨t2, e2, e2'⟩ := nextLocation_ok a2
  dsimp only at e1 e1' e2 e2'
  rw [e1, e2] at hr
  refine ⟨?_, ?_⟩
  · refine hr.step (origin_location (hr.2 _ List.mem_cons_self) e1') fun T hr => ?_
    have := hr.step (l' := []) (origin_location (hr.2 _ List.mem_cons_self) e2') fun T hr => .nil _
    rwa [List.append_nil] at this
  · cases ts2 with
    | nil => exact .nil _
    | cons a l => exact hr.skip fun T hr => hr.skip fun T hr => hr.str fun T _ => .nil _

section
variable [DecidableEq F]

theorem origin_drawing {t : Tree Rule} {v : Drawing F} (ht : All Ordered t) (h : parseDrawing t = .ok v) :
    InOrder (drawing v) t.asStr ∧ InOrder (colours v) t.asStr := by
  have hr := ht.queue
  obtain ⟨⟨s1, ts1⟩, a1, h⟩ := run_bind_ok_iff.1 h
  obtain ⟨gs, a2, h⟩ := run_bind_ok_iff.1 h
  cases h
  obtain ⟨ls, a3, h⟩ := run_bind_ok_iff.1 a2
  cases h
  obtain ⟨t1, e1, e1'⟩ := nextStr_ok a1
  dsimp only at e1 e1' a3
  rw [e1] at hr
  refine ⟨?_, ?_⟩
  · show InOrder (s1 :: ((Lines.lineGroups ls).flatMap fun g => g.lines.flatten.flatMap location)) _
    rw [e1']
    refine hr.str fun T hr => ?_
    have h1 := hr.mapM (fields := fun v : Lines.ColouredLine (Loc F) => location v.start ++ location v.stop)
      (fun _ _ h1 h2 => (origin_line h1 h2).1) a3
    refine h1.sub ?_
    have := flatMap_sublist location (lineGroups_sublist ls)
    simpa [List.flatMap_assoc] using this
  · show InOrder (s1 :: (Lines.lineGroups ls).filterMap (·.colour)) _
    rw [e1']
    refine hr.str fun T hr => ?_
    have h1 := hr.mapM (fields := fun v : Lines.ColouredLine (Loc F) => v.colour.toList)
      (fun _ _ h1 h2 => (origin_line h1 h2).2) a3
    exact h1.sub (lineGroups_colours ls)
end

/-! ## Colours and sections -/

/-- The names of the colours stand in the text. -/
def Named (m : Map Str Colour) (T : Str) : Prop := ∀ x ∈ m, x.1 <:+: T

theorem named_store {t : Tree Rule} {m m' : Map Str Colour} {T : Str} (ht : All Ordered t) (hi : t.asStr <:+: T) (hm : Named m T)
    (h : storeColour m t = .ok m') : Named m' T := by
  have hr := ht.queue
  obtain ⟨d, h1, h⟩ := run_bind_ok_iff.1 h
  cases d with
  | none => cases h; exact hm
  | some d =>
    cases h
    obtain ⟨⟨s1, ts1⟩, a1, h1⟩ := run_bind_ok_iff.1 h1
    obtain ⟨⟨s2, ts2⟩, a2, h1⟩ := run_bind_ok_iff.1 h1
    obtain ⟨n, _, h1⟩ := run_bind_ok_iff.1 h1
    obtain ⟨t1, e1, e1'⟩ := nextStr_ok a1
    dsimp only at e1 e1'
    have hd : d.1 = s1 := by
      have : ((Colours.fromEuroscope n).map fun c => (s1, c)) = some d := by injection h1
      cases e : Colours.fromEuroscope n with
      | none => rw [e] at this; cases this
      | some c => rw [e] at this; cases this; rfl
    intro x hx
    rcases mem_insert hx with rfl | hx
    · show d.1 <:+: T
      rw [hd, e1']
      exact (row_infix hr (e1 ▸ List.mem_cons_self)).trans hi
    · exact hm x hx

theorem origin_entries {A : Type} {f : Tree Rule → Run (Option A)} {fields : A → List Str}
    (hf : ∀ t v, All Ordered t → f t = .ok v → InOrder (v.toList.flatMap fields) t.asStr) : ∀ {ts : List (Tree Rule)} {m m' : Map Str Colour}
    {l : List A} {T T' : Str}, Queue ts T → T <:+: T' → Named m T' → entries f m ts = .ok (l, m') → InOrder (l.flatMap fields) T ∧ Named m' T'
  | [], m, m', l, T, T', _, _, hm, h => by
    cases h
    exact ⟨.nil _, hm⟩
  | t :: ts, m, m', l, T, T', hr, hi, hm, h => by
    have ht := hr.2 t List.mem_cons_self
    have hT := (row_infix hr List.mem_cons_self).trans hi
    rw [entries] at h
    split at h
    · obtain ⟨m1, h1, h⟩ := run_bind_ok_iff.1 h
      exact origin_entries hf (Queue.tail hr) hi (named_store ht hT hm h1) h
    · obtain ⟨v, h1, h⟩ := run_bind_ok_iff.1 h
      obtain ⟨⟨l2, m2⟩, h2, h⟩ := run_bind_ok_iff.1 h
      cases h
      rw [List.flatMap_append]
      refine ⟨hr.step (hf t v ht h1) fun T2 hr2 => ?_, (origin_entries hf (Queue.tail hr) hi hm h2).2⟩
      have hw : InOrder (l2.flatMap fields) T2 ∧ Named m' (T2 ++ T') :=
        origin_entries hf hr2 (infix_left List.infix_rfl) (fun x hx => infix_right (hm x hx)) h2
      exact hw.1

/-- The texts of the description of the file. -/
def infoTexts (i : Info F) : List Str := [i.name, i.defaultCallsign, i.defaultAirport]

/-- What is known of the description while it is read: the texts read so far are among the tokens read. -/
def InfoInv (s : InfoState F) (done : List Str) : Prop :=
  ∃ l, l.Sublist done ∧ (infoTexts s.info = l ++ List.replicate (3 - l.length) []) ∧ (l.length = min s.i 3)

theorem infoInv_step {s s' : InfoState F} {t : Tree Rule} {done : List Str} (hs : InfoInv s done) (h : infoStep s t = .ok s') :
    InfoInv s' (done ++ [t.asStr]) := by
  obtain ⟨l, h1, h2, h3⟩ := hs
  unfold infoStep at h
  split at h
  · obtain ⟨m, _, h⟩ := run_bind_ok_iff.1 h
    cases h
    exact ⟨l, h1.trans (List.sublist_append_left _ _), h2, h3⟩
  · obtain ⟨s1, h4, h⟩ := run_bind_ok_iff.1 h
    cases h
    have later : ∀ i, s.i = i + 3 → infoTexts s1.info = infoTexts s.info → s1.i = s.i →
        InfoInv { s1 with i := s1.i + 1 } (done ++ [t.asStr]) := fun i hi e e' =>
      ⟨l, h1.trans (List.sublist_append_left _ _), by rw [← h2, ← e], by
        show l.length = min (s1.i + 1) 3
        rw [h3, e', hi]; omega⟩
    unfold infoLine at h4
    split at h4
    · rename_i hi
      cases h4
      rw [hi] at h3
      have hl : l = [] := List.length_eq_zero_iff.1 (by simpa using h3)
      subst hl
      refine ⟨[t.asStr], List.sublist_append_right _ _, ?_, by simp [hi]⟩
      simp [infoTexts, List.replicate] at h2 ⊢
      exact h2.2
    · rename_i hi
      cases h4
      rw [hi] at h3
      obtain ⟨a, rfl⟩ := List.length_eq_one_iff.1 (by simpa using h3)
      refine ⟨[a] ++ [t.asStr], List.Sublist.append h1 (List.Sublist.refl _), ?_, by simp [hi]⟩
      simp [infoTexts, List.replicate] at h2 ⊢
      exact ⟨h2.1, h2.2.2⟩
    · rename_i hi
      cases h4
      rw [hi] at h3
      obtain ⟨a, b, rfl⟩ : ∃ a b, l = [a, b] := by
        match l, h3 with
        | [a, b], _ => exact ⟨a, b, rfl⟩
      refine ⟨[a, b] ++ [t.asStr], List.Sublist.append h1 (List.Sublist.refl _), ?_, by simp [hi]⟩
      simp [infoTexts] at h2 ⊢
      exact ⟨h2.1, h2.2.1⟩
    · rename_i hi
      obtain ⟨_, _, h4⟩ := run_bind_ok_iff.1 h4
      cases h4
      exact later 0 hi rfl rfl
    · rename_i hi
      obtain ⟨_, _, h4⟩ := run_bind_ok_iff.1 h4
      cases h4
      exact later 1 hi rfl rfl
    · rename_i hi
      obtain ⟨_, _, h4⟩ := run_bind_ok_iff.1 h4
      cases h4
      exact later 2 hi rfl rfl
    · rename_i hi
      obtain ⟨_, _, h4⟩ := run_bind_ok_iff.1 h4
      cases h4
      exact later 3 hi rfl rfl
    · rename_i hi
      obtain ⟨_, _, h4⟩ := run_bind_ok_iff.1 h4
      cases h4
      exact later 4 hi rfl rfl
    · rename_i hi
      obtain ⟨_, _, h4⟩ := run_bind_ok_iff.1 h4
      cases h4
      exact later 5 hi rfl rfl
    · cases h4

theorem infoInv_all : ∀ {ts : List (Tree Rule)} {s s' : InfoState F} {done : List Str}, InfoInv s done → ts.foldlM infoStep s = .ok s' →
    InfoInv s' (done ++ ts.map Tree.asStr)
  | [], s, s', done, hs, h => by
    cases h
    simpa using hs
  | t :: ts, s, s', done, hs, h => by
    rw [List.foldlM_cons] at h
    obtain ⟨s1, h1, h⟩ := run_bind_ok_iff.1 h
    have := infoInv_all (infoInv_step hs h1) h
    simpa using this

theorem named_info : ∀ {ts : List (Tree Rule)} {s s' : InfoState F} {T : Str}, (∀ t ∈ ts, All Ordered t ∧ t.asStr <:+: T) → Named s.colours T →
    ts.foldlM infoStep s = .ok s' → Named s'.colours T
  | [], s, s', T, _, hs, h => by
    cases h
    exact hs
  | t :: ts, s, s', T, ht, hs, h => by
    rw [List.foldlM_cons] at h
    obtain ⟨s1, h1, h⟩ := run_bind_ok_iff.1 h
    refine named_info (fun u hu => ht u (List.mem_cons_of_mem _ hu)) ?_ h
    unfold infoStep at h1
    split at h1
    · obtain ⟨m, hm, h1⟩ := run_bind_ok_iff.1 h1
      cases h1
      exact named_store (ht t List.mem_cons_self).1 (ht t List.mem_cons_self).2 hs hm
    · obtain ⟨s2, h4, h1⟩ := run_bind_ok_iff.1 h1
      cases h1
      have : s2.colours = s.colours := by
        unfold infoLine at h4
        split at h4
        · cases h4; rfl
        · cases h4; rfl
        · cases h4; rfl
        all_goals first
          | (obtain ⟨_, _, h4⟩ := run_bind_ok_iff.1 h4; cases h4; rfl)
          | cases h4
      show Named s2.colours T
      rw [this]
      exact hs

theorem inOrder_empty {l : List Str} {T : Str} (h : InOrder l T) (n : Nat) : InOrder (l ++ List.replicate n []) T := by
  have : ∀ n, InOrder (List.replicate n ([] : Str)) [] := by
    intro n
    induction n with
    | zero => exact .nil _
    | succ n ih => simpa [List.replicate_succ] using InOrder.cons [] [] [] _ ih
  simpa using h.append (this n)

theorem origin_info {t : Tree Rule} {m : Map Str Colour} {v : Info F × Map Str Colour} {T : Str} (ht : All Ordered t) (hi : t.asStr <:+: T)
    (hm : Named m T) (h : parseInfoSection t m = .ok v) : InOrder (infoTexts v.1) T ∧ Named v.2 T := by
  have hr := ht.queue
  obtain ⟨s, h1, h⟩ := run_bind_ok_iff.1 h
  cases h
  refine ⟨?_, named_info (fun u hu => ⟨hr.2 u hu, (row_infix hr hu).trans hi⟩) hm h1⟩
  obtain ⟨l, hl, e, _⟩ := infoInv_all (done := []) ⟨[], List.Sublist.refl _, rfl, rfl⟩ h1
  rw [e]
  exact inOrder_empty ((hr.1.sub hl).of_infix hi) _

/-- The texts of a section stand in a text. -/
def SectionOrigin (s : Section F) (T : Str) : Prop :=
  match s with
  | .info i => InOrder (infoTexts i) T
  | .airport l => InOrder (l.flatMap airport) T
  | .fixes l => InOrder (l.flatMap fix) T
  | .highAirways l => InOrder (l.flatMap airway) T
  | .lowAirways l => InOrder (l.flatMap airway) T
  | .ndbs l => InOrder (l.flatMap navaid) T
  | .vors l => InOrder (l.flatMap navaid) T
  | .runways l => InOrder (l.flatMap runway) T
  | .sid l => InOrder (l.flatMap drawing) T ∧ InOrder (l.flatMap colours) T
  | .star l => InOrder (l.flatMap drawing) T ∧ InOrder (l.flatMap colours) T
  | .artccHigh l => InOrder (l.flatMap drawing) T ∧ InOrder (l.flatMap colours) T
  | .artcc l => InOrder (l.flatMap drawing) T ∧ InOrder (l.flatMap colours) T
  | .artccLow l => InOrder (l.flatMap drawing) T ∧ InOrder (l.flatMap colours) T
  | .regions l => InOrder (l.flatMap region) T
  | .labels l => InOrder (l.flatMap label) T
  | .geo l => InOrder (l.flatMap drawing) T ∧ InOrder (l.flatMap colours) T
  | .unsupported => True

section
variable [DecidableEq F]

theorem origin_section {t : Tree Rule} {m : Map Str Colour} {v : (SectionName × Section F) × Map Str Colour} {T : Str} (ht : All Ordered t)
    (hi : t.asStr <:+: T) (hm : Named m T) (h : parseSection t m = .ok v) : SectionOrigin v.1.2 T ∧ Named v.2 T := by
  have hr := ht.queue
  have list : ∀ {A : Type} {f : Tree Rule → Run (Option A)} {fields : A → List Str} {name : SectionName} {mk : List A → Section F}
      (_ : ∀ t v, All Ordered t → f t = .ok v → InOrder (v.toList.flatMap fields) t.asStr),
      (do let (l, colours) ← entries f m t.inner
          return ((name, mk l), colours) : Run ((SectionName × Section F) × Map Str Colour)) = .ok v →
      ∃ l, v.1.2 = mk l ∧ InOrder (l.flatMap fields) T ∧ Named v.2 T := by
    intro A f fields name mk hf h
    obtain ⟨⟨l, m'⟩, h1, h⟩ := run_bind_ok_iff.1 h
    cases h
    have := origin_entries hf hr hi hm h1
    exact ⟨l, rfl, this.1.of_infix hi, this.2⟩
  unfold parseSection at h
  dsimp only at h
  split at h
  · obtain ⟨⟨i, m'⟩, h1, h⟩ := run_bind_ok_iff.1 h
    cases h
    exact origin_info ht hi hm h1
  · obtain ⟨l, e, h1, h2⟩ := list (fun _ _ => origin_some fun _ _ => origin_airport) h
    rw [e]; exact ⟨h1, h2⟩
  · obtain ⟨l, e, h1, h2⟩ := list (fun _ _ => origin_fix) h
    rw [e]; exact ⟨h1, h2⟩
  · obtain ⟨l, e, h1, h2⟩ := list (fun _ _ => origin_ndb) h
    rw [e]; exact ⟨h1, h2⟩
  · obtain ⟨l, e, h1, h2⟩ := list (fun _ _ => origin_some fun _ _ => origin_navaid) h
    rw [e]; exact ⟨h1, h2⟩
  · obtain ⟨l, e, h1, h2⟩ := list (fun _ _ => origin_some fun _ _ => origin_runway) h
    rw [e]; exact ⟨h1, h2⟩
  all_goals first
    | (obtain ⟨l, e, h1, h2⟩ := list (fun _ _ => origin_airway) h
       rw [e]; exact ⟨h1, h2⟩)
    | (obtain ⟨l, e, h1, h2⟩ := list (fun _ _ => origin_some fun _ _ => origin_region) h
       rw [e]; exact ⟨h1, h2⟩)
    | (obtain ⟨l, e, h1, h2⟩ := list (fun _ _ => origin_some fun _ _ => origin_label) h
       rw [e]; exact ⟨h1, h2⟩)
    | (obtain ⟨l, e, h1, h2⟩ := list (fun _ _ => origin_some fun _ _ h1 h2 => (origin_drawing h1 h2).1) h
       obtain ⟨l', e', h1', _⟩ := list (fun _ _ => origin_some fun _ _ h1 h2 => (origin_drawing h1 h2).2) h
       rw [e] at e'
       cases e'
       rw [e]; exact ⟨⟨h1, h1'⟩, h2⟩)
    | (cases h
       exact ⟨trivial, hm⟩)

theorem origin_sections : ∀ {ts : List (Tree Rule)} {m : Map Str Colour} {v : List (SectionName × Section F) × Map Str Colour} {T : Str},
    (∀ t ∈ ts, All Ordered t ∧ t.asStr <:+: T) → Named m T → parseSections m ts = .ok v → (∀ x ∈ v.1, SectionOrigin x.2 T) ∧ Named v.2 T
  | [], m, v, T, _, hm, h => by
    cases h
    exact ⟨by simp, hm⟩
  | t :: ts, m, v, T, ht, hm, h => by
    have h0 := ht t List.mem_cons_self
    have hts : ∀ t ∈ ts, All Ordered t ∧ t.asStr <:+: T := fun u hu => ht u (List.mem_cons_of_mem _ hu)
    rw [parseSections] at h
    split at h
    · obtain ⟨m1, h1, h⟩ := run_bind_ok_iff.1 h
      exact origin_sections hts (named_store h0.1 h0.2 hm h1) h
    · obtain ⟨⟨s, m1⟩, h1, h⟩ := run_bind_ok_iff.1 h
      obtain ⟨⟨l, m2⟩, h2, h⟩ := run_bind_ok_iff.1 h
      cases h
      have a := origin_section h0.1 h0.2 hm h1
      have b := origin_sections hts a.2 h2
      refine ⟨fun x hx => ?_, b.2⟩
      rcases List.mem_cons.1 hx with rfl | hx
      · exact a.1
      · exact b.1 x hx

variable [UnicodeTables]

/-- Where the texts of a file come from. -/
theorem origin_file {content : Str} {e : Verif.Parse.Sct.Sct F} (h : Verif.Parse.Sct.parse content = .ok e) :
    ∃ secs colours, (∀ k s, (Map.ofList secs).get? k = some s → SectionOrigin s content) ∧ Named colours content ∧
      e = assemble (Map.ofList secs) colours := by
  obtain ⟨pairs, h1, h⟩ := run_bind_ok_iff.1 h
  obtain ⟨⟨p, _⟩, h2, h⟩ := run_bind_ok_iff.1 h
  obtain ⟨⟨secs, cols⟩, h3, h9⟩ := run_bind_ok_iff.1 h
  rcases run_tok Peg.Sct.sct rfl (sk := skip) (skipBoth_ok rfl rfl) rfl rfl content with h' | ⟨kids, h', ho⟩
  · rw [h'] at h1; cases h1
  · rw [h'] at h1
    cases h1
    have e2 := next_ok h2
    injection e2 with e2 _
    dsimp only at e2
    subst e2
    have hr := out_queue ho
    have := origin_sections (T := content) (fun t ht => ⟨hr.2 t ht, row_infix hr ht⟩) (fun x hx => by cases hx) h3
    cases h9
    exact ⟨secs, cols, fun k s h => this.1 (k, s) (mem_ofList (Map.mem_of_get? h)), this.2, rfl⟩
end

end Verif.Proofs.OriginSct
