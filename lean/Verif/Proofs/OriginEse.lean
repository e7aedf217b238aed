import Verif.Proofs.InOrder
import Verif.Proofs.EsePanic
import Verif.Spec.Origin
/-!
# Where the texts of an extended sector file come from
-/

namespace Verif.Proofs.OriginEse
open Verif.Proofs.Ese
open Verif.Proofs Verif.Peg Verif.Spec Verif.Spec.Origin Verif.Parse.Ese Verif.Parse
open Verif.Peg.Ese (Rule skip)
open Verif.Dms (DmsArith)
open Verif.Locations (SidStar)
open Verif.EseAirspace Verif.Constraints

set_option linter.unusedSectionVars false

theorem next_ok {R : Type} {ts : List (Tree R)} {p : Tree R × List (Tree R)} (h : next ts = .ok p) : ts = p.1 :: p.2 := by
  cases ts with
  | nil => cases h
  | cons t ts => cases h; rfl

theorem nextStr_ok {ts : List (Tree Rule)} {p : Str × List (Tree Rule)} (h : nextStr ts = .ok p) : ∃ t, ts = t :: p.2 ∧ p.1 = t.asStr := by
  obtain ⟨⟨t, us⟩, h1, h⟩ := run_bind_ok_iff.1 h
  cases h
  exact ⟨t, next_ok h1, rfl⟩

theorem nextUnsigned_ok {b : Nat} {ts : List (Tree Rule)} {p : Nat × List (Tree Rule)} (h : nextUnsigned b ts = .ok p) : ∃ t, ts = t :: p.2 := by
  obtain ⟨⟨t, us⟩, h1, h⟩ := run_bind_ok_iff.1 h
  obtain ⟨n, _, h⟩ := run_bind_ok_iff.1 h
  cases h
  obtain ⟨t, e, _⟩ := nextStr_ok h1
  exact ⟨t, e⟩

theorem origin_sidStar {t : Tree Rule} {v : SidStar} (ht : All Ordered t) (h : parseSidStar t = .ok v) : InOrder (procedure v) t.asStr := by
  have hr := ht.queue
  obtain ⟨⟨airport, ts1⟩, h1, h⟩ := run_bind_ok_iff.1 h
  obtain ⟨⟨rt, ts2⟩, h2, h⟩ := run_bind_ok_iff.1 h
  obtain ⟨t1, e1, e1'⟩ := nextStr_ok h1
  have e2 := next_ok h2
  dsimp only at e1 e2 e1'
  rw [e1, e2] at hr
  have fin : ∀ runway : Option Str, InOrder runway.toList rt.asStr → (do
      let (name, sidStar) ← nextStr ts2
      let (route, _) ← next sidStar
      match t.asRule with
      | .sid => return .sid ⟨name, airport, runway, route.inner.map Tree.asStr⟩
      | .star => return .star ⟨name, airport, runway, route.inner.map Tree.asStr⟩
      | _ => .error .panic : Run SidStar) = .ok v → InOrder (procedure v) t.asStr := by
    intro runway hrun h
    obtain ⟨⟨name, ts4⟩, h4, h⟩ := run_bind_ok_iff.1 h
    obtain ⟨⟨route, ts5⟩, h5, h⟩ := run_bind_ok_iff.1 h
    obtain ⟨t4, e4, e4'⟩ := nextStr_ok h4
    have e5 := next_ok h5
    dsimp only at e4 e5 e4'
    rw [e4, e5] at hr
    have : InOrder (airport :: (runway.toList ++ name :: route.inner.map Tree.asStr)) t.asStr := by
      rw [e1', e4']
      refine hr.str fun T hr => hr.step hrun fun T hr => hr.str fun T hr => ?_
      have := hr.step (l' := []) (hr.2 route List.mem_cons_self).queue.strs fun T _ => .nil _
      rwa [List.append_nil] at this
    dsimp only at h
    split at h
    · cases h; exact this
    · cases h; exact this
    · cases h
  dsimp only at h
  split at h
  · exact fin (some rt.asStr) (InOrder.one _) h
  · exact fin none (.nil _) h
  · cases h

theorem wild_origin {t : Tree Rule} {v : Option Str} (h : parseWildcardString t = .ok v) : InOrder v.toList t.asStr := by
  unfold parseWildcardString at h
  split at h
  · cases h; exact .nil _
  · cases h; exact InOrder.one _
  · cases h; exact InOrder.one _
  · cases h

theorem origin_constraint {t : Tree Rule} {v : Constraint} (ht : All Ordered t) (h : parseConstraint t = .ok v) : InOrder (constraint v) t.asStr := by
  have hr := ht.queue
  obtain ⟨⟨t1, ts1⟩, a1, h⟩ := run_bind_ok_iff.1 h
  obtain ⟨v1, b1, h⟩ := run_bind_ok_iff.1 h
  obtain ⟨⟨t2, ts2⟩, a2, h⟩ := run_bind_ok_iff.1 h
  obtain ⟨v2, b2, h⟩ := run_bind_ok_iff.1 h
  obtain ⟨⟨t3, ts3⟩, a3, h⟩ := run_bind_ok_iff.1 h
  obtain ⟨v3, b3, h⟩ := run_bind_ok_iff.1 h
  obtain ⟨⟨t4, ts4⟩, a4, h⟩ := run_bind_ok_iff.1 h
  obtain ⟨v4, b4, h⟩ := run_bind_ok_iff.1 h
  obtain ⟨⟨t5, ts5⟩, a5, h⟩ := run_bind_ok_iff.1 h
  obtain ⟨v5, b5, h⟩ := run_bind_ok_iff.1 h
  obtain ⟨⟨s6, ts6⟩, a6, h⟩ := run_bind_ok_iff.1 h
  obtain ⟨⟨s7, ts7⟩, a7, h⟩ := run_bind_ok_iff.1 h
  obtain ⟨⟨t8, ts8⟩, a8, h⟩ := run_bind_ok_iff.1 h
  obtain ⟨v8, b8, h⟩ := run_bind_ok_iff.1 h
  obtain ⟨⟨t9, ts9⟩, a9, h⟩ := run_bind_ok_iff.1 h
  obtain ⟨v9, b9, h⟩ := run_bind_ok_iff.1 h
  obtain ⟨⟨s10, ts10⟩, a10, h⟩ := run_bind_ok_iff.1 h
  obtain ⟨t6, e6, e6'⟩ := nextStr_ok a6
  obtain ⟨t7, e7, e7'⟩ := nextStr_ok a7
  obtain ⟨t10, e10, e10'⟩ := nextStr_ok a10
  have e1 := next_ok a1
  have e2 := next_ok a2
  have e3 := next_ok a3
  have e4 := next_ok a4
  have e5 := next_ok a5
  have e8 := next_ok a8
  have e9 := next_ok a9
  dsimp only at e1 e2 e3 e4 e5 e6 e7 e8 e9 e10 e6' e7' e10'
  rw [e1, e2, e3, e4, e5, e6, e7, e8, e9, e10] at hr
  cases h
  show InOrder (v1.toList ++ (v2.toList ++ (v3.toList ++ (v4.toList ++ (v5.toList ++ [s6, s7, s10]))))) _
  rw [e6', e7', e10']
  exact hr.step (wild_origin b1) fun T hr => hr.step (wild_origin b2) fun T hr => hr.step (wild_origin b3) fun T hr =>
    hr.step (wild_origin b4) fun T hr => hr.step (wild_origin b5) fun T hr => hr.str fun T hr => hr.str fun T hr =>
    hr.skip fun T hr => hr.skip fun T hr => hr.str fun T hr => .nil _

section
variable {F : Type} [F64 F] [DmsArith F]

theorem origin_position {t : Tree Rule} {v : Str × Position F} (ht : All Ordered t) (h : parsePosition t = .ok v) :
    v.1 = v.2.identifier ∧ InOrder (position v.2) t.asStr := by
  have hr := ht.queue
  obtain ⟨⟨s1, ts1⟩, a1, h⟩ := run_bind_ok_iff.1 h
  obtain ⟨⟨s2, ts2⟩, a2, h⟩ := run_bind_ok_iff.1 h
  obtain ⟨⟨s3, ts3⟩, a3, h⟩ := run_bind_ok_iff.1 h
  obtain ⟨⟨s4, ts4⟩, a4, h⟩ := run_bind_ok_iff.1 h
  obtain ⟨⟨s5, ts5⟩, a5, h⟩ := run_bind_ok_iff.1 h
  obtain ⟨⟨s6, ts6⟩, a6, h⟩ := run_bind_ok_iff.1 h
  obtain ⟨⟨s7, ts7⟩, a7, h⟩ := run_bind_ok_iff.1 h
  obtain ⟨t1, e1, e1'⟩ := nextStr_ok a1
  obtain ⟨t2, e2, e2'⟩ := nextStr_ok a2
  obtain ⟨t3, e3, e3'⟩ := nextStr_ok a3
  obtain ⟨t4, e4, e4'⟩ := nextStr_ok a4
  obtain ⟨t5, e5, e5'⟩ := nextStr_ok a5
  obtain ⟨t6, e6, e6'⟩ := nextStr_ok a6
  obtain ⟨t7, e7, e7'⟩ := nextStr_ok a7
  obtain ⟨_, _, h⟩ := run_bind_ok_iff.1 h
  obtain ⟨_, _, h⟩ := run_bind_ok_iff.1 h
  cases h
  dsimp only at e1 e2 e3 e4 e5 e6 e7 e1' e2' e3' e4' e5' e6' e7'
  rw [e1, e2, e3, e4, e5, e6, e7] at hr
  refine ⟨rfl, ?_⟩
  show InOrder [s1, s2, s3, s4, s5, s6, s7] _
  rw [e1', e2', e3', e4', e5', e6', e7']
  exact hr.str fun T hr => hr.str fun T hr => hr.str fun T hr => hr.str fun T hr => hr.str fun T hr => hr.str fun T hr =>
    hr.str fun T hr => .nil _
end

/-! ## Sectors -/

/-- The lists of a sector stand behind its name. -/
def SectorOrigin {L : Type} (s : Sector L) (T : Str) : Prop :=
  InOrder (s.id :: s.ownerPriority) T ∧ InOrder (s.id :: s.departureAirports) T ∧ InOrder (s.id :: s.arrivalAirports) T ∧
    InOrder (s.id :: s.runwayFilter.flatMap fun r => [r.1, r.2]) T

theorem SectorOrigin.of_infix {L : Type} {s : Sector L} {T T' : Str} (h : SectorOrigin s T) (hi : T <:+: T') : SectorOrigin s T' :=
  ⟨h.1.of_infix hi, h.2.1.of_infix hi, h.2.2.1.of_infix hi, h.2.2.2.of_infix hi⟩

/-- All texts of a line of a sector. -/
def subTexts : SectorSubsetting → List Str
  | .owner l => l
  | .alternativeOwner s l => s :: l
  | .border l => l
  | .active a b => [a, b]
  | .departureAirports l => l
  | .arrivalAirports l => l
  | .guest => []

theorem origin_sub {t : Tree Rule} {v : SectorSubsetting} (ht : All Ordered t) (h : parseSubsettings t = .ok v) : InOrder (subTexts v) t.asStr := by
  have hr := ht.queue
  unfold parseSubsettings at h
  split at h
  · cases h; exact hr.strs
  · obtain ⟨⟨s1, ts1⟩, a1, h⟩ := run_bind_ok_iff.1 h
    obtain ⟨t1, e1, e1'⟩ := nextStr_ok a1
    cases h
    dsimp only at e1 e1'
    rw [e1] at hr
    show InOrder (s1 :: _) _
    rw [e1']
    exact hr.strs
  · cases h; exact hr.strs
  · cases h; exact .nil _
  · obtain ⟨⟨s1, ts1⟩, a1, h⟩ := run_bind_ok_iff.1 h
    obtain ⟨t1, e1, e1'⟩ := nextStr_ok a1
    obtain ⟨⟨s2, ts2⟩, a2, h⟩ := run_bind_ok_iff.1 h
    obtain ⟨t2, e2, e2'⟩ := nextStr_ok a2
    cases h
    dsimp only at e1 e1' e2 e2'
    rw [e1, e2] at hr
    show InOrder [s1, s2] _
    rw [e1', e2']
    exact hr.str fun T hr => hr.str fun T hr => .nil _
  · cases h; exact hr.strs
  · cases h; exact hr.strs
  · cases h

theorem findSome_sublist {A : Type} (f : A → Option (List Str)) (g : A → List Str) (h : ∀ a l, f a = some l → l = g a) :
    ∀ l : List A, ((l.findSome? f).getD []).Sublist (l.flatMap g)
  | [] => .slnil
  | a :: l => by
    rw [List.findSome?_cons, List.flatMap_cons]
    cases e : f a with
    | some x =>
      rw [h a x e]
      exact List.sublist_append_left _ _
    | none => exact (findSome_sublist f g h l).trans (List.sublist_append_right _ _)

theorem filterMap_sublist {A : Type} (f : A → Option (Str × Str)) (g : A → List Str) (h : ∀ a x, f a = some x → [x.1, x.2] = g a) :
    ∀ l : List A, ((l.filterMap f).flatMap fun r => [r.1, r.2]).Sublist (l.flatMap g)
  | [] => .slnil
  | a :: l => by
    rw [List.filterMap_cons, List.flatMap_cons]
    cases e : f a with
    | some x =>
      rw [← h a x e]
      exact List.Sublist.append (List.Sublist.refl _) (filterMap_sublist f g h l)
    | none => exact (filterMap_sublist f g h l).trans (List.sublist_append_right _ _)

theorem origin_sector {L : Type} {t : Tree Rule} {v : List Str × Sector L} (ht : All Ordered t) (h : parseSector t = .ok v) :
    SectorOrigin v.2 t.asStr := by
  have hr := ht.queue
  obtain ⟨⟨s1, ts1⟩, a1, h⟩ := run_bind_ok_iff.1 h
  obtain ⟨t1, e1, e1'⟩ := nextStr_ok a1
  obtain ⟨⟨n2, ts2⟩, a2, h⟩ := run_bind_ok_iff.1 h
  obtain ⟨t2, e2⟩ := nextUnsigned_ok a2
  obtain ⟨⟨n3, ts3⟩, a3, h⟩ := run_bind_ok_iff.1 h
  obtain ⟨t3, e3⟩ := nextUnsigned_ok a3
  obtain ⟨subs, a4, h⟩ := run_bind_ok_iff.1 h
  cases h
  dsimp only at e1 e1' e2 e3
  rw [e1, e2, e3] at hr
  have hall : InOrder (s1 :: subs.flatMap subTexts) t.asStr := by
    rw [e1']
    exact hr.str fun T hr => hr.skip fun T hr => hr.skip fun T hr => hr.mapM (fun _ _ => origin_sub) a4
  refine ⟨hall.sub ?_, hall.sub ?_, hall.sub ?_, hall.sub ?_⟩
  · refine List.Sublist.cons_cons _ (findSome_sublist _ subTexts (fun a l h => ?_) subs)
    split at h <;> cases h; rfl
  · refine List.Sublist.cons_cons _ (findSome_sublist _ subTexts (fun a l h => ?_) subs)
    split at h <;> cases h; rfl
  · refine List.Sublist.cons_cons _ (findSome_sublist _ subTexts (fun a l h => ?_) subs)
    split at h <;> cases h; rfl
  · refine List.Sublist.cons_cons _ (filterMap_sublist _ subTexts (fun a l h => ?_) subs)
    split at h <;> cases h; rfl

/-! ## Sections -/

/-- The texts of an agreement, or none. -/
def statementTexts {L C : Type} : Statement L C → List Str
  | .cop c => constraint c
  | .firCop c => constraint c
  | _ => []

section
variable {F : Type} [F64 F] [DmsArith F] {G : Type} [F64 G]

theorem origin_statement {t : Tree Rule} {v : Statement (List (Point F)) (CircleSectorLine G)} (ht : All Ordered t)
    (h : parseAirspace t = .ok v) :
    InOrder (statementTexts v) t.asStr ∧ ∀ b s, v = .sector b s → SectorOrigin s t.asStr := by
  unfold parseAirspace at h
  split at h
  · obtain ⟨_, _, h⟩ := run_bind_ok_iff.1 h
    cases h
    exact ⟨.nil _, fun _ _ h => by cases h⟩
  · obtain ⟨⟨b, s⟩, hs, h⟩ := run_bind_ok_iff.1 h
    cases h
    refine ⟨.nil _, fun _ _ h => ?_⟩
    cases h
    exact origin_sector ht hs
  · obtain ⟨_, hc, h⟩ := run_bind_ok_iff.1 h
    cases h
    exact ⟨origin_constraint ht hc, fun _ _ h => by cases h⟩
  · obtain ⟨_, hc, h⟩ := run_bind_ok_iff.1 h
    cases h
    exact ⟨origin_constraint ht hc, fun _ _ h => by cases h⟩
  · cases h
    exact ⟨.nil _, fun _ _ h => by cases h⟩
  · obtain ⟨_, _, h⟩ := run_bind_ok_iff.1 h
    cases h
    exact ⟨.nil _, fun _ _ h => by cases h⟩
  · obtain ⟨_, _, h⟩ := run_bind_ok_iff.1 h
    cases h
    exact ⟨.nil _, fun _ _ h => by cases h⟩
  · cases h
end

theorem mem_insert {K V : Type} [DecidableEq K] {k : K} {v : V} : ∀ {m : Map K V} {x : K × V}, x ∈ m.insert k v → x = (k, v) ∨ x ∈ m
  | [], x, h => by
    rw [Map.insert, List.mem_singleton] at h
    exact Or.inl h
  | (k', v') :: m, x, h => by
    rw [Map.insert] at h
    split at h
    · rcases List.mem_cons.1 h with h | h
      · exact Or.inl h
      · exact Or.inr (List.mem_cons_of_mem _ h)
    · rcases List.mem_cons.1 h with h | h
      · exact Or.inr (h ▸ List.mem_cons_self)
      · rcases mem_insert h with h | h
        · exact Or.inl h
        · exact Or.inr (List.mem_cons_of_mem _ h)

theorem mem_foldl_insert {K V : Type} [DecidableEq K] (l : List (K × V)) : ∀ (m : Map K V) {x : K × V},
    x ∈ l.foldl (fun m e => m.insert e.1 e.2) m → x ∈ m ∨ x ∈ l := by
  induction l with
  | nil => intro m x h; exact Or.inl h
  | cons a l ih =>
    intro m x h
    rcases ih _ h with h | h
    · rcases mem_insert h with h | h
      · exact Or.inr (h ▸ List.mem_cons_self)
      · exact Or.inl h
    · exact Or.inr (List.mem_cons_of_mem _ h)

theorem mem_ofList {K V : Type} [DecidableEq K] {l : List (K × V)} {x : K × V} (h : x ∈ Map.ofList l) : x ∈ l :=
  (mem_foldl_insert l [] h).resolve_left (by simp)

section
variable {L C : Type}

theorem foldl_constraints (l : List (Statement L C)) : ∀ a : Collected L C,
    (l.foldl collect a).constraints.flatMap constraint = a.constraints.flatMap constraint ++ l.flatMap statementTexts := by
  induction l with
  | nil => intro a; simp
  | cons s l ih =>
    intro a
    rw [List.foldl_cons, ih, List.flatMap_cons]
    cases s <;> simp [collect, statementTexts]

theorem foldl_sectors (l : List (Statement L C)) : ∀ (a : Collected L C) {x : Str × Sector L}, x ∈ (l.foldl collect a).sectors →
    x ∈ a.sectors ∨ x.1 = x.2.id ∧ ∃ b, Statement.sector b x.2 ∈ l := by
  induction l with
  | nil => intro a x h; exact Or.inl h
  | cons s l ih =>
    intro a x h
    rcases ih _ h with h | ⟨e, b, h⟩
    · cases s with
      | sector b s =>
        rcases mem_insert h with h | h
        · subst h
          exact Or.inr ⟨rfl, b, List.mem_cons_self⟩
        · exact Or.inl h
      | _ => exact Or.inl h
    · exact Or.inr ⟨e, b, List.mem_cons_of_mem _ h⟩

theorem airspace_constraints (l : List (Statement L C)) : (airspace l).2.flatMap constraint = l.flatMap statementTexts := by
  have := foldl_constraints l ⟨[], [], [], [], []⟩
  simpa [airspace, combine] using this

theorem airspace_sectors {l : List (Statement L C)} {x : Str × Sector L} (h : x ∈ (airspace l).1) :
    x.1 = x.2.id ∧ ∃ b s, Statement.sector b s ∈ l ∧ s.id = x.2.id ∧ s.ownerPriority = x.2.ownerPriority ∧
      s.departureAirports = x.2.departureAirports ∧ s.arrivalAirports = x.2.arrivalAirports ∧ s.runwayFilter = x.2.runwayFilter := by
  obtain ⟨y, hy, rfl⟩ := List.mem_map.1 h
  rcases foldl_sectors l _ hy with h | ⟨e, b, h⟩
  · cases h
  · exact ⟨e, b, y.2, h, rfl, rfl, rfl, rfl, rfl⟩
end

section
variable {F : Type} [F64 F] [DmsArith F] (G : Type) [F64 G]

/-- The texts of a section stand in a text. -/
def SectionOrigin (s : Section F) (T : Str) : Prop :=
  match s with
  | .positions m => ∀ x ∈ m, x.1 = x.2.identifier ∧ InOrder (position x.2) T
  | .sectors s => (∀ x ∈ s.1, x.1 = x.2.id ∧ SectorOrigin x.2 T) ∧ InOrder (s.2.flatMap constraint) T
  | .sidsStars l => InOrder (l.flatMap procedure) T
  | .unsupported => True

theorem row_infix {R : Type} {ts : List (Tree R)} {T : Str} (h : Queue ts T) {t : Tree R} (ht : t ∈ ts) : t.asStr <:+: T :=
  h.1.infix _ (List.mem_map_of_mem ht)

theorem origin_section {t : Tree Rule} {v : SectionName × Section F} (ht : All Ordered t) (h : parseSection G t = .ok v) :
    SectionOrigin v.2 t.asStr := by
  have hr := ht.queue
  unfold parseSection at h
  split at h
  · obtain ⟨l, hl, h⟩ := run_bind_ok_iff.1 h
    cases h
    intro x hx
    obtain ⟨u, hu, hf⟩ := Adaptation.mem_mapM hl x (mem_ofList hx)
    have := origin_position (hr.2 u hu) hf
    exact ⟨this.1, this.2.of_infix (row_infix hr hu)⟩
  · obtain ⟨l, hl, h⟩ := run_bind_ok_iff.1 h
    cases h
    refine ⟨fun x hx => ?_, ?_⟩
    · obtain ⟨e, b, s, hs, e1, e2, e3, e4, e5⟩ := airspace_sectors hx
      obtain ⟨u, hu, hf⟩ := Adaptation.mem_mapM hl _ hs
      have := ((origin_statement (hr.2 u hu) hf).2 b s rfl).of_infix (row_infix hr hu)
      refine ⟨e, ?_⟩
      unfold SectorOrigin at this ⊢
      rwa [e1, e2, e3, e4, e5] at this
    · show InOrder ((airspace l).2.flatMap constraint) _
      rw [airspace_constraints]
      exact hr.mapM (fun _ _ h1 h2 => (origin_statement h1 h2).1) hl
  · obtain ⟨l, hl, h⟩ := run_bind_ok_iff.1 h
    cases h
    exact hr.mapM (fun _ _ => origin_sidStar) hl
  · cases h
    trivial

theorem SectionOrigin.of_infix {s : Section F} {T T' : Str} (h : SectionOrigin s T) (hi : T <:+: T') : SectionOrigin s T' := by
  cases s with
  | positions m => exact fun x hx => ⟨(h x hx).1, (h x hx).2.of_infix hi⟩
  | sectors s => exact ⟨fun x hx => ⟨(h.1 x hx).1, (h.1 x hx).2.of_infix hi⟩, h.2.of_infix hi⟩
  | sidsStars l => exact InOrder.of_infix h hi
  | unsupported => trivial

variable [UnicodeTables]

/-- Where the texts of a file come from. -/
theorem origin_file {content : Str} {e : Verif.Parse.Ese.Ese F} (h : Verif.Parse.Ese.parse G content = .ok e) :
    SectionOrigin (.positions e.positions) content ∧ SectionOrigin (F := F) (.sectors (e.sectors, e.constraints)) content ∧
      SectionOrigin (F := F) (.sidsStars e.sidsStars) content := by
  obtain ⟨pairs, h1, h⟩ := run_bind_ok_iff.1 h
  obtain ⟨⟨p, _⟩, h2, h⟩ := run_bind_ok_iff.1 h
  obtain ⟨secs, h3, h9⟩ := run_bind_ok_iff.1 h
  rcases run_tok Peg.Ese.ese rfl (sk := skip) (skipBoth_ok rfl rfl) rfl rfl content with h' | ⟨kids, h', ho⟩
  · rw [h'] at h1; cases h1
  · rw [h'] at h1
    cases h1
    have e2 := next_ok h2
    injection e2 with e2 _
    dsimp only at e2
    subst e2
    have hr := out_queue ho
    have hs : ∀ x ∈ secs, SectionOrigin x.2 content := fun x hx => by
      obtain ⟨u, hu, hf⟩ := Adaptation.mem_mapM h3 x hx
      exact (origin_section G (hr.2 u hu) hf).of_infix (row_infix hr hu)
    have hg : ∀ k s, (Map.ofList secs).get? k = some s → SectionOrigin s content := fun k s h =>
      hs (k, s) (mem_ofList (Map.mem_of_get? h))
    cases h9
    refine ⟨?_, ?_, ?_⟩
    · show SectionOrigin (.positions (match (Map.ofList secs).get? .position with
        | some (.positions positions) => positions
        | _ => [])) content
      split
      · rename_i e; exact hg _ _ e
      · intro x hx; cases hx
    · show SectionOrigin (.sectors (match (Map.ofList secs).get? .airspace with
        | some (.sectors sectors) => sectors
        | _ => ([], []))) content
      split
      · rename_i e; exact hg _ _ e
      · exact ⟨fun x hx => (by cases hx), InOrder.nil _⟩
    · show SectionOrigin (.sidsStars (match (Map.ofList secs).get? .sidsStars with
        | some (.sidsStars sidsStars) => sidsStars
        | _ => [])) content
      split
      · rename_i e; exact hg _ _ e
      · exact InOrder.nil _
end

end Verif.Proofs.OriginEse
