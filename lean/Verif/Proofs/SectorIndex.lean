import Verif.Spec.SectorIndex
/-! # Sector index (helper lemmas) -/

set_option linter.unusedSectionVars false

namespace Verif.SectorIndex
open Verif.Sectors Spec

variable {F L : Type} [LE F] [DecidableLE F] [Std.IsLinearPreorder F]

theorem minF_le (a b x : F) : minF a b ≤ x ↔ (a ≤ x ∨ b ≤ x) := by
  unfold minF
  split
  · next h => exact ⟨.inl, fun h' => h'.elim id (fun h2 => Std.IsPreorder.le_trans _ _ _ h h2)⟩
  · next h =>
    have h' : b ≤ a := (Std.IsLinearPreorder.le_total a b).resolve_left h
    exact ⟨.inr, fun h2 => h2.elim (fun h3 => Std.IsPreorder.le_trans _ _ _ h' h3) id⟩

theorem le_maxF (a b x : F) : x ≤ maxF a b ↔ (x ≤ a ∨ x ≤ b) := by
  unfold maxF
  split
  · next h => exact ⟨.inr, fun h2 => h2.elim (fun h3 => Std.IsPreorder.le_trans _ _ _ h3 h) id⟩
  · next h =>
    have h' : b ≤ a := (Std.IsLinearPreorder.le_total a b).resolve_left h
    exact ⟨.inl, fun h2 => h2.elim id (fun h3 => Std.IsPreorder.le_trans _ _ _ h3 h')⟩

/-- `r` is the bounding rectangle of `b`. -/
structure Bounds (r : Rect F) (b : Border F) : Prop where
  minx : ∀ x, r.min.1 ≤ x ↔ ∃ q ∈ b, q.1 ≤ x
  miny : ∀ x, r.min.2 ≤ x ↔ ∃ q ∈ b, q.2 ≤ x
  maxx : ∀ x, x ≤ r.max.1 ↔ ∃ q ∈ b, x ≤ q.1
  maxy : ∀ x, x ≤ r.max.2 ↔ ∃ q ∈ b, x ≤ q.2

theorem bounds_foldl (b c : Border F) (r : Rect F) (h : Bounds r c) :
    Bounds (b.foldl
      (fun r q => (⟨(minF r.min.1 q.1, minF r.min.2 q.2), (maxF r.max.1 q.1, maxF r.max.2 q.2)⟩ :
        Rect F)) r) (c ++ b) := by
  induction b generalizing c r with
  | nil => simpa using h
  | cons q b ih =>
    have h2 : Bounds (⟨(minF r.min.1 q.1, minF r.min.2 q.2),
        (maxF r.max.1 q.1, maxF r.max.2 q.2)⟩ : Rect F) (c ++ [q]) := by
      constructor <;> intro x
      · simp only [minF_le, h.minx, List.mem_append, List.mem_singleton]
        constructor
        · rintro (⟨a, ha, hx⟩ | hx)
          · exact ⟨a, .inl ha, hx⟩
          · exact ⟨q, .inr rfl, hx⟩
        · rintro ⟨a, ha | rfl, hx⟩
          · exact .inl ⟨a, ha, hx⟩
          · exact .inr hx
      · simp only [minF_le, h.miny, List.mem_append, List.mem_singleton]
        constructor
        · rintro (⟨a, ha, hx⟩ | hx)
          · exact ⟨a, .inl ha, hx⟩
          · exact ⟨q, .inr rfl, hx⟩
        · rintro ⟨a, ha | rfl, hx⟩
          · exact .inl ⟨a, ha, hx⟩
          · exact .inr hx
      · simp only [le_maxF, h.maxx, List.mem_append, List.mem_singleton]
        constructor
        · rintro (⟨a, ha, hx⟩ | hx)
          · exact ⟨a, .inl ha, hx⟩
          · exact ⟨q, .inr rfl, hx⟩
        · rintro ⟨a, ha | rfl, hx⟩
          · exact .inl ⟨a, ha, hx⟩
          · exact .inr hx
      · simp only [le_maxF, h.maxy, List.mem_append, List.mem_singleton]
        constructor
        · rintro (⟨a, ha, hx⟩ | hx)
          · exact ⟨a, .inl ha, hx⟩
          · exact ⟨q, .inr rfl, hx⟩
        · rintro ⟨a, ha | rfl, hx⟩
          · exact .inl ⟨a, ha, hx⟩
          · exact .inr hx
    have h3 := ih _ _ h2
    simpa using h3

theorem boundingRect_bounds {b : Border F} {r : Rect F} (h : boundingRect b = some r) :
    Bounds r b := by
  cases b with
  | nil => simp [boundingRect] at h
  | cons p ps =>
    simp only [boundingRect, Option.some.injEq] at h
    rw [← h]
    exact bounds_foldl ps [p] ⟨p, p⟩ (by constructor <;> intro x <;> simp)

theorem boundingRect_isSome {b : Border F} : (boundingRect b).isSome ↔ b ≠ [] := by
  cases b <;> simp [boundingRect]

theorem containsPoint_iff {b : Border F} {r : Rect F} (h : boundingRect b = some r) (p : Pt F) :
    r.containsPoint p = true ↔ WithinExtent b p := by
  have hb := boundingRect_bounds h
  simp only [Rect.containsPoint, Bool.and_eq_true, decide_eq_true_eq, WithinExtent, hb.minx,
    hb.maxx, hb.miny, hb.maxy, and_assoc]

theorem intersects_iff {b : Border F} {r : Rect F} (h : boundingRect b = some r) (p q : Pt F) :
    r.intersects ⟨(minF p.1 q.1, minF p.2 q.2), (maxF p.1 q.1, maxF p.2 q.2)⟩ = true ↔
      ExtentsOverlap b p q := by
  have hb := boundingRect_bounds h
  simp only [Rect.intersects, Bool.and_eq_true, decide_eq_true_eq, ExtentsOverlap, hb.minx,
    hb.maxx, hb.miny, hb.maxy, le_maxF, minF_le]

theorem mem_buildTree (d : Data F) (e : Entry F) :
    e ∈ buildTree d ↔
      (ControlledVolume d e.sectorId e.volume ∧ boundingRect e.volume.lateralBorder = some e.rect) := by
  simp only [buildTree, List.mem_filterMap, List.mem_flatMap, List.mem_filter, List.mem_map,
    Option.map_eq_some_iff, ControlledVolume]
  constructor
  · rintro ⟨⟨id, v⟩, ⟨⟨key, s⟩, ⟨hm, hp⟩, v', ⟨vid, hvid, hv⟩, heq⟩, r, hr, rfl⟩
    cases heq
    refine ⟨⟨key, s, hm, ?_, rfl, vid, hvid, hv⟩, hr⟩
    simpa using hp
  · rintro ⟨⟨key, s, hm, hp, hid, vid, hvid, hv⟩, hr⟩
    refine ⟨(e.sectorId, e.volume), ⟨(key, s), ⟨hm, ?_⟩, e.volume, ⟨vid, hvid, hv⟩, ?_⟩,
      e.rect, hr, rfl⟩
    · simpa using hp
    · simp [hid]

theorem strLt_irrefl (a : Str) : strLt a a = false := by
  induction a with
  | nil => rfl
  | cons x a ih => simp [strLt, ih]

theorem strLt_iff (a b : Str) : strLt a b = true ↔ a.map Char.toNat < b.map Char.toNat := by
  induction a generalizing b with
  | nil => cases b <;> simp [strLt]
  | cons x a ih =>
    cases b with
    | nil => simp [strLt]
    | cons y b =>
      simp only [strLt, List.map_cons, List.cons_lt_cons_iff]
      have hxy : x = y ↔ x.toNat = y.toNat := ⟨fun h => by rw [h], fun h => Char.toNat_inj.1 h⟩
      by_cases h1 : x.toNat < y.toNat
      · simp [h1]
      · by_cases h2 : x = y
        · subst h2; simp [ih]
        · have h3 : ¬ x.toNat = y.toNat := fun h => h2 (hxy.2 h)
          simp [h1, h2, h3]

theorem minId_eq_none {l : List Str} : minId l = none ↔ l = [] := by
  cases l with
  | nil => simp [minId]
  | cons x l =>
    simp only [minId]
    split <;> simp

theorem minId_spec {l : List Str} {m : Str} (h : minId l = some m) :
    m ∈ l ∧ ∀ x ∈ l, StrLe m x := by
  induction l generalizing m with
  | nil => simp [minId] at h
  | cons x l ih =>
    simp only [minId] at h
    split at h
    · next hn =>
      cases h
      rw [minId_eq_none] at hn
      subst hn
      simp [StrLe]
    · next m' hm =>
      obtain ⟨h1, h2⟩ := ih hm
      by_cases hlt : strLt m' x = true
      · rw [if_pos hlt] at h
        cases h
        refine ⟨List.mem_cons_of_mem _ h1, ?_⟩
        intro y hy
        rcases List.mem_cons.1 hy with rfl | hy
        · exact List.le_of_lt ((strLt_iff _ _).1 hlt)
        · exact h2 y hy
      · rw [if_neg hlt] at h
        cases h
        have hle : x.map Char.toNat ≤ m'.map Char.toNat := by
          rw [strLt_iff] at hlt
          exact List.not_lt.1 hlt
        refine ⟨by simp, ?_⟩
        intro y hy
        rcases List.mem_cons.1 hy with rfl | hy
        · exact List.le_refl _
        · exact List.le_trans hle (h2 y hy)

theorem strLe_antisymm {a b : Str} (h1 : StrLe a b) (h2 : StrLe b a) : a = b := by
  have := List.le_antisymm h1 h2
  exact (List.map_inj_right (fun x y h => Char.toNat_inj.1 h)).1 this

theorem mem_volumesAt {env : Env F L} (hc : ContainsWithinExtent env) (hs : ShufflePerm env)
    (d : Data F) (p : Pt F) (id : Str) (v : Volume (Border F)) :
    (id, v) ∈ volumesAt env (buildTree d) p ↔
      (ControlledVolume d id v ∧ env.contains v.lateralBorder p = true) := by
  simp only [volumesAt, List.mem_filter, List.mem_map, (hs _).mem_iff, mem_buildTree]
  constructor
  · rintro ⟨⟨e, ⟨⟨he, hr⟩, _⟩, heq⟩, hcon⟩
    cases heq
    exact ⟨he, hcon⟩
  · rintro ⟨hv, hcon⟩
    have hw := hc _ _ hcon
    obtain ⟨⟨q, hq, _⟩, _⟩ := hw
    have hne : v.lateralBorder ≠ [] := List.ne_nil_of_mem hq
    obtain ⟨r, hr⟩ := Option.isSome_iff_exists.1 (boundingRect_isSome.2 hne)
    refine ⟨⟨⟨r, id, v⟩, ⟨⟨hv, hr⟩, ?_⟩, rfl⟩, hcon⟩
    exact (containsPoint_iff hr p).2 (hc _ _ hcon)

end Verif.SectorIndex
