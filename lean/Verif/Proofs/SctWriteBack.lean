import Verif.Proofs.SctWriteFile
/-!
# What is read from a written file
-/

namespace Verif.Proofs.SctWrite
open Verif.Dms Verif.Parse Verif.Spec Verif.Spec.Sct Verif.Spec.SctWrite Verif.Model.SctWrite
open Verif.Colours (Colour toEuroscope)
open Verif.Peg
open Verif.Parse.Sct (Loc Airport Airway Fix Navaid Runway Region Label Drawing Info storeColour entries parseSection parseSections infoStep infoLine
  parseInfoSection)

/-! ## The colours have different names -/

section
variable {F : Type} [F64 F] [DmsArith F]

theorem store_nodup {colours c : Map Str Colour} {pair : Tree Peg.Sct.Rule} (hn : colours.keys.Nodup) (h : storeColour colours pair = .ok c) : c.keys.Nodup := by
  unfold storeColour at h
  cases hd : Parse.Sct.parseColourDefinition pair with
  | error e => rw [hd] at h; cases h
  | ok d =>
    rw [hd] at h
    cases d with
    | none => injection h with h; exact h ▸ hn
    | some d =>
      obtain ⟨n, x⟩ := d
      injection h with h
      rw [← h]
      exact Map.nodup_insert hn _ _

theorem entries_nodup {A : Type} (f : Tree Peg.Sct.Rule → Run (Option A)) (l : List (Tree Peg.Sct.Rule)) {colours : Map Str Colour} {r : List A × Map Str Colour}
    (hn : colours.keys.Nodup) (h : entries f colours l = .ok r) : r.2.keys.Nodup := by
  induction l generalizing colours r with
  | nil => injection h with h; exact h ▸ hn
  | cons p l ih =>
    unfold entries at h
    split at h
    · cases hs : storeColour colours p with
      | error e => rw [hs] at h; cases h
      | ok c => rw [hs] at h; exact ih (store_nodup hn hs) h
    · cases ha : f p with
      | error e => rw [ha] at h; cases h
      | ok a =>
        rw [ha] at h
        cases he : entries f colours l with
        | error e =>
          simp only [he, bind, Except.bind] at h
          cases h
        | ok q =>
          simp only [he, bind, Except.bind] at h
          injection h with h
          rw [← h]
          exact ih (r := q) hn he

omit [DmsArith F] in
theorem infoLine_colours [DmsArith F] {s t : Parse.Sct.InfoState F} {p : Tree Peg.Sct.Rule} (h : infoLine s p = .ok t) : t.colours = s.colours := by
  have key : ∀ {A : Type} (r : Run A) (k : A → Parse.Sct.InfoState F), (∀ a, (k a).colours = s.colours) → (do let v ← r; pure (k v)) = Except.ok t → t.colours = s.colours := by
    intro A r k hk hr
    cases r with
    | error e => cases hr
    | ok a =>
      injection hr with hr
      rw [← hr]
      exact hk a
  unfold infoLine at h
  split at h
  · injection h with h; rw [← h]
  · injection h with h; rw [← h]
  · injection h with h; rw [← h]
  · exact key _ (fun y => { s with y }) (fun _ => rfl) h
  · exact key _ (fun x => { s with info := { s.info with centrePoint := fromDegMinSec s.y x } }) (fun _ => rfl) h
  · exact key _ (fun v => { s with info := { s.info with milesPerDegLat := v } }) (fun _ => rfl) h
  · exact key _ (fun v => { s with info := { s.info with milesPerDegLng := v } }) (fun _ => rfl) h
  · exact key _ (fun v => { s with info := { s.info with magneticVariation := v } }) (fun _ => rfl) h
  · exact key _ (fun v => { s with info := { s.info with scaleFactor := v } }) (fun _ => rfl) h
  · cases h

theorem infoStep_nodup {s t : Parse.Sct.InfoState F} {p : Tree Peg.Sct.Rule} (hn : s.colours.keys.Nodup) (h : infoStep s p = .ok t) : t.colours.keys.Nodup := by
  unfold infoStep at h
  split at h
  · cases hs : storeColour s.colours p with
    | error e => rw [hs] at h; cases h
    | ok c =>
      rw [hs] at h
      injection h with h
      rw [← h]
      exact store_nodup hn hs
  · cases hs : infoLine s p with
    | error e => rw [hs] at h; cases h
    | ok c =>
      rw [hs] at h
      injection h with h
      rw [← h]
      show c.colours.keys.Nodup
      rw [infoLine_colours hs]
      exact hn

theorem infoFold_nodup (l : List (Tree Peg.Sct.Rule)) {s t : Parse.Sct.InfoState F} (hn : s.colours.keys.Nodup) (h : l.foldlM infoStep s = .ok t) :
    t.colours.keys.Nodup := by
  induction l generalizing s with
  | nil => injection h with h; exact h ▸ hn
  | cons p l ih =>
    rw [List.foldlM_cons] at h
    cases hs : infoStep s p with
    | error e => rw [hs] at h; cases h
    | ok c => rw [hs] at h; exact ih (infoStep_nodup hn hs) h

variable [DecidableEq F]

theorem section_nodup {p : Tree Peg.Sct.Rule} {colours : Map Str Colour} {r : (Parse.Sct.SectionName × Parse.Sct.Section F) × Map Str Colour}
    (hn : colours.keys.Nodup) (h : parseSection p colours = .ok r) : r.2.keys.Nodup := by
  have list : ∀ {A : Type} (f : Tree Peg.Sct.Rule → Run (Option A)) (name : Parse.Sct.SectionName) (mk : List A → Parse.Sct.Section F),
      (do let (l, colours) ← entries f colours p.inner; return ((name, mk l), colours)) = Except.ok r → r.2.keys.Nodup := by
    intro A f name mk hr
    cases he : entries f colours p.inner with
    | error e => rw [he] at hr; cases hr
    | ok q =>
      rw [he] at hr
      injection hr with hr
      rw [← hr]
      exact entries_nodup f _ hn he
  unfold parseSection at h
  split at h
  · cases hi : parseInfoSection (F := F) p colours with
    | error e => rw [hi] at h; cases h
    | ok q =>
      rw [hi] at h
      injection h with h
      rw [← h]
      unfold parseInfoSection at hi
      cases hf : p.inner.foldlM infoStep (⟨Parse.Sct.Info.default F, 0, { sign := .pos, deg := 0, min := 0, sec := Parse.Sct.zero F }, colours⟩ : Parse.Sct.InfoState F) with
      | error e => rw [hf] at hi; cases hi
      | ok t =>
        rw [hf] at hi
        injection hi with hi
        rw [← hi]
        exact infoFold_nodup _ hn hf
  all_goals first
    | exact list _ _ _ h
    | (injection h with h; rw [← h]; exact hn)

theorem sections_nodup (l : List (Tree Peg.Sct.Rule)) {colours : Map Str Colour} {r : List (Parse.Sct.SectionName × Parse.Sct.Section F) × Map Str Colour}
    (hn : colours.keys.Nodup) (h : parseSections colours l = .ok r) : r.2.keys.Nodup := by
  induction l generalizing colours r with
  | nil => injection h with h; exact h ▸ hn
  | cons p l ih =>
    unfold parseSections at h
    split at h
    · cases hs : storeColour colours p with
      | error e => rw [hs] at h; cases h
      | ok c => rw [hs] at h; exact ih (store_nodup hn hs) h
    · cases ha : parseSection (F := F) p colours with
      | error e => rw [ha] at h; cases h
      | ok a =>
        rw [ha] at h
        cases he : parseSections (F := F) a.2 l with
        | error e =>
          simp only [he, bind, Except.bind] at h
          cases h
        | ok q =>
          simp only [he, bind, Except.bind] at h
          injection h with h
          rw [← h]
          exact ih (r := q) (section_nodup hn ha) he

/-- The names of the colours of a file that is read are different. -/
theorem parse_nodup [UnicodeTables] {content : Str} {t : Parse.Sct.Sct F} (h : Parse.Sct.parse content = .ok t) : t.colours.keys.Nodup := by
  unfold Parse.Sct.parse at h
  cases h1 : run Peg.Sct.skip Peg.Sct.sct content with
  | error e => rw [h1] at h; cases h
  | ok ps =>
    rw [h1] at h
    cases h2 : next ps with
    | error e => simp only [h2, bind, Except.bind] at h; cases h
    | ok p =>
      simp only [h2, bind, Except.bind] at h
      cases h3 : parseSections (F := F) [] p.1.inner with
      | error e => rw [h3] at h; cases h
      | ok q =>
        rw [h3] at h
        injection h with h
        rw [← h]
        exact sections_nodup (colours := []) _ List.nodup_nil h3
end

/-! ## Coordinates that do not change -/

section
variable {F : Type} {re : Bool → F → F}

theorem map_of_fixed {A : Type} {f : A → A} {l : List A} (h : ∀ a ∈ l, f a = a) : l.map f = l := by
  induction l with
  | nil => rfl
  | cons a l ih => rw [List.map_cons, h a List.mem_cons_self, ih fun b hb => h b (List.mem_cons_of_mem _ hb)]

theorem sorted_map_fixed {A : Type} {f : A → A} {key : A → Str} {l : List A} (h : ∀ a ∈ l, f a = a) : (sortBy key l).map f = sortBy key l :=
  map_of_fixed fun a ha => h a ((sortBy_perm key l).mem_iff.1 ha)

theorem reLoc_fixed {l : Loc F} (h : ∀ p ∈ locPoints l, rePoint re p = p) : reLoc re l = l := by
  cases l with
  | fix n => rfl
  | coordinate p => exact congrArg Loc.coordinate (h p List.mem_cons_self)

theorem mem_pairs {A : Type} {l : List A} {x : A × A} (h : x ∈ pairs l) : x.1 ∈ l ∧ x.2 ∈ l := by
  obtain ⟨a, b⟩ := x
  have := List.of_mem_zip h
  exact ⟨this.1, List.mem_of_mem_tail this.2⟩

theorem reDrawing_fixed [DecidableEq F] {d : Drawing F} (hd : IsDrawing d) (hm : Merged d)
    (h : ∀ g ∈ d.lineGroups, ∀ l ∈ g.lines, ∀ x ∈ l, reLoc re x = x) : reDrawing re d = d := by
  have e : (d.lineGroups.flatMap segments).map (reSegment re) = d.lineGroups.flatMap segments := by
    refine map_of_fixed fun s hs => ?_
    obtain ⟨g, hg, hs⟩ := List.mem_flatMap.1 hs
    obtain ⟨x, hx, rfl⟩ := List.mem_map.1 hs
    obtain ⟨l, hl, hx⟩ := List.mem_flatMap.1 hx
    obtain ⟨h1, h2⟩ := mem_pairs hx
    unfold reSegment
    simp only
    rw [h g hg l hl _ h1, h g hg l hl _ h2]
  unfold reDrawing
  have : (groupSegs : Lines.Group (Loc F) → _) = segments := funext groupSegs_segments
  rw [e, ← this, groups_back hd hm]

/-- The file with sorted entries. -/
def sorted (P : Printer F) (s : Parse.Sct.Sct F) (colours : Map Str Colour) : Parse.Sct.Sct F where
  info := s.info
  colours := colours
  airports := sortBy (airport P) s.airports
  fixes := sortBy (fix P) s.fixes
  ndbs := sortBy (navaid P) s.ndbs
  vors := sortBy (navaid P) s.vors
  runways := sortBy (·.aerodrome) s.runways
  sids := sortBy (·.name) s.sids
  stars := sortBy (·.name) s.stars
  artccsHigh := sortBy (·.name) s.artccsHigh
  artccs := sortBy (·.name) s.artccs
  artccsLow := sortBy (·.name) s.artccsLow
  highAirways := sortBy (·.designator) s.highAirways
  lowAirways := sortBy (·.designator) s.lowAirways
  regions := sortBy (·.name) s.regions
  labels := sortBy (·.name) s.labels
  geo := sortBy (·.name) s.geo

theorem result_fixed [UnicodeTables] [DecidableEq F] {P : Printer F} {s : Parse.Sct.Sct F} (h : Writable s) (hm : ∀ d ∈ SctWrite.drawings s, Merged d)
    (hp : ∀ p ∈ points s, rePoint re p = p) (colours : Map Str Colour) : result P re s colours = sorted P s colours := by
  have dr : ∀ d ∈ SctWrite.drawings s, IsDrawing d → reDrawing re d = d := fun d hd hi => by
    refine reDrawing_fixed hi (hm d hd) fun g hg l hl x hx => reLoc_fixed fun p hx' => hp p ?_
    simp only [points, List.mem_append]
    refine Or.inl (Or.inl (Or.inl (Or.inr ?_)))
    exact List.mem_flatMap.2 ⟨d, hd, List.mem_flatMap.2 ⟨g, hg, List.mem_flatMap.2 ⟨l, hl, List.mem_flatMap.2 ⟨x, hx, hx'⟩⟩⟩⟩
  unfold result sorted
  congr 1
  · show Info.mk .. = _
    rw [hp s.info.centrePoint (by simp [points])]
  · refine sorted_map_fixed fun a ha => ?_
    unfold reAirport
    rw [hp a.coordinate (by simp only [points, List.mem_append, List.mem_map]; exact Or.inl (Or.inl (Or.inl (Or.inl (Or.inl (Or.inr ⟨a, ha, rfl⟩))))))]
  · refine sorted_map_fixed fun a ha => ?_
    unfold reFix
    rw [hp a.coordinate (by simp only [points, List.mem_append, List.mem_map]; exact Or.inl (Or.inl (Or.inl (Or.inl (Or.inl (Or.inl (Or.inr ⟨a, ha, rfl⟩)))))))]
  · refine sorted_map_fixed fun a ha => ?_
    unfold reNavaid
    rw [hp a.coordinate (by simp only [points, List.mem_append, List.mem_map]; exact Or.inl (Or.inl (Or.inl (Or.inl (Or.inl (Or.inl (Or.inl (Or.inr ⟨a, ha, rfl⟩))))))))]
  · refine sorted_map_fixed fun a ha => ?_
    unfold reNavaid
    rw [hp a.coordinate (by
      simp only [points, List.mem_append, List.mem_map]; exact Or.inl (Or.inl (Or.inl (Or.inl (Or.inl (Or.inl (Or.inl (Or.inl (Or.inr ⟨a, ha, rfl⟩)))))))))]
  · refine sorted_map_fixed fun a ha => ?_
    unfold reRunway
    have := fun p (hx : p ∈ [a.location.1, a.location.2]) => hp p (by
      simp only [points, List.mem_append, List.mem_flatMap]; exact Or.inl (Or.inl (Or.inl (Or.inl (Or.inr ⟨a, ha, hx⟩)))))
    rw [this a.location.1 (by simp), this a.location.2 (by simp)]
  · exact sorted_map_fixed fun d hd => dr d (by simp [SctWrite.drawings, hd]) (h.sids d hd)
  · exact sorted_map_fixed fun d hd => dr d (by simp [SctWrite.drawings, hd]) (h.stars d hd)
  · exact sorted_map_fixed fun d hd => dr d (by simp [SctWrite.drawings, hd]) (h.artccsHigh d hd)
  · exact sorted_map_fixed fun d hd => dr d (by simp [SctWrite.drawings, hd]) (h.artccs d hd)
  · exact sorted_map_fixed fun d hd => dr d (by simp [SctWrite.drawings, hd]) (h.artccsLow d hd)
  · refine sorted_map_fixed fun a ha => ?_
    have := fun p (hx : p ∈ locPoints a.start ++ locPoints a.stop) => hp p (by
      simp only [points, List.mem_append, List.mem_flatMap]
      exact Or.inl (Or.inl (Or.inr ⟨a, Or.inl ha, List.mem_append.1 hx⟩)))
    unfold reAirway
    rw [reLoc_fixed fun p hx => this p (List.mem_append_left _ hx), reLoc_fixed fun p hx => this p (List.mem_append_right _ hx)]
  · refine sorted_map_fixed fun a ha => ?_
    have := fun p (hx : p ∈ locPoints a.start ++ locPoints a.stop) => hp p (by
      simp only [points, List.mem_append, List.mem_flatMap]
      exact Or.inl (Or.inl (Or.inr ⟨a, Or.inr ha, List.mem_append.1 hx⟩)))
    unfold reAirway
    rw [reLoc_fixed fun p hx => this p (List.mem_append_left _ hx), reLoc_fixed fun p hx => this p (List.mem_append_right _ hx)]
  · refine sorted_map_fixed fun a ha => ?_
    unfold reRegion
    rw [map_of_fixed fun p hx => hp p (by simp only [points, List.mem_append, List.mem_flatMap]; exact Or.inl (Or.inr ⟨a, ha, hx⟩))]
  · refine sorted_map_fixed fun a ha => ?_
    unfold reLabel
    rw [reLoc_fixed fun p hx => hp p (by simp only [points, List.mem_append, List.mem_flatMap]; exact Or.inr ⟨a, ha, hx⟩)]
  · exact sorted_map_fixed fun d hd => dr d (by simp [SctWrite.drawings, hd]) (h.geo d hd)

/-! ## Writing again -/

theorem nodup_of_keys {A B : Type} {f : A → B} {l : List A} (h : (l.map f).Nodup) : l.Nodup := by
  rw [List.Nodup, List.pairwise_map] at h
  exact h.imp fun hne e => hne (congrArg f e)

theorem colours_perm {m m' : Map Str Colour} (hn : m.keys.Nodup) (hn' : m'.keys.Nodup)
    (h : ∀ n, m'.get? n = (m.get? n).map fun c => { c with a := 255 }) : (m'.map colour).Perm (m.map colour) := by
  have e : m.map colour = (m.map fun e => (e.1, ({ e.2 with a := 255 } : Colour))).map colour := by
    rw [List.map_map]; rfl
  rw [e]
  refine List.Perm.map _ ?_
  have n1 : m'.Nodup := nodup_of_keys (f := fun e : Str × Colour => e.1) hn'
  have n2 : (m.map fun e => (e.1, ({ e.2 with a := 255 } : Colour))).Nodup := by
    refine nodup_of_keys (f := fun e : Str × Colour => e.1) ?_
    rw [List.map_map]
    exact hn
  rw [List.perm_ext_iff_of_nodup n1 n2]
  rintro ⟨k, c⟩
  rw [Map.mem_iff_get? hn', h k, List.mem_map]
  constructor
  · intro hx
    cases hg : m.get? k with
    | none => rw [hg] at hx; cases hx
    | some c' =>
      rw [hg] at hx
      refine ⟨(k, c'), Map.mem_of_get? hg, ?_⟩
      injection hx with hx
      rw [← hx]
  · rintro ⟨⟨k', c'⟩, hm, hx⟩
    injection hx with h1 h2
    simp only at h1 h2
    subst h1
    rw [Map.get?_of_mem hn hm]
    exact congrArg some h2

theorem write_sorted {P : Printer F} {s : Parse.Sct.Sct F} {m : Map Str Colour} (hn : s.colours.keys.Nodup) (hn' : m.keys.Nodup)
    (h : ∀ n, m.get? n = (s.colours.get? n).map fun c => { c with a := 255 }) : write P (sorted P s m) = write P s := by
  have ec := sortBy_of_perm (colours_perm hn hn' h)
  have e1 := fun l : List (Navaid F) => sortBy_of_perm ((sortBy_perm (navaid P) l).map (navaid P))
  have e2 := fun l : List (Fix F) => sortBy_of_perm ((sortBy_perm (fix P) l).map (fix P))
  have e3 := fun l : List (Airport F) => sortBy_of_perm ((sortBy_perm (airport P) l).map (airport P))
  unfold write
  simp only [sorted, vors, ndbs, fixes, airports, runways, Model.SctWrite.drawings, regions, labels, airways, ec, e1, e2, e3, sortBy_idem]
end

end Verif.Proofs.SctWrite
