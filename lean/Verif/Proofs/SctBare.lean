import Verif.Proofs.SctFile
/-!
# Files without comments and empty lines
-/

namespace Verif.Proofs.Sct
open Verif.Spec.Sct Verif.Parse Verif.Dms Verif.Spec
open Verif.Colours (Colour)

set_option linter.unusedSectionVars false

theorem nl_break : IsBreak c!"\n" := ⟨'\n', [], rfl, Or.inl rfl, .nil⟩
theorem nil_tail : IsTail [] := ⟨[], [], rfl, by simp [AreBlanks], Or.inl rfl⟩
theorem nil_headerTail : IsHeaderTail [] := ⟨nil_tail, by simp, by simp⟩

theorem ln_bare {A : Type} {valid : A → Prop} {l : Ln A} (h : l.Valid valid) : l.bare.Valid valid := ⟨nl_break, h.2.1, nil_tail⟩

theorem lns_bare {A : Type} {valid : A → Prop} {ls : List (Ln A)} (h : ∀ l ∈ ls, l.Valid valid) : ∀ l ∈ ls.map Ln.bare, l.Valid valid := by
  intro l hl
  obtain ⟨a, ha, rfl⟩ := List.mem_map.1 hl
  exact ln_bare (h a ha)

theorem lns_body {A : Type} (ls : List (Ln A)) : (ls.map Ln.bare).map (·.body) = ls.map (·.body) := by
  rw [List.map_map]; rfl

theorem tailed_bare {A : Type} {valid : A → Prop} {l : Tailed A} (h : l.Valid valid) : l.bare.Valid valid := ⟨h.1, nil_tail⟩

theorem region_bare {r : RegionText} (h : r.Valid) : r.bare.Valid := by
  obtain ⟨h1, h2, h3, h4, h5, h6, h7, h8, h9⟩ := h
  exact ⟨h1, h2, h3, nl_break, h5, h6, h7, nil_tail, lns_bare h9⟩

theorem drawing_bare {d : DrawingText} (h : d.Valid) : d.bare.Valid :=
  ⟨h.nonempty, h.chars, h.start, h.noColour, h.whole, h.noLine, h.gap, h.first, h.uniform, h.blanks, lns_bare h.more⟩

theorem block_bare {A : Type} {valid : A → Prop} {broken : Str → Prop} {f : A → A} (hf : ∀ a, valid a → valid (f a)) {b : Block A}
    (h : b.Valid valid broken) : (b.bare f).Valid valid broken := by
  refine ⟨nil_headerTail, fun l hl => ?_⟩
  obtain ⟨a, ha, rfl⟩ := List.mem_map.1 hl
  have := h.2 a ha
  cases a with
  | entry brk a => exact ⟨nl_break, hf _ this.2⟩
  | colour brk d t => exact ⟨nl_break, this.2.1, nil_tail⟩
  | broken brk s => exact ⟨nl_break, this.2⟩

theorem block_fits {A : Type} {fits : A → Prop} {f : A → A} (hf : ∀ a, fits (f a) ↔ fits a) (b : Block A) : (b.bare f).Fits fits ↔ b.Fits fits := by
  unfold Block.Fits Block.bare
  simp only [List.mem_map, forall_exists_index, and_imp, forall_apply_eq_imp_iff₂]
  refine forall_congr' fun l => imp_congr_right fun _ => ?_
  cases l with
  | entry brk a => exact hf a
  | colour brk d t => exact Iff.rfl
  | broken brk s => exact Iff.rfl

theorem block_colours {A : Type} (f : A → A) (b : Block A) : (b.bare f).colours = b.colours := by
  unfold Block.colours Block.bare
  rw [List.filterMap_map]
  congr 1
  funext l
  cases l <;> rfl

theorem block_entries {A : Type} (f : A → A) (b : Block A) : (b.bare f).entries = b.entries.map f := by
  unfold Block.entries Block.bare
  rw [List.filterMap_map, List.map_filterMap]
  congr 1
  funext l
  cases l <;> rfl

theorem info_bare [UnicodeTables] {i : InfoText} (h : i.Valid) : i.bare.Valid where
  tail := nil_headerTail
  before := lns_bare h.before
  brk := nl_break
  name := h.name
  callsign := ln_bare h.callsign
  airport := ln_bare h.airport
  lat := ln_bare h.lat
  lng := ln_bare h.lng
  milesLat := ln_bare h.milesLat
  milesLng := ln_bare h.milesLng
  variation := ln_bare h.variation
  scale := by
    intro l e
    obtain ⟨a, ha, rfl⟩ := Option.map_eq_some_iff.1 e
    exact ln_bare (h.scale a ha)
  after := lns_bare h.after

theorem bareInfo_colours (i : InfoText) : i.bare.colours = i.colours := by
  unfold InfoText.colours InfoText.bare
  rw [lns_body, lns_body]

theorem sect_bare [UnicodeTables] {s : Sect} (h : s.Valid) : s.bare.Valid := by
  cases s with
  | info i => exact info_bare h
  | runways b => exact block_bare (fun _ h => h) h
  | drawings k b => exact block_bare (valid := DrawingText.Valid) (f := DrawingText.bare) (fun _ h => drawing_bare h) h
  | regions c b => exact block_bare (valid := RegionText.Valid) (f := RegionText.bare) (fun _ h => region_bare h) h
  | _ => exact block_bare (f := Tailed.bare) (fun _ h => tailed_bare h) h

theorem sect_fits (s : Sect) : s.bare.Fits ↔ s.Fits := by
  cases s with
  | info i =>
    show (_ ∧ _ ∧ ∀ d ∈ i.bare.colours, d.Fits) ↔ (_ ∧ _ ∧ ∀ d ∈ i.colours, d.Fits)
    rw [bareInfo_colours]
    rfl
  | runways b => exact block_fits (fun _ => Iff.rfl) b
  | drawings k b => exact block_fits (fun d => by
      show (∀ l ∈ d.first :: (d.more.map Ln.bare).map (·.body), l.Fits) ↔ _
      rw [lns_body]; rfl) b
  | regions c b => exact block_fits (fun d => by
      show (∀ l ∈ d.first :: (d.more.map Ln.bare).map (·.body), l.Fits) ↔ _
      rw [lns_body]; rfl) b
  | _ => exact block_fits (f := Tailed.bare) (fun _ => Iff.rfl) _

theorem sect_colours (s : Sect) : s.bare.colours = s.colours := by
  cases s with
  | info i => exact bareInfo_colours i
  | _ => exact block_colours _ _

theorem file_bare [UnicodeTables] {f : File} (h : f.Valid) : f.bare.Valid where
  lead := nil_tail
  first := by
    intro b e
    refine Or.inl ?_
    have : b ∈ f.bare.breaks := List.mem_of_mem_head? e
    rcases List.mem_append.1 this with hb | hb
    · obtain ⟨l, hl, rfl⟩ := List.mem_map.1 hb
      obtain ⟨a, _, rfl⟩ := List.mem_map.1 hl
      exact nl_break
    · obtain ⟨l, hl, rfl⟩ := List.mem_map.1 hb
      obtain ⟨a, _, rfl⟩ := List.mem_map.1 hl
      exact nl_break
  breaks := by
    intro b e
    have : b ∈ f.bare.breaks := List.mem_of_mem_tail e
    rcases List.mem_append.1 this with hb | hb
    · obtain ⟨l, hl, rfl⟩ := List.mem_map.1 hb
      obtain ⟨a, _, rfl⟩ := List.mem_map.1 hl
      exact nl_break
    · obtain ⟨l, hl, rfl⟩ := List.mem_map.1 hb
      obtain ⟨a, _, rfl⟩ := List.mem_map.1 hl
      exact nl_break
  outer := by
    intro l hl
    obtain ⟨a, ha, rfl⟩ := List.mem_map.1 hl
    exact ⟨(h.outer a ha).1, nil_tail⟩
  sections := by
    intro s hs
    obtain ⟨a, ha, rfl⟩ := List.mem_map.1 hs
    exact sect_bare (h.sections a ha)
  last := Or.inr nl_break
  ended := by intro e; cases e

theorem file_fits (f : File) : f.bare.Fits ↔ f.Fits := by
  unfold File.Fits File.bare
  simp only [List.mem_map, forall_exists_index, and_imp, forall_apply_eq_imp_iff₂]
  refine and_congr Iff.rfl ?_
  constructor
  · intro h s hs
    exact (sect_fits s.2).1 (h s hs)
  · intro h s hs
    exact (sect_fits s.2).2 (h s hs)

theorem file_colours (f : File) : f.bare.colours = f.colours := by
  unfold File.colours File.bare
  rw [lns_body, List.flatMap_map]
  congr 1
  congr 1
  funext s
  exact sect_colours s.2

theorem lastOf_bare {A B : Type} (f : File) (p : Sect → Option A) (g : A → B) (b : A → A) (hp : ∀ s, p s.bare = (p s).map b) (hg : ∀ a, g (b a) = g a) :
    (f.bare.lastOf p).map g = (f.lastOf p).map g := by
  unfold File.lastOf
  rw [← List.getLast?_map, ← List.getLast?_map]
  congr 1
  unfold File.bare
  simp only [List.filterMap_map, List.map_filterMap]
  congr 1
  funext s
  show (p s.2.bare).map g = _
  rw [hp]
  cases p s.2 with
  | none => rfl
  | some a => exact congrArg some (hg a)

theorem entriesOf_bare {A B : Type} (f : File) (p : Sect → Option (Block A)) (v : A → B) (b : A → A) (hp : ∀ s, p s.bare = (p s).map (Block.bare b))
    (hv : ∀ a, v (b a) = v a) : (f.bare.entriesOf p).map v = (f.entriesOf p).map v := by
  have key := lastOf_bare f p (fun c => c.entries.map v) (Block.bare b) hp (by
    intro a
    rw [block_entries, List.map_map]
    congr 1
    funext x
    exact hv x)
  unfold File.entriesOf
  cases h1 : f.bare.lastOf p with
  | none => rw [h1] at key; cases h2 : f.lastOf p with
    | none => rfl
    | some y => rw [h2] at key; cases key
  | some x => rw [h1] at key; cases h2 : f.lastOf p with
    | none => rw [h2] at key; cases key
    | some y => rw [h2] at key; exact Option.some.inj key

section
variable {F : Type} [DmsArith F] [DecidableEq F] (num : Str → F)

theorem region_value (d : RegionText) : d.bare.value num = d.value num := by
  unfold RegionText.value RegionText.points RegionText.bare
  rw [lns_body]

theorem drawing_value (d : DrawingText) : d.bare.value num = d.value num := by
  unfold DrawingText.value DrawingText.lines DrawingText.bare
  rw [lns_body]

theorem value_bare (f : File) (cs : Map Str Colour) : f.bare.value num cs = f.value num cs := by
  unfold File.value
  congr 1
  · rw [lastOf_bare f _ (InfoText.value num) InfoText.bare (by each_section) (fun i => by
      unfold InfoText.value InfoText.bare
      cases i.scale <;> rfl)]
  · exact entriesOf_bare f _ _ Tailed.bare (by each_section) fun _ => rfl
  · exact entriesOf_bare f _ _ Tailed.bare (by each_section) fun _ => rfl
  · exact entriesOf_bare f _ _ Tailed.bare (by each_section) fun _ => rfl
  · exact entriesOf_bare f _ _ Tailed.bare (by each_section) fun _ => rfl
  · exact entriesOf_bare f _ _ id (by each_section) fun _ => rfl
  · exact entriesOf_bare f _ _ DrawingText.bare (by each_section) fun d => drawing_value num d
  · exact entriesOf_bare f _ _ DrawingText.bare (by each_section) fun d => drawing_value num d
  · exact entriesOf_bare f _ _ DrawingText.bare (by each_section) fun d => drawing_value num d
  · exact entriesOf_bare f _ _ DrawingText.bare (by each_section) fun d => drawing_value num d
  · exact entriesOf_bare f _ _ DrawingText.bare (by each_section) fun d => drawing_value num d
  · exact entriesOf_bare f _ _ Tailed.bare (by each_section) fun _ => rfl
  · exact entriesOf_bare f _ _ Tailed.bare (by each_section) fun _ => rfl
  · exact entriesOf_bare f _ _ RegionText.bare (by each_section) fun d => region_value num d
  · exact entriesOf_bare f _ _ Tailed.bare (by each_section) fun _ => rfl
  · exact entriesOf_bare f _ _ DrawingText.bare (by each_section) fun d => drawing_value num d
end

end Verif.Proofs.Sct
