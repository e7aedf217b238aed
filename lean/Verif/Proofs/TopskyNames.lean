import Verif.Proofs.Post
import Verif.Proofs.TopskyPanic
import Verif.Spec.Locations
import Verif.Model.Adaptation
/-!
# The fixes that the maps of TopSky refer to
-/

namespace Verif.Proofs.Topsky
open Verif.Proofs Verif.Peg Verif.Spec Verif.Parse.Topsky Verif.Parse
open Verif.Peg.Topsky (Rule skip)
open Verif.Parse.Sct (Loc)
open Verif.Locations.Spec (OnlyAsciiDigits)
open Verif.Dms (DmsArith)
open Verif.Parse.SymbolRule (Close)

set_option linter.unusedSectionVars false

variable [UnicodeTables] {F : Type} [F64 F] [DmsArith F] [DecidableEq F] [Close F] {G : Type} [F64 G] (upper : Str → Str)

/-- The text of a token has ASCII digits only. -/
abbrev Digits (t : Tree Rule) : Prop := OnlyAsciiDigits t.asStr

def Named (l : Loc F) : Prop := ∀ d, l = .fix d → OnlyAsciiDigits d

theorem location_named {t : Tree Rule} (h : All Digits t) : Post (Named (F := F)) (parseLocation t) := by
  unfold parseLocation
  split
  · exact Post.pure (by intro d hd; cases hd; exact h.here)
  · exact Post.bind Post.any fun p _ => Post.pure (by intro d hd; cases hd)
  · exact Post.error

theorem nextLocation_named {ts : List (Tree Rule)} (h : ∀ t ∈ ts, All Digits t) :
    Post (fun p => Named (F := F) p.1 ∧ ∀ t ∈ p.2, All Digits t) (nextLocation ts) :=
  Post.bind (Post.next h) fun _ hp => Post.bind (location_named hp.1) fun _ hl => Post.pure ⟨hl, hp.2⟩

theorem skipAlignment_digits {ts : List (Tree Rule)} (h : ∀ t ∈ ts, All Digits t) :
    Post (fun p => All Digits p.1 ∧ ∀ t ∈ p.2, All Digits t) (skipAlignment ts) := by
  refine Post.bind (Post.next h) ?_
  rintro ⟨t, ts⟩ hp
  dsimp only
  split
  · exact Post.next hp.2
  · exact Post.pure hp

/-- The locations of a rule -/
def locs : MapRule F G → List (Loc F)
  | .symbol s => [s.location]
  | .line l => l.flatten
  | .text t => [t.location]
  | .coord c => [c]
  | _ => []

theorem mem_converted (rules : List (MapRule F G)) : ∀ buffer, ∀ l ∈ Verif.Adaptation.converted rules buffer,
    l ∈ buffer ∨ ∃ r ∈ rules, l ∈ locs r := by
  induction rules with
  | nil => intro b l h; cases h
  | cons r rules ih =>
    intro b l h
    have lift : ∀ {b' : List (Loc F)}, (l ∈ b' ∨ ∃ r ∈ rules, l ∈ locs r) → (l ∈ b' ∨ ∃ x ∈ r :: rules, l ∈ locs x) := by
      rintro b' (h | ⟨x, hx, h⟩)
      · exact Or.inl h
      · exact Or.inr ⟨x, List.mem_cons_of_mem _ hx, h⟩
    cases r with
    | symbol s =>
      rcases List.mem_cons.1 h with rfl | h
      · exact Or.inr ⟨_, List.mem_cons_self, List.mem_singleton.2 rfl⟩
      · exact lift (ih _ l h)
    | text s =>
      rcases List.mem_cons.1 h with rfl | h
      · exact Or.inr ⟨_, List.mem_cons_self, List.mem_singleton.2 rfl⟩
      · exact lift (ih _ l h)
    | line s =>
      rcases List.mem_append.1 h with h | h
      · exact Or.inr ⟨_, List.mem_cons_self, h⟩
      · exact lift (ih _ l h)
    | coordPoly s =>
      rcases List.mem_append.1 h with h | h
      · exact Or.inl h
      · rcases lift (ih _ l h) with h | h
        · cases h
        · exact Or.inr h
    | coordLine =>
      rcases List.mem_append.1 h with h | h
      · exact Or.inl h
      · rcases lift (ih _ l h) with h | h
        · cases h
        · exact Or.inr h
    | coord c =>
      rcases lift (ih _ l h) with h | h
      · rcases List.mem_append.1 h with h | h
        · exact Or.inl h
        · exact Or.inr ⟨_, List.mem_cons_self, h⟩
      · exact Or.inr h
    | _ => exact lift (ih _ l h)

theorem rule_named {t : Tree Rule} (h : All Digits t) :
    Post (fun o : Option (MapRule F G) => ∀ r ∈ o, ∀ l ∈ locs r, Named l) (parseMapRule upper t) := by
  have hk := h.inner
  unfold parseMapRule
  split
  case h_7 =>
    refine Post.bind (P := fun s : MapSymbol F => Named s.location) ?_ fun s hs => Post.pure ?_
    · refine Post.bind (skipAlignment_digits hk) fun p hp => Post.bind (nextLocation_named hp.2) fun q hq => Post.bind Post.any fun _ _ =>
        Post.pure hq.1
    · intro r hr l hl
      cases hr
      rw [List.mem_singleton.1 hl]
      exact hs
  case h_11 =>
    refine Post.bind (P := fun s : List (List (Loc F)) => ∀ l ∈ s.flatten, Named l) ?_ fun s hs => Post.pure ?_
    · refine Post.bind (P := fun ls => ∀ l ∈ ls, Named l.1 ∧ Named l.2) ?_ fun g hg => Post.pure ?_
      · refine Post.mapM fun t ht => ?_
        exact Post.bind (nextLocation_named (hk t ht).inner) fun a ha => Post.bind (nextLocation_named ha.2) fun b hb => Post.pure ⟨ha.1, hb.1⟩
      · intro l hl
        obtain ⟨x, hx, rfl | rfl⟩ := mem_mergeLines hl
        · exact (hg x hx).1
        · exact (hg x hx).2
    · intro r hr l hl
      cases hr
      exact hs l hl
  case h_12 =>
    refine Post.bind (P := fun s : Text F => Named s.location) ?_ fun s hs => Post.pure ?_
    · exact Post.bind (skipAlignment_digits hk) fun p hp => Post.bind (location_named hp.1) fun q hq => Post.bind Post.any fun _ _ =>
        Post.pure hq
    · intro r hr l hl
      cases hr
      rw [List.mem_singleton.1 hl]
      exact hs
  case h_17 =>
    refine Post.bind (nextLocation_named hk) fun s hs => Post.pure ?_
    intro r hr l hl
    cases hr
    rw [List.mem_singleton.1 hl]
    exact hs.1
  all_goals first
    | exact Post.error
    | exact Post.pure (by intro r hr; cases hr; try (intro l hl; cases hl))
    | exact Post.bind Post.any fun _ _ => Post.pure (by intro r hr; cases hr; intro l hl; cases hl)
    | exact Post.bind Post.any fun _ _ => Post.bind Post.any fun _ _ => Post.pure (by intro r hr; cases hr; intro l hl; cases hl)

/-- All locations of a map -/
def MapNamed (d : MapDef F G) : Prop := ∀ r ∈ d.rules, ∀ l ∈ locs r, Named l

theorem map_named {t : Tree Rule} (h : All Digits t) :
    Post (fun o : Option (MapDef F G) => ∀ d ∈ o, MapNamed d) (parseMap upper t) := by
  unfold parseMap
  split
  · refine Post.bind (P := fun p => ∀ t ∈ p.2, All Digits t) ?_ fun p hp => ?_
    · exact Post.bind (Post.next h.inner) fun p hp => Post.pure hp.2
    · refine Post.bind (Post.mapM fun t ht => rule_named upper (hp t ht)) fun rs hr => Post.pure ?_
      intro d hd
      cases hd
      intro r hr'
      obtain ⟨o, ho, he⟩ := List.mem_filterMap.1 hr'
      exact hr o ho r he
  · exact Post.pure (by simp)
  · exact Post.error

theorem definition_named {t : Tree Rule} (h : All Digits t) :
    Post (fun o : Option (MapDefinition F G) => ∀ d, o = some (.map d) → MapNamed d) (parseDefinition upper t) := by
  unfold parseDefinition
  split
  · refine Post.bind (map_named upper h) fun o ho => Post.pure ?_
    intro d hd
    cases o with
    | none => cases hd
    | some x => cases hd; exact ho _ rfl
  all_goals first
    | exact Post.error
    | exact Post.pure (by intro d hd; cases hd)
    | exact Post.bind Post.any fun o _ => Post.pure (by intro d hd; cases o <;> cases hd)

theorem step_named {l : List (MapDefinition F G)} : ∀ (acc : Verif.Parse.Topsky.Maps F G), ∀ d ∈ (l.foldl step acc).maps, d ∈ acc.maps ∨ .map d ∈ l := by
  induction l with
  | nil => intro acc d h; exact Or.inl h
  | cons x l ih =>
    intro acc d h
    rcases ih _ d h with h | h
    · cases x with
      | map e =>
        rcases List.mem_append.1 h with h | h
        · exact Or.inl h
        · rw [List.mem_singleton.1 h]
          exact Or.inr List.mem_cons_self
      | _ => exact Or.inl h
    · exact Or.inr (List.mem_cons_of_mem _ h)

theorem maps_named {content : Str} (h : OnlyAsciiDigits content) :
    Post (fun m : Verif.Parse.Topsky.Maps F G => ∀ d ∈ m.maps, MapNamed d) (parseMaps upper content) := by
  rcases run_tok Peg.Topsky.maps rfl good.ok rfl rfl content with hr | ⟨kids, hr, ho⟩
  · simp only [parseMaps]
    rw [hr]
    exact Post.error
  · simp only [parseMaps]
    rw [hr]
    show Post _ (kids.mapM (parseDefinition upper) >>= fun found => .ok ((found.filterMap id).foldl step ⟨[], [], [], [], []⟩))
    have hc := out_chars _ _ _ _ _ ho h
    refine Post.bind (Post.mapM fun t ht => definition_named upper (hc t ht)) fun r hr => Post.pure ?_
    intro d hd
    rcases step_named _ d hd with h | h
    · cases h
    · obtain ⟨o, ho, he⟩ := List.mem_filterMap.1 h
      exact hr o ho d he

/-- If the text of the maps has ASCII digits only, so have the names of the fixes that are converted. -/
theorem parse_named {settings symbols content : Option Str} (h : ∀ c, content = some c → OnlyAsciiDigits c) (t : Topsky F G)
    (ht : Verif.Parse.Topsky.parse upper settings symbols content = .ok t) :
    ∀ d ∈ t.maps, ∀ l ∈ Verif.Adaptation.converted d.rules [], Named l := by
  intro d hd l hl
  have hm : MapNamed d := by
    unfold Verif.Parse.Topsky.parse at ht
    split at ht
    · cases ht
    · split at ht
      · cases ht
      · split at ht
        · cases ht
        · split at ht
          · cases ht
          · split at ht
            · cases ht
            · next hp =>
              cases ht
              exact maps_named upper (h _ rfl) _ hp d hd
  rcases mem_converted _ _ l hl with h | ⟨r, hr, h⟩
  · cases h
  · exact hm r hr l h

end Verif.Proofs.Topsky
