import Verif.Proofs.Post
/-!
# The keys of the tables that the parsers make are distinct
-/

namespace Verif.Proofs
open Verif.Peg
open Verif.Colours (Colour)
open Verif.Parse.SymbolRule (Close)

theorem Post.foldlM {A B : Type} {P : B → Prop} {f : B → A → Run B} (hf : ∀ b a, P b → Post P (f b a)) :
    ∀ (l : List A) (b : B), P b → Post P (l.foldlM f b)
  | [], _, h => Post.pure h
  | a :: l, b, h => by
    rw [List.foldlM_cons]
    exact Post.bind (hf b a h) fun c hc => Post.foldlM hf l c hc

section
open Verif.Parse.Sct
variable {F : Type} [F64 F] [Dms.DmsArith F]

theorem storeColour_nodup {m : Map Str Colour} (h : m.keys.Nodup) (t : Tree Peg.Sct.Rule) : Post (fun m => m.keys.Nodup) (storeColour m t) := by
  unfold storeColour
  refine Post.bind Post.any fun d _ => ?_
  cases d with
  | none => exact Post.pure h
  | some d => exact Post.pure (Map.nodup_insert h _ _)

theorem infoLine_colours {s : InfoState F} (t : Tree Peg.Sct.Rule) : Post (fun r => r.colours = s.colours) (infoLine s t) := by
  unfold infoLine
  split
  all_goals first
    | exact Post.pure rfl
    | exact Post.error
    | exact Post.bind Post.any fun _ _ => Post.pure rfl

theorem info_nodup {m : Map Str Colour} (h : m.keys.Nodup) (t : Tree Peg.Sct.Rule) :
    Post (fun r => r.2.keys.Nodup) (parseInfoSection (F := F) t m) := by
  unfold parseInfoSection
  refine Post.bind (P := fun s => s.colours.keys.Nodup) ?_ fun s hs => Post.pure hs
  refine Post.foldlM (fun s t hs => ?_) _ _ h
  unfold infoStep
  split
  · exact Post.bind (storeColour_nodup hs _) fun m hm => Post.pure hm
  · refine Post.bind (infoLine_colours _) fun r hr => Post.pure ?_
    show r.colours.keys.Nodup
    rw [hr]; exact hs

theorem entries_nodup {A : Type} (f : Tree Peg.Sct.Rule → Run (Option A)) : ∀ (l : List (Tree Peg.Sct.Rule)) {m : Map Str Colour},
    m.keys.Nodup → Post (fun r => r.2.keys.Nodup) (entries f m l)
  | [], _, h => Post.pure h
  | t :: l, m, h => by
    unfold entries
    split
    · exact Post.bind (storeColour_nodup h _) fun m hm => entries_nodup f l hm
    · exact Post.bind Post.any fun _ _ => Post.bind (entries_nodup f l h) fun r hr => Post.pure hr

variable [DecidableEq F]

theorem section_nodup {m : Map Str Colour} (h : m.keys.Nodup) (t : Tree Peg.Sct.Rule) :
    Post (fun r => r.2.keys.Nodup) (parseSection (F := F) t m) := by
  unfold parseSection
  dsimp only
  split
  · exact Post.bind (info_nodup h _) fun r hr => Post.pure hr
  all_goals first
    | exact Post.bind (entries_nodup _ _ h) fun r hr => Post.pure hr
    | exact Post.pure h

theorem sections_nodup : ∀ (l : List (Tree Peg.Sct.Rule)) {m : Map Str Colour},
    m.keys.Nodup → Post (fun r => r.2.keys.Nodup) (parseSections (F := F) m l)
  | [], _, h => Post.pure h
  | t :: l, m, h => by
    unfold parseSections
    split
    · exact Post.bind (storeColour_nodup h _) fun m hm => sections_nodup l hm
    · exact Post.bind (section_nodup h _) fun r hr => Post.bind (sections_nodup l hr) fun r hr => Post.pure hr

/-- The colours of a sector file have distinct names. -/
theorem sct_colours_nodup [UnicodeTables] {s : Str} {sct : Sct F} (h : Parse.Sct.parse s = .ok sct) : sct.colours.keys.Nodup := by
  suffices Post (fun r : Sct F => r.colours.keys.Nodup) (Parse.Sct.parse s) from this _ h
  unfold Parse.Sct.parse
  refine Post.bind Post.any fun _ _ => Post.bind Post.any fun _ _ => Post.bind (sections_nodup _ (by simp [Map.keys])) fun r hr => ?_
  exact Post.pure hr

end

section
open Verif.Parse.Topsky
variable {F G : Type} [F64 F] [F64 G] [DecidableEq F] [Close F]

theorem settings_colours_nodup {s : Str} : Post (fun r => r.1.keys.Nodup) (Parse.TopskySettings.parse s) := by
  unfold Parse.TopskySettings.parse
  refine Post.bind Post.any fun _ _ => Post.bind Post.any fun _ _ => Post.bind Post.any fun l _ => Post.pure ?_
  generalize l.filterMap id = l
  have : ∀ (l : List Parse.TopskySettings.Setting) (acc : Map Str Parse.TopskySettings.ColourDef × Map Str Str), acc.1.keys.Nodup →
      (l.foldl Parse.TopskySettings.step acc).1.keys.Nodup := by
    intro l
    induction l with
    | nil => exact fun _ h => h
    | cons x l ih =>
      intro acc h
      refine ih _ ?_
      unfold Parse.TopskySettings.step
      split
      · exact Map.nodup_insert h _ _
      · exact h
  exact this l _ (by simp [Map.keys])

theorem extend_nodup {V : Type} {m new : Map Str V} (h : m.keys.Nodup) : (extend m new).keys.Nodup := by
  unfold extend
  exact Map.nodup_foldl_insert new (·.1) (·.2) m h

/-- The colours of TopSky have distinct names. -/
theorem topsky_colours_nodup [Dms.DmsArith F] [UnicodeTables] {upper : Str → Str} {a b c : Option Str} {t : Topsky F G}
    (h : Parse.Topsky.parse upper a b c = .ok t) : t.colours.keys.Nodup := by
  unfold Parse.Topsky.parse at h
  repeat' split at h
  all_goals first
    | cases h; done
    | skip
  rename_i hs _ _ _ _ _ _ _ _
  cases h
  exact extend_nodup (settings_colours_nodup _ hs)

end

section
open Verif.Parse.Icao

theorem airports_nodup [UnicodeTables] {s : Str} {m : Map Str IcaoAirport} (h : parseAirports s = .ok m) : m.keys.Nodup := by
  suffices Post (fun m => m.keys.Nodup) (parseAirports s) from this _ h
  unfold parseAirports
  refine Post.bind Post.any fun _ _ => Post.bind Post.any fun _ _ => Post.foldlM (fun m t hm => ?_) _ _ (by simp [Map.keys])
  unfold stepAirport
  split
  · exact Post.bind Post.any fun _ _ => Post.bind Post.any fun _ _ => Post.bind Post.any fun _ _ =>
      Post.pure (Map.nodup_insertIfNew hm _ _)
  · exact Post.pure hm

theorem navdata_nodup [UnicodeTables] {F : Type} [F64 F] {s : Str} {m : Map Str (NavdataAirport F)} (h : parseNavdataAirports s = .ok m) :
    m.keys.Nodup := by
  suffices Post (fun m => m.keys.Nodup) (parseNavdataAirports (F := F) s) from this _ h
  unfold parseNavdataAirports
  refine Post.bind Post.any fun _ _ => Post.bind Post.any fun _ _ => Post.foldlM (fun m t hm => ?_) _ _ (by simp [Map.keys])
  unfold stepNavdata
  split
  · exact Post.bind Post.any fun _ _ => Post.bind Post.any fun _ _ => Post.bind Post.any fun _ _ => Post.bind Post.any fun _ _ =>
      Post.bind Post.any fun _ _ => Post.bind Post.any fun _ _ => Post.pure (Map.nodup_insertIfNew hm _ _)
  · exact Post.pure hm

end
end Verif.Proofs
