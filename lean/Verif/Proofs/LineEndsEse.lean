import Verif.Proofs.LineEnds
import Verif.Parse.Ese
import Verif.Parse.Topsky
/-!
# Ese files, TopSky maps and TopSky symbols do not depend on the line ends
-/

namespace Verif.Proofs.LineEnds
open Verif.Peg Verif.Parse
open Verif.Spec (SameLines)

/-! ## Ese files -/
section

def eseBig : Big Ese.Rule :=
  ⟨fun r => match r with
    | .position_section | .sidsstars_section | .unparsed_section | .sectorline | .circle_sectorline
    | .display_sectorline | .sector | .cop | .fir_cop | .msaw => true
    | _ => false, fun r => r == .ese || r == .airspace_section, fun _ => false, fun _ => false, fun _ _ => true⟩

theorem ese_skip : EvenSkip eseBig true Ese.skip :=
  evenSkip_both (by decide) (by decide) (by decide) (by decide) (by decide) (by decide) (by decide) (by decide)

theorem ese_even [T : UnicodeTables] : even eseBig true Peg.Ese.ese .nonAtomic false = true := by
  rw [← clear_eq T]
  rfl

variable {F G : Type} [F64 F] [Dms.DmsArith F] [F64 G]

theorem ese_airspace (t t' : Tree Ese.Rule) (h : Alike eseBig t t') :
    Ese.parseAirspace (F := F) (G := G) t = Ese.parseAirspace t' := by
  cases h with
  | same => rfl
  | line => rfl
  | @box r _ _ _ _ h => cases r <;> first | rfl | cases h

theorem ese_section (t t' : Tree Ese.Rule) (h : Alike eseBig t t') :
    Ese.parseSection (F := F) G t = Ese.parseSection G t' := by
  cases h with
  | same => rfl
  | line => rfl
  | @box r s s' k k' h hk hh hl hs hp =>
    cases r
    case airspace_section =>
      simp only [Ese.parseSection, Tree.asRule_node, Tree.inner_node, hk.mapM ese_airspace]
    all_goals first | rfl | cases h

theorem ese_same [UnicodeTables] {s t : Str} (h : SameLines s t) :
    Ese.parse (F := F) G s = Ese.parse G t :=
  run_sameLines ese_skip ese_even
    (fun _ _ h => h.first (f := fun k => do
      let sections ← k.mapM (Ese.parseSection G)
      return Ese.assemble (Map.ofList sections)) fun _ _ h => by
        simp only [h.mapM ese_section]) h
end

/-! ## TopSky -/
section

def topskyBig : Big Topsky.Rule :=
  ⟨fun r => match r with
    | .moveto | .line | .fillarc | .fillarc_ellipse | .arc | .arc_ellipse | .ellipse
    | .ellipse_circle | .polygon | .pixel | .fillrect | .colourdef | .linestyledef | .override_sct | .sctfilepath
    | .mapline => true
    | _ => false,
   fun r => r == .symbol || r == .symboldef || r == .symbols || r == .maps || r == .map,
   fun r => r == .symbol || r == .symboldef || r == .map, fun _ => false, fun _ _ => true⟩

theorem topsky_skip : EvenSkip topskyBig true Topsky.skip :=
  evenSkip_one (by decide) (by decide) (by decide) (by decide)

theorem symbols_even : even topskyBig true Topsky.symbols .nonAtomic false = true := by decide

theorem maps_even : even topskyBig true Topsky.maps .nonAtomic false = true := by decide +kernel

variable {F G : Type} [F64 F] [SymbolRule.Close F]

theorem topsky_rule (t t' : Tree Topsky.Rule) (h : Alike topskyBig t t') :
    SymbolRule.parseRule (F := F) Topsky.kind t = SymbolRule.parseRule Topsky.kind t' := by
  cases h with
  | same => rfl
  | line => rfl
  | @box r _ _ _ _ h => cases r <;> first | rfl | cases h

/-- A name and something about the parts behind it. -/
theorem headed_name {A B : Type} {f : Tree Topsky.Rule → Run A} (hf : ∀ t t', Alike topskyBig t t' → f t = f t')
    {g : Str → List A → B} {k k' : List (Tree Topsky.Rule)} (hk : Alikes topskyBig k k') (hh : k.head? = k'.head?) :
    (do let (name, ts) ← Topsky.nextStr k; let l ← ts.mapM f; return g name l) =
      (do let (name, ts) ← Topsky.nextStr k'; let l ← ts.mapM f; return g name l) := by
  cases hk with
  | nil => rfl
  | cons ht hk =>
    simp only [List.head?_cons, Option.some.injEq] at hh
    subst hh
    simp only [Topsky.nextStr, next_cons]
    show (List.mapM f _ >>= _) = (List.mapM f _ >>= _)
    rw [hk.mapM hf]

theorem topsky_symbol (t t' : Tree Topsky.Rule) (h : Alike topskyBig t t') :
    Topsky.parseSymbol (F := F) t = Topsky.parseSymbol t' := by
  cases h with
  | same => rfl
  | line => rfl
  | @box r s s' k k' h hk hh hl hs hp =>
    cases r
    case symbol =>
      exact headed_name (g := fun name rules => some (⟨name, rules⟩ : Topsky.SymbolDef F))
        (topsky_rule (F := F)) hk (hh rfl)
    case symboldef =>
      exact headed_name (g := fun name rules => some (⟨name, rules⟩ : Topsky.SymbolDef F))
        (topsky_rule (F := F)) hk (hh rfl)
    all_goals first | rfl | cases h

theorem symbols_same {s t : Str} (h : SameLines s t) :
    Topsky.parseSymbols (F := F) s = Topsky.parseSymbols t :=
  run_sameLines topsky_skip symbols_even
    (fun _ _ h => h.first (f := fun k => do
      let found ← k.mapM Topsky.parseSymbol
      return Map.ofList ((found.filterMap id).map fun s => (s.name, s))) fun _ _ h => by
        simp only [h.mapM topsky_symbol]) h

variable [Dms.DmsArith F] [F64 G] [DecidableEq F]

omit [SymbolRule.Close F] in
theorem topsky_mapRule (upper : Str → Str) (t t' : Tree Topsky.Rule) (h : Alike topskyBig t t') :
    Topsky.parseMapRule (F := F) (G := G) upper t = Topsky.parseMapRule upper t' := by
  cases h with
  | same => rfl
  | line => rfl
  | @box r _ _ _ _ h => cases r <;> first | rfl | cases h

omit [SymbolRule.Close F] in
theorem topsky_map (upper : Str → Str) (t t' : Tree Topsky.Rule) (h : Alike topskyBig t t') :
    Topsky.parseMap (F := F) (G := G) upper t = Topsky.parseMap upper t' := by
  cases h with
  | same => rfl
  | line => rfl
  | @box r s s' k k' h hk hh hl hs hp =>
    cases r
    case map =>
      exact headed_name (g := fun name rules => some (⟨name, rules.filterMap id⟩ : Topsky.MapDef F G))
        (topsky_mapRule (F := F) (G := G) upper) hk (hh rfl)
    all_goals first | rfl | cases h

theorem topsky_definition (upper : Str → Str) (t t' : Tree Topsky.Rule) (h : Alike topskyBig t t') :
    Topsky.parseDefinition (F := F) (G := G) upper t = Topsky.parseDefinition upper t' := by
  cases h with
  | same => rfl
  | line => rfl
  | @box r s s' k k' h hk hh hl hs hp =>
    cases r
    case map => simp only [Topsky.parseDefinition, Tree.asRule_node, topsky_map upper _ _ (.box s s' h hk hh hl hs hp)]
    case symboldef => simp only [Topsky.parseDefinition, Tree.asRule_node, topsky_symbol _ _ (.box s s' h hk hh hl hs hp)]
    all_goals first | rfl | cases h

theorem maps_same (upper : Str → Str) {s t : Str} (h : SameLines s t) :
    Topsky.parseMaps (F := F) (G := G) upper s = Topsky.parseMaps upper t :=
  run_sameLines topsky_skip maps_even
    (fun _ _ h => h.first (f := fun k => do
      let found ← k.mapM (Topsky.parseDefinition upper)
      return (found.filterMap id).foldl Topsky.step ⟨[], [], [], [], []⟩) fun _ _ h => by
        simp only [h.mapM (topsky_definition upper)]) h

end

end Verif.Proofs.LineEnds
