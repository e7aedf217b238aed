import Verif.Proofs.Ends
import Verif.Proofs.MapFolders
import Verif.Proofs.SctItems
import Verif.Props.Airway
import Verif.Props.Icao
import Verif.Props.Polygon
import Verif.Props.ReorderedMore
import Verif.Spec.AdaptationLoad
/-!
# Loading ends

The steps of loading a profile have no outcome `diverge`.
-/

namespace Verif.Proofs.EndsLoad
open Verif.Proofs Verif.Adaptation
open Verif.PrfPaths (Prf Path)
open Verif.Display (F32Ops)
open Verif.Dms (DmsArith)
open Verif.Parse.SymbolRule (Close)
open Verif.Locations (FloatOps Db Point)
open Verif.Colours (Colour)

set_option linter.unusedSectionVars false

theorem ends_of_ok {A : Type} {r : Run A} (h : ∃ a, r = .ok a) : Ends r := by
  obtain ⟨a, h⟩ := h
  rw [h]
  exact ends_ok a

/-! ## Paths -/

theorem joinSettingsPath (prf : Prf) (s : Str) : Ends (PrfPaths.joinSettingsPath prf s) := by unfold PrfPaths.joinSettingsPath; dsimp only; ends
macro_rules | `(tactic| ends1) => `(tactic| with_reducible apply Verif.Proofs.EndsLoad.joinSettingsPath)
theorem setting (prf : Prf) (s : Str) : Ends (PrfPaths.setting prf s) := ends_unwrap _
macro_rules | `(tactic| ends1) => `(tactic| with_reducible apply Verif.Proofs.EndsLoad.setting)

theorem findFile (prf : Prf) (name : Str) (l : List ((Str × Str) × Str)) : Ends (PrfPaths.findFile prf name l) := by
  induction l with
  | nil => exact ends_ok _
  | cons e l ih =>
    unfold PrfPaths.findFile
    refine ends_bind (joinSettingsPath ..) fun p => ?_
    split
    · ends
    · exact ih

theorem recentPaths (prf : Prf) (l : List Nat) : Ends (Display.recentPaths prf l) := by
  induction l with
  | nil => exact ends_ok _
  | cons i l ih =>
    unfold Display.recentPaths
    refine ends_bind ?_ fun p => ends_bind ih fun _ => ends_ok _
    unfold PrfPaths.recentPath
    ends

/-! ## Locations -/

section
variable {F : Type} [FloatOps F] [UnicodeTables]

theorem parseF64 (s : Str) : Ends (Locations.parseF64 (F := F) s) := by unfold Locations.parseF64; ends
macro_rules | `(tactic| ends1) => `(tactic| with_reducible apply Verif.Proofs.EndsLoad.parseF64)
theorem parseSlice (s : Str) (a b : Nat) : Ends (Locations.parseSlice (F := F) s a b) := by unfold Locations.parseSlice; ends
macro_rules | `(tactic| ends1) => `(tactic| with_reducible apply Verif.Proofs.EndsLoad.parseSlice)
theorem latValue (s : Str) : Ends (Locations.latValue (F := F) s) := by unfold Locations.latValue; ends
theorem lngValue (s : Str) : Ends (Locations.lngValue (F := F) s) := by unfold Locations.lngValue; ends
macro_rules | `(tactic| ends1) => `(tactic| with_reducible apply Verif.Proofs.EndsLoad.latValue)
macro_rules | `(tactic| ends1) => `(tactic| with_reducible apply Verif.Proofs.EndsLoad.lngValue)
theorem convertCoordinate (s : Str) : Ends (Locations.convertCoordinate (F := F) s) := by unfold Locations.convertCoordinate; ends
theorem convertRangeBearing (db : Db F) (s : Str) : Ends (db.convertRangeBearing s) := by unfold Locations.Db.convertRangeBearing; ends
macro_rules | `(tactic| ends1) => `(tactic| with_reducible apply Verif.Proofs.EndsLoad.convertCoordinate)
macro_rules | `(tactic| ends1) => `(tactic| with_reducible apply Verif.Proofs.EndsLoad.convertRangeBearing)
theorem convertDesignator (db : Db F) (s : Str) : Ends (db.convertDesignator s) := by unfold Locations.Db.convertDesignator; ends
macro_rules | `(tactic| ends1) => `(tactic| with_reducible apply Verif.Proofs.EndsLoad.convertDesignator)
theorem convertLocation (db : Db F) (l : Locations.Location F) : Ends (db.convertLocation l) := by unfold Locations.Db.convertLocation; ends
macro_rules | `(tactic| ends1) => `(tactic| with_reducible apply Verif.Proofs.EndsLoad.convertLocation)

theorem convertWaypoints (db : Db F) (l : List Str) : Ends (db.convertWaypoints l) := by
  induction l with
  | nil => exact ends_ok _
  | cons w l ih => exact ends_bind (convertDesignator ..) fun _ => ends_bind ih fun _ => ends_ok _
macro_rules | `(tactic| ends1) => `(tactic| with_reducible apply Verif.Proofs.EndsLoad.convertWaypoints)
theorem addSidStar (db : Db F) (s : Locations.SidStar) : Ends (db.addSidStar s) := by unfold Locations.Db.addSidStar; ends
theorem addSidStars (db : Db F) (l : List Locations.SidStar) : Ends (db.addSidStars l) := by
  induction l generalizing db with
  | nil => exact ends_ok _
  | cons w l ih => exact ends_bind (addSidStar ..) fun _ => ih _

/-! ## Drawn items -/

section
open Model.SctItems

theorem points (db : Db F) (l : List (Parse.Sct.Loc F)) : Ends (Model.SctItems.points db l) := by
  induction l with
  | nil => exact ends_ok _
  | cons w l ih => exact ends_bind (convertLocation ..) fun _ => ends_bind ih fun _ => ends_ok _

variable [DecidableEq F]

theorem lines (db : Db F) (l : List (List (Parse.Sct.Loc F))) : Ends (Model.SctItems.lines db l) := by
  induction l with
  | nil => exact ends_ok _
  | cons w l ih => exact ends_bind (points ..) fun _ => ends_bind ih fun _ => ends_ok _

theorem groups (db : Db F) (get : Str → Option Colour) (sid : Colour) (name : Str) (l : List (Lines.Group (Parse.Sct.Loc F))) :
    Ends (Model.SctItems.groups db get sid name l) := by
  induction l with
  | nil => exact ends_ok _
  | cons w l ih => exact ends_bind (ends_bind (lines ..) fun _ => ends_ok _) fun _ => ends_bind ih fun _ => ends_ok _

theorem drawings (db : Db F) (get : Str → Option Colour) (sid : Colour) (ds : List (Parse.Sct.Drawing F)) :
    Ends (Model.SctItems.drawings db get sid ds) := by
  refine ends_bind ?_ fun _ => ends_ok _
  induction ds with
  | nil => exact ends_ok _
  | cons w l ih => exact ends_bind (groups ..) fun _ => ends_bind ih fun _ => ends_ok _

/-- Each step of the search visits a line that has not been visited. -/
theorem build (fmt : F → Str) (ls : List (Line F)) : ∀ (fuel : Nat) (p : Point F) (visited : List Str),
    ((ls.map (lineHash fmt)).filter (· ∉ visited)).length < fuel → Ends (Model.SctItems.build fmt (adjacency fmt ls) fuel p visited)
  | 0, _, _, h => absurd h (Nat.not_lt_zero _)
  | fuel + 1, p, visited, h => by
    unfold Model.SctItems.build
    split
    · rename_i next hn
      refine ends_bind (build fmt ls fuel _ _ ?_) fun _ => ends_ok _
      have h1 := List.mem_of_find?_eq_some hn
      have h2 := List.find?_some hn
      have hm : lineHash fmt next ∈ ls.map (lineHash fmt) := List.mem_map_of_mem (SctItems.mem_adjacency h1).1
      have hv : lineHash fmt next ∉ visited := by simpa using h2
      refine Nat.lt_of_lt_of_le ?_ (Nat.le_of_lt_succ h)
      generalize ls.map (lineHash fmt) = hs at hm
      generalize lineHash fmt next = x at hm hv
      clear * - hm hv
      induction hs with
      | nil => cases hm
      | cons a l ih =>
        have hle : (l.filter (· ∉ x :: visited)).length ≤ (l.filter (· ∉ visited)).length := by
          rw [← List.countP_eq_length_filter, ← List.countP_eq_length_filter]
          refine List.countP_mono_left fun y _ hy => ?_
          simp only [List.mem_cons, not_or, decide_eq_true_eq] at hy ⊢
          exact hy.2
        simp only [List.filter_cons]
        by_cases hax : a = x
        · subst hax
          simp only [List.mem_cons, true_or, not_true_eq_false, decide_false, Bool.false_eq_true, if_false, hv, not_false_eq_true, decide_true, if_true,
            List.length_cons]
          simp only [List.mem_cons] at hle
          exact Nat.lt_succ_of_le hle
        · have hm' : x ∈ l := by
            rcases List.mem_cons.1 hm with h | h
            · exact absurd h.symm hax
            · exact h
          have := ih hm'
          by_cases hav : a ∈ visited
          · simpa [hax, hav] using this
          · simpa [hax, hav] using this
    · exact ends_ok _

theorem chain (fmt : F → Str) (ls : List (Line F)) (l : List (Line F)) (acc : List (List (Point F))) (visited : List Str) :
    Ends (Model.SctItems.chain fmt (adjacency fmt ls) (ls.length + 1) l acc visited) := by
  induction l generalizing acc visited with
  | nil => exact ends_ok _
  | cons x l ih =>
    unfold Model.SctItems.chain
    split
    · exact ih _ _
    · refine ends_bind (build fmt ls _ _ _ ?_) fun _ => ih _ _
      refine Nat.lt_succ_of_le (Nat.le_trans (List.length_filter_le _ _) ?_)
      rw [List.length_map]

theorem joined (fmt : F → Str) (ls : List (Line F)) : Ends (Model.SctItems.joined fmt ls) := chain fmt ls ls [] []

theorem airwayLines (db : Db F) (l : List (Parse.Sct.Airway F)) : Ends (Model.SctItems.airwayLines db l) := by
  induction l with
  | nil => exact ends_ok _
  | cons w l ih => exact ends_bind (convertLocation ..) fun _ => ends_bind (convertLocation ..) fun _ => ends_bind ih fun _ => ends_ok _

theorem airways (fmt : F → Str) (db : Db F) (order) (l : List (Parse.Sct.Airway F)) : Ends (Model.SctItems.airways fmt db order l) := by
  refine ends_bind ?_ fun _ => ends_ok _
  generalize order (collect (l.map fun a => (a.designator, a))) = l
  induction l with
  | nil => exact ends_ok _
  | cons w l ih => exact ends_bind (ends_bind (airwayLines ..) fun _ => joined ..) fun _ => ends_bind ih fun _ => ends_ok _

theorem fromSct (fmt : F → Str) (order) (sct : Parse.Sct.Sct F) (db : Db F) (get : Str → Option Colour) (sid : Colour) :
    Ends (Model.SctItems.fromSct fmt order sct db get sid) := by
  unfold Model.SctItems.fromSct
  refine ends_bind (drawings ..) fun _ => ends_bind (drawings ..) fun _ => ends_bind (airways ..) fun _ => ends_bind (airways ..) fun _ =>
    ends_bind (drawings ..) fun _ => ends_bind (drawings ..) fun _ => ends_bind (drawings ..) fun _ => ends_bind (drawings ..) fun _ => ends_ok _

end
end

/-! ## Sectors and maps -/

section
variable {F G : Type} [F64 F] [DmsArith F] [DecidableEq F] [FloatOps F] [Close F] [F64 G] [F32Ops G] [UnicodeTables]

theorem sectorsOfGroups {P : Type} (gs : List (Sectors.GroupKey × List (Str × Sectors.EseSector P))) (acc : Map Str Sectors.Sector) :
    Ends (Sectors.sectorsOfGroups gs acc) := by
  induction gs generalizing acc with
  | nil => exact ends_ok _
  | cons g gs ih => exact ends_bind (ends_bind (ends_unwrap _) fun _ => ends_ok _) fun _ => ih _

theorem sectors {env : Env F G} (hc : Polygon.Spec.Chooses env.choose) (ese : Parse.Ese.Ese F) : Ends (Adaptation.sectors env ese) := by
  unfold Adaptation.sectors
  refine ends_bind (ends_mapM (fun e => ends_of_ok (Polygon.C23_polygon_terminates _ _ _ hc _)) _) fun _ => ?_
  exact ends_bind (sectorsOfGroups ..) fun _ => ends_ok _

theorem mapsOf (s : Display.MapsSettings F G) (get : Str → Option Colour) (db : Db F) (t : Option (Parse.Topsky.Topsky F G)) :
    Ends (Adaptation.mapsOf s get db t) := by
  cases t with
  | none => exact ends_ok _
  | some t =>
    unfold Adaptation.mapsOf Adaptation.maps
    refine ends_bind (ends_mapM (fun l => convertLocation ..) _) fun _ => ends_of_ok ?_
    let _ := world F G
    unfold Maps.fromTopsky
    obtain ⟨f, h, _⟩ := Maps.addMaps_ok _ _ [] [] _ (fun f => rfl)
    exact ⟨f, h⟩

/-! ## Files -/

/-- The loading comes to an end. -/
structure EndsF {A : Type} (r : Except Failure A) : Prop where
  ne : r ≠ .error (.fault .diverge)

theorem endsF_ok {A : Type} (a : A) : EndsF (.ok a) := ⟨by intro h; cases h⟩
theorem endsF_bind {A B : Type} {x : Except Failure A} {f : A → Except Failure B} (hx : EndsF x) (hf : ∀ a, EndsF (f a)) : EndsF (x >>= f) := by
  cases x with
  | ok a => exact hf a
  | error e => exact ⟨by intro h; cases h; exact hx.ne rfl⟩
theorem endsF_lift {A : Type} {r : Run A} (h : Ends r) : EndsF (lift r) := by
  cases r with
  | ok a => exact endsF_ok a
  | error f => exact ⟨by intro e; cases e; exact h.ne rfl⟩

theorem required {A : Type} (env : Env F G) (f : File) {path : Run Path} (hp : Ends path) {parse : Str → Run A} (hparse : ∀ s, Ends (parse s)) :
    EndsF (Adaptation.required env f path parse) := by
  unfold Adaptation.required
  refine endsF_bind (endsF_lift hp) fun p => ?_
  split
  · exact ⟨by intro h; cases h⟩
  · rename_i bytes _
    have := (hparse (Decode.readToString env.lossy bytes)).ne
    split
    · exact endsF_ok _
    · exact ⟨by intro h; cases h⟩
    · rename_i f _ he
      exact ⟨by intro h; cases h; exact this he⟩

theorem topsky (env : Env F G) (prf : Prf) : EndsF (Adaptation.topsky env prf) := by
  unfold Adaptation.topsky
  refine endsF_bind (endsF_lift (findFile ..)) fun dir => ?_
  split
  · exact endsF_ok _
  · generalize hs : Parse.Topsky.parse (F := F) (G := G) env.upper _ _ _ = r
    have hr : r ≠ .fault .diverge := by
      subst hs
      unfold Parse.Topsky.parse
      split
      · intro h; cases h
      · split
        · rename_i f he
          intro h; cases h
          exact (EndsTopskySettings.parse _).ne he
        · split
          · rename_i f he
            intro h; cases h
            split at he
            · cases he
            · exact (EndsTopsky.parseSymbols _).ne he
          · split
            · intro h; cases h
            · split
              · rename_i f he
                intro h; cases h
                exact (EndsTopsky.parseMaps _ _).ne he
              · intro h; cases h
    split
    · exact endsF_ok _
    · exact endsF_ok _
    · exact endsF_ok _
    · exact ⟨by intro h; cases h; exact hr rfl⟩

theorem returns {A : Type} {r : Run A} (h : (∃ a, r = .ok a) ∨ r = .error .parseError) : Ends r := by
  rcases h with h | h
  · exact ends_of_ok h
  · rw [h]; exact ends_parseError

variable [LE F] [DecidableLE F]

theorem fromPrf {env : Env F G} (hc : Polygon.Spec.Chooses env.choose) (prf : Prf) : EndsF (Adaptation.fromPrf env prf) := by
  unfold Adaptation.fromPrf
  refine endsF_bind (required _ _ (by unfold PrfPaths.sctPath; ends) EndsSct.parse) fun sct => ?_
  refine endsF_bind (required _ _ (by unfold PrfPaths.esePath; ends) EndsEse.parse) fun ese => ?_
  refine endsF_bind (required _ _ (by unfold PrfPaths.airwaysPath; ends) fun s => ?_) fun airways => ?_
  · obtain ⟨num, hnum⟩ := Props.reads F
    exact ⟨(@Props.C08_airway_panics_iff F _ ⟨fun p => env.quantize (p.x, p.y)⟩ num (fun s hs => hnum s (Parse.Isec.isCoord_isDecimal hs)) s).2⟩
  refine endsF_bind (endsF_lift (sectors hc ese)) fun _ => ?_
  dsimp only
  refine endsF_bind (required _ _ (by unfold PrfPaths.symbologyPath; ends) EndsSymbology.parse) fun symbology => ?_
  refine endsF_bind (endsF_bind (endsF_lift (ends_bind (findFile ..) fun _ => ends_pure _)) fun _ => endsF_ok _) fun squawks => ?_
  refine endsF_bind (topsky ..) fun topsky => ?_
  refine endsF_bind (endsF_lift (ends_bind (recentPaths ..) fun _ => ends_ok _)) fun settings => ?_
  refine endsF_bind (required _ _ (by unfold PrfPaths.airportsPath; ends) fun s => returns (Props.C05_airports_no_panic s)) fun airports => ?_
  refine endsF_bind (required _ _ (by unfold PrfPaths.navdataAirportsPath; ends) fun s => returns (Props.C05_navdata_no_panic s)) fun navdata => ?_
  refine endsF_bind (endsF_lift (addSidStars ..)) fun locations => ?_
  refine endsF_bind (endsF_lift (fromSct ..)) fun sctItems => ?_
  refine endsF_bind (required _ _ (by unfold PrfPaths.aircraftPath; ends) fun s => returns (Props.C05_aircraft_no_panic s)) fun aircraft => ?_
  refine endsF_bind (required _ _ (by unfold PrfPaths.airlinesPath; ends) fun s => returns (Props.C05_airlines_no_panic s)) fun airlines => ?_
  refine endsF_bind (endsF_lift (mapsOf ..)) fun maps => ?_
  exact endsF_ok _

end
end Verif.Proofs.EndsLoad
