import Verif.Model.AdaptationJson
import Verif.Spec.Schema
/-!
# The values of an adaptation have the shapes of the specification
-/

namespace Verif.Proofs.Schema
open Verif.Json Verif.Spec.Schema
open Verif.Display (F32Ops)

/-- All values of this type are written in this shape. -/
def Shaped {A : Type} (c : Codec A) (s : Shape) : Prop := ∀ a, Fits s (c.to a)

/-- The same for fields -/
def ShapedFields {A : Type} (fs : Fields A) (l : List (Str × Shape)) : Prop := ∀ a, FitsRecord l (fs.to a)

variable {A B : Type}

theorem text_shaped : Shaped Codec.text .text := fun s => .text s
theorem bool_shaped : Shaped Codec.bool .flag := fun s => .flag s
theorem nat_shaped (hi : Nat) : Shaped (Codec.nat hi) (.integer 0 hi) := fun n => .integer 0 hi (n : Int)
theorem int_shaped (lo hi : Int) : Shaped (Codec.int lo hi) (.integer lo hi) := fun n => .integer lo hi n
theorem u8_shaped : Shaped Codec.u8 u8 := nat_shaped (2 ^ 8)
theorem u32_shaped : Shaped Codec.u32 u32 := nat_shaped (2 ^ 32)
theorem usize_shaped : Shaped Codec.usize usize := nat_shaped (2 ^ 64)
theorem i32_shaped : Shaped Codec.i32 i32 := int_shaped _ _
theorem i64_shaped : Shaped Codec.i64 i64 := int_shaped _ _
theorem path_shaped : Shaped Codec.path .text := fun _ => .text _
theorem phantom_shaped : Shaped AdaptationJson.phantom .null := fun _ => .null

theorem float_shaped [JsonFloat A] : Shaped (Codec.float (A := A)) .number := fun x => by
  show Fits _ (match JsonFloat.write x with | some q => _ | none => _)
  cases JsonFloat.write x with
  | some q => exact .number q
  | none => exact .notFinite

theorem opt_shaped {c : Codec A} {s : Shape} (h : Shaped c s) : Shaped (Codec.opt c) (.optional s)
  | none => .absent
  | some a => .present (h a)

theorem list_shaped {c : Codec A} {s : Shape} (h : Shaped c s) : Shaped (Codec.list c) (.array s) := fun l =>
  .array fun j hj => by
    obtain ⟨a, -, rfl⟩ := List.mem_map.1 hj
    exact h a

theorem map_shaped {c : Codec A} {s : Shape} (h : Shaped c s) : Shaped (Codec.map c) (.map s) := fun l =>
  .map fun j hj => by
    obtain ⟨a, -, rfl⟩ := List.mem_map.1 hj
    exact h _

theorem multiMap_shaped {c : Codec A} {s : Shape} (h : Shaped c s) : Shaped (Codec.multiMap c) (.map (.array s)) :=
  map_shaped (list_shaped h)

theorem tuple_shaped {c : Codec A} {d : Codec B} {s t : Shape} (hc : Shaped c s) (hd : Shaped d t) :
    Shaped (Codec.tuple2 c d) (.tuple [s, t]) := fun p => .tuple (.cons (hc p.1) (.cons (hd p.2) .nil))

theorem iso_shaped {c : Codec A} {s : Shape} (h : Shaped c s) (f : B → A) (g : A → B) : Shaped (Codec.iso c f g) s := fun b => h (f b)

theorem orDefault_shaped {c : Codec A} {s : Shape} (h : Shaped c s) (a : A) (d : J) : Shaped (Codec.orDefault c a) (.defaulted s d) :=
  fun b => .defaulted (h b)

theorem nil_shaped : ShapedFields .nil [] := fun _ => .nil

theorem cons_shaped {k : Str} {c : Codec A} {fs : Fields B} {s : Shape} {l : List (Str × Shape)} (hc : Shaped c s)
    (hf : ShapedFields fs l) : ShapedFields (.cons k c fs) ((k, s) :: l) := fun p => .cons (hc p.1) (hf p.2)

theorem struct_shaped {fs : Fields A} {l : List (Str × Shape)} (h : ShapedFields fs l) (f : B → A) (g : A → B) :
    Shaped (fs.struct f g) (.record l) := fun b => .record (h (f b))

theorem numMap_shaped {c : Codec A} {s : Shape} (h : Shaped c s) : Shaped (Codec.numMap c) (.numbered s) := fun l => by
  refine .numbered (fun j hj => ?_) fun j hj => ?_ <;> obtain ⟨a, -, rfl⟩ := List.mem_map.1 hj
  · exact ⟨showNat_ne_nil _, showNat_digits _⟩
  · exact h _

theorem radixChar_hex : ∀ d : Fin 16, radixChar d.val ∈ hexDigits := by decide +kernel

theorem byte_hex (n : Fin 256) : (padZero 2 (showRadix 16 n.val)).length = 2 ∧ ∀ c ∈ padZero 2 (showRadix 16 n.val), c ∈ hexDigits := by
  rw [hex_byte n.isLt]
  refine ⟨rfl, fun c hc => ?_⟩
  simp only [List.mem_cons, List.not_mem_nil, or_false] at hc
  have hn := n.isLt
  rcases hc with rfl | rfl
  · exact radixChar_hex ⟨n.val / 16, by omega⟩
  · exact radixChar_hex ⟨n.val % 16, by omega⟩

theorem colour_shaped : Shaped Codec.colour .colour := fun c => by
  refine .colour ?_ fun x hx => ?_
  · simp [(byte_hex _).1]
  · simp only [List.mem_append] at hx
    rcases hx with (h | h) | h
    · exact (byte_hex _).2 x h
    · exact (byte_hex _).2 x h
    · exact (byte_hex _).2 x h

theorem enum_shaped {all : List A} {name : A → Str} {names : List Str} (h : ∀ a, name a ∈ names) :
    Shaped (Codec.enum all name) (.variant names []) := fun a => .plain (h a)

/-- A type whose shape is known -/
syntax "known" : tactic

/-- Goes through the combinators of a codec. -/
macro "shape" : tactic => `(tactic| repeat' first
  | exact text_shaped | exact bool_shaped | exact float_shaped | exact colour_shaped | exact u32_shaped | exact usize_shaped
  | exact u8_shaped | exact i32_shaped | exact i64_shaped | exact path_shaped | exact phantom_shaped | exact nil_shaped | known
  | with_reducible apply iso_shaped | with_reducible apply orDefault_shaped | apply struct_shaped | apply cons_shaped | apply opt_shaped | apply multiMap_shaped | apply list_shaped | apply map_shaped
  | apply tuple_shaped | apply numMap_shaped)

/-- The names of an enumeration -/
macro "names" : tactic => `(tactic| exact enum_shaped fun a => by cases a <;> decide +kernel)

set_option linter.unusedSectionVars false

section
variable {F G : Type} [JsonFloat F] [JsonFloat G]

theorem point_shaped : Shaped (AdaptationJson.point (F := F)) point := by
  unfold AdaptationJson.point; shape
macro_rules | `(tactic| known) => `(tactic| exact point_shaped)

theorem point'_shaped : Shaped (AdaptationJson.point' (F := F)) point := by
  unfold AdaptationJson.point'; shape
macro_rules | `(tactic| known) => `(tactic| exact point'_shaped)

theorem multiLine_shaped : Shaped (AdaptationJson.multiLine (F := F)) lines := by
  unfold AdaptationJson.multiLine; shape
macro_rules | `(tactic| known) => `(tactic| exact multiLine_shaped)

theorem polygon_shaped : Shaped (AdaptationJson.polygon (F := F)) polygon := by
  unfold AdaptationJson.polygon; shape
macro_rules | `(tactic| known) => `(tactic| exact polygon_shaped)

theorem fix_shaped : Shaped (AdaptationJson.fix (F := F)) fix := by
  unfold AdaptationJson.fix; shape
macro_rules | `(tactic| known) => `(tactic| exact fix_shaped)

theorem navaid_shaped : Shaped (AdaptationJson.navaid (F := F)) navaid := by
  unfold AdaptationJson.navaid; shape
macro_rules | `(tactic| known) => `(tactic| exact navaid_shaped)

theorem runway_shaped : Shaped (AdaptationJson.runway (F := F)) runway := by
  unfold AdaptationJson.runway; shape
macro_rules | `(tactic| known) => `(tactic| exact runway_shaped)

theorem airport_shaped : Shaped (AdaptationJson.airport (F := F)) airport := by
  unfold AdaptationJson.airport; shape
macro_rules | `(tactic| known) => `(tactic| exact airport_shaped)

theorem procedure_shaped : Shaped (AdaptationJson.procedure (F := F)) procedure := by
  unfold AdaptationJson.procedure; shape
macro_rules | `(tactic| known) => `(tactic| exact procedure_shaped)

theorem airwayType_shaped : Shaped AdaptationJson.airwayType (.variant [c!"High", c!"Low", c!"Both", c!"Unknown"] []) := by
  names
macro_rules | `(tactic| known) => `(tactic| exact airwayType_shaped)

theorem airwayEdge_shaped : Shaped AdaptationJson.airwayEdge airwayEdge := by
  unfold AdaptationJson.airwayEdge; shape
macro_rules | `(tactic| known) => `(tactic| exact airwayEdge_shaped)

theorem graphFix_shaped : Shaped (AdaptationJson.graphFix (F := F)) (.record [(c!"position", point), (c!"edges", .numbered (.array airwayEdge))]) := by
  unfold AdaptationJson.graphFix; shape
macro_rules | `(tactic| known) => `(tactic| exact graphFix_shaped)

theorem airwayGraph_shaped : Shaped (AdaptationJson.airwayGraph (F := F)) airways := by
  unfold AdaptationJson.airwayGraph; shape
macro_rules | `(tactic| known) => `(tactic| exact airwayGraph_shaped)

theorem locations_shaped : Shaped (AdaptationJson.locations (F := F)) locations := by
  unfold AdaptationJson.locations; shape
macro_rules | `(tactic| known) => `(tactic| exact locations_shaped)

theorem position_shaped : Shaped (AdaptationJson.position (F := F)) position := by
  unfold AdaptationJson.position; shape
macro_rules | `(tactic| known) => `(tactic| exact position_shaped)

theorem volume_shaped : Shaped (AdaptationJson.volume (F := F)) volume := by
  unfold AdaptationJson.volume; shape
macro_rules | `(tactic| known) => `(tactic| exact volume_shaped)

theorem runwayIdentifier_shaped : Shaped AdaptationJson.runwayIdentifier runwayIdentifier := by
  unfold AdaptationJson.runwayIdentifier; shape
macro_rules | `(tactic| known) => `(tactic| exact runwayIdentifier_shaped)

theorem sector_shaped : Shaped AdaptationJson.sector sector := by
  unfold AdaptationJson.sector; shape
macro_rules | `(tactic| known) => `(tactic| exact sector_shaped)

theorem timing_shaped : Shaped (AdaptationJson.timing (G := G)) timing := by
  unfold AdaptationJson.timing; shape
macro_rules | `(tactic| known) => `(tactic| exact timing_shaped)

theorem constraint_shaped : Shaped (AdaptationJson.constraint (G := G)) constraint := by
  unfold AdaptationJson.constraint; shape
macro_rules | `(tactic| known) => `(tactic| exact constraint_shaped)

theorem activeIds_shaped : Shaped AdaptationJson.activeIds activeIds := by
  unfold AdaptationJson.activeIds; shape
macro_rules | `(tactic| known) => `(tactic| exact activeIds_shaped)

theorem activeRunways_shaped : Shaped AdaptationJson.activeRunways activeRunways := by
  unfold AdaptationJson.activeRunways; shape
macro_rules | `(tactic| known) => `(tactic| exact activeRunways_shaped)

theorem activeAreas_shaped : Shaped AdaptationJson.activeAreas activeAreas := by
  unfold AdaptationJson.activeAreas; shape
macro_rules | `(tactic| known) => `(tactic| exact activeAreas_shaped)

theorem activeMapOperator_shaped : Shaped AdaptationJson.activeMapOperator (.variant [c!"Same", c!"Opposite"] []) := by
  names
macro_rules | `(tactic| known) => `(tactic| exact activeMapOperator_shaped)

theorem active_shaped : Shaped AdaptationJson.active active
  | .true => .plain (by decide)
  | .schedule => .plain (by decide)
  | .aup l => .tagged (.head _) (list_shaped text_shaped l)
  | .notam s l => .tagged (.tail _ <| .head _) (.tuple (.cons (text_shaped s) (.cons (list_shaped text_shaped l) .nil)))
  | .area a => .tagged (.tail _ <| .tail _ <| .head _) (activeAreas_shaped a)
  | .id a => .tagged (.tail _ <| .tail _ <| .tail _ <| .head _) (activeIds_shaped a)
  | .callsign a => .tagged (.tail _ <| .tail _ <| .tail _ <| .tail _ <| .head _) (activeIds_shaped a)
  | .runway a => .tagged (.tail _ <| .tail _ <| .tail _ <| .tail _ <| .tail _ <| .head _) (activeRunways_shaped a)
  | .map op f n => .tagged (.tail _ <| .tail _ <| .tail _ <| .tail _ <| .tail _ <| .tail _ <| .head _)
    (.tuple (.cons (activeMapOperator_shaped op) (.cons (text_shaped f) (.cons (text_shaped n) .nil))))
macro_rules | `(tactic| known) => `(tactic| exact active_shaped)

theorem horizontal_shaped : Shaped AdaptationJson.horizontal (.variant [c!"Left", c!"Center", c!"Right"] []) := by
  names
macro_rules | `(tactic| known) => `(tactic| exact horizontal_shaped)

theorem vertical_shaped : Shaped AdaptationJson.vertical (.variant [c!"Top", c!"Center", c!"Bottom"] []) := by
  names
macro_rules | `(tactic| known) => `(tactic| exact vertical_shaped)

theorem alignment_shaped : Shaped AdaptationJson.alignment alignment := by
  unfold AdaptationJson.alignment; shape
macro_rules | `(tactic| known) => `(tactic| exact alignment_shaped)

theorem lineStyle_shaped : Shaped AdaptationJson.lineStyle lineStyle := by
  unfold AdaptationJson.lineStyle; shape
macro_rules | `(tactic| known) => `(tactic| exact lineStyle_shaped)

section
variable [DecidableEq F] [F32Ops G]

theorem label_shaped : Shaped (AdaptationJson.label F G) label := by
  unfold AdaptationJson.label; shape
macro_rules | `(tactic| known) => `(tactic| exact label_shaped)

theorem mapSymbol_shaped : Shaped (AdaptationJson.mapSymbol F G) symbol := by
  unfold AdaptationJson.mapSymbol; shape
macro_rules | `(tactic| known) => `(tactic| exact mapSymbol_shaped)

theorem mapGroup_shaped : Shaped (AdaptationJson.mapGroup F G) mapGroup := by
  unfold AdaptationJson.mapGroup; shape
macro_rules | `(tactic| known) => `(tactic| exact mapGroup_shaped)

theorem mapV_shaped : Shaped (AdaptationJson.mapV F G) mapV := by
  unfold AdaptationJson.mapV; shape
macro_rules | `(tactic| known) => `(tactic| exact mapV_shaped)

theorem folder_shaped : Shaped (AdaptationJson.folder F G) folder := by
  unfold AdaptationJson.folder; shape
macro_rules | `(tactic| known) => `(tactic| exact folder_shaped)

end

theorem pair_shaped : Shaped (AdaptationJson.pair (F := F)) pair := by
  unfold AdaptationJson.pair; shape
macro_rules | `(tactic| known) => `(tactic| exact pair_shaped)

theorem symbolRule_shaped : Shaped (AdaptationJson.symbolRule (F := F)) symbolRule
  | .move p => .tagged (.head _) (pair_shaped p)
  | .line p => .tagged (.tail _ <| .head _) (pair_shaped p)
  | .pixel p => .tagged (.tail _ <| .tail _ <| .head _) (pair_shaped p)
  | .arc p r a b => .tagged (.tail _ <| .tail _ <| .tail _ <| .head _) (.tuple (.cons (pair_shaped p) (.cons (float_shaped r) (.cons (i64_shaped a) (.cons (i64_shaped b) .nil)))))
  | .ellipticArc p r s a b => .tagged (.tail _ <| .tail _ <| .tail _ <| .tail _ <| .head _) (.tuple (.cons (pair_shaped p) (.cons (float_shaped r) (.cons (float_shaped s) (.cons (i64_shaped a) (.cons (i64_shaped b) .nil))))))
  | .filledArc p r a b => .tagged (.tail _ <| .tail _ <| .tail _ <| .tail _ <| .tail _ <| .head _) (.tuple (.cons (pair_shaped p) (.cons (float_shaped r) (.cons (i64_shaped a) (.cons (i64_shaped b) .nil)))))
  | .filledEllipticArc p r s a b => .tagged (.tail _ <| .tail _ <| .tail _ <| .tail _ <| .tail _ <| .tail _ <| .head _) (.tuple (.cons (pair_shaped p) (.cons (float_shaped r) (.cons (float_shaped s) (.cons (i64_shaped a) (.cons (i64_shaped b) .nil))))))
  | .polygon ps => .tagged (.tail _ <| .tail _ <| .tail _ <| .tail _ <| .tail _ <| .tail _ <| .tail _ <| .head _) (list_shaped pair_shaped ps)
macro_rules | `(tactic| known) => `(tactic| exact symbolRule_shaped)

theorem symbols_shaped : Shaped (AdaptationJson.symbols (F := F)) symbols := by
  unfold AdaptationJson.symbols; shape
macro_rules | `(tactic| known) => `(tactic| exact symbols_shaped)

theorem colours_shaped : Shaped AdaptationJson.colours colours := by
  unfold AdaptationJson.colours AdaptationJson.trackColours AdaptationJson.sectorColours AdaptationJson.mapColours
    AdaptationJson.mapColours2 AdaptationJson.uiColours
  shape
macro_rules | `(tactic| known) => `(tactic| exact colours_shaped)

theorem dash_shaped : Shaped (AdaptationJson.dash (G := G)) (.record [(c!"length", .number), (c!"gap", .number)]) := by
  unfold AdaptationJson.dash; shape
macro_rules | `(tactic| known) => `(tactic| exact dash_shaped)

theorem lineSettings_shaped : Shaped AdaptationJson.lineSettings lineSettings := by
  unfold AdaptationJson.lineSettings; shape
macro_rules | `(tactic| known) => `(tactic| exact lineSettings_shaped)

theorem labelSettings_shaped : Shaped (AdaptationJson.labelSettings (G := G)) labelSettings := by
  unfold AdaptationJson.labelSettings; shape
macro_rules | `(tactic| known) => `(tactic| exact labelSettings_shaped)

theorem mapsSettings_shaped : Shaped (AdaptationJson.mapsSettings (F := F) (G := G)) mapsSettings := by
  unfold AdaptationJson.mapsSettings; shape
macro_rules | `(tactic| known) => `(tactic| exact mapsSettings_shaped)

theorem settings_shaped : Shaped (AdaptationJson.settings (F := F) (G := G)) settings := by
  unfold AdaptationJson.settings AdaptationJson.settingsFields AdaptationJson.track AdaptationJson.vector AdaptationJson.historyDots
    AdaptationJson.ssr AdaptationJson.coordination
  shape
macro_rules | `(tactic| known) => `(tactic| exact settings_shaped)

theorem wtc_shaped : Shaped AdaptationJson.wtc (.variant [c!"LIGHT", c!"MEDIUM", c!"HEAVY", c!"SUPER", c!"UNKNOWN"] []) := by
  names
macro_rules | `(tactic| known) => `(tactic| exact wtc_shaped)

theorem aircraftType_shaped : Shaped AdaptationJson.aircraftType (.variant [c!"LANDPLANE", c!"SEAPLANE", c!"AMPHIBIAN", c!"GYROCOPTER", c!"HELICOPTER", c!"TILTROTOR",
    c!"UNKNOWN"] []) := by
  names
macro_rules | `(tactic| known) => `(tactic| exact aircraftType_shaped)

theorem engineType_shaped : Shaped AdaptationJson.engineType (.variant [c!"JET", c!"TURBOPROP", c!"PISTON", c!"ELECTRIC", c!"ROCKET", c!"UNKNOWN"] []) := by
  names
macro_rules | `(tactic| known) => `(tactic| exact engineType_shaped)

theorem aircraft_shaped : Shaped AdaptationJson.aircraft aircraft := by
  unfold AdaptationJson.aircraft; shape
macro_rules | `(tactic| known) => `(tactic| exact aircraft_shaped)

theorem airline_shaped : Shaped AdaptationJson.airline airline := by
  unfold AdaptationJson.airline; shape
macro_rules | `(tactic| known) => `(tactic| exact airline_shaped)

theorem coloured_shaped : Shaped (AdaptationJson.coloured (F := F)) coloured := by
  unfold AdaptationJson.coloured; shape
macro_rules | `(tactic| known) => `(tactic| exact coloured_shaped)

theorem location_shaped : Shaped (AdaptationJson.location (F := F)) (.variant [] [(c!"Fix", .text), (c!"Coordinate", point)])
  | .fix s => .tagged (.head _) (text_shaped s)
  | .coordinate p => .tagged (.tail _ <| .head _) (point'_shaped p)
macro_rules | `(tactic| known) => `(tactic| exact location_shaped)

theorem sctItems_shaped : Shaped (AdaptationJson.sctItems (F := F)) sctItems := by
  unfold AdaptationJson.sctItems AdaptationJson.region AdaptationJson.sctLabel; shape
macro_rules | `(tactic| known) => `(tactic| exact sctItems_shaped)

variable [DecidableEq F] [F32Ops G]

theorem adaptation_shaped : Shaped (AdaptationJson.adaptation F G) adaptation := by
  unfold AdaptationJson.adaptation AdaptationJson.adaptationFields; shape
macro_rules | `(tactic| known) => `(tactic| exact adaptation_shaped)

end
end Verif.Proofs.Schema
