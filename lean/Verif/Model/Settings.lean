import Verif.Base.Map
import Verif.Base.Lit
import Verif.Base.Radix
/-!
# Settings, line styles and symbols

Models `SsrSettings::from_squawks_json` and `CoordinationSettings::resolve`,
`/repo/src/adaptation/settings/mod.rs`, `line_styles_from_topsky`,
`/repo/src/adaptation/line_styles.rs`, and `Symbols::from_euroscope`,
`/repo/src/adaptation/symbols.rs`.
-/

namespace Verif.Settings

/-! ## SSR codes -/

/-- `SquawkDef`, squawks.rs 22-27, without the colour. -/
structure SquawkDef where
  code : Option Str
  range : Option (Str × Str)
  message : Str
deriving DecidableEq

/-- `u16::from_str_radix(s, 8).ok()` -/
def octalU16 (s : Str) : Option Nat := parseUnsigned 8 65536 s

/-- `format!("{i:04o}")` -/
def octal4 (n : Nat) : Str := padZero 4 (showRadix 8 n)

/-- `(start..=end)`: empty if `end < start` -/
def inclusive (start stop : Nat) : List Nat := (List.range (stop + 1 - start)).map (start + ·)

/-- The closure of the `flat_map`, settings/mod.rs 352-373 -/
def squawkEntries (sq : SquawkDef) : List (Str × Str) :=
  match sq.code, sq.range with
  | none, none => []
  | some _, some _ => []
  | some code, none =>
    match octalU16 code with
    | some n => [(octal4 n, sq.message)]
    | none => []
  | none, some (a, b) =>
    match octalU16 a, octalU16 b with
    | some start, some stop => (inclusive start stop).map fun i => (octal4 i, sq.message)
    | _, _ => []

/-- `SsrSettings::from_squawks_json`, settings/mod.rs 347-376 -/
def specialUseCodes (squawks : List SquawkDef) : Map Str Str :=
  Map.ofList (squawks.flatMap squawkEntries)

/-! ## Coordination -/

/-- `CoordinationTiming`, settings/mod.rs 383-387 -/
structure CoordinationTiming (T : Type) where
  act : Option T
  abi : Option T
  rev : Option T

/-- `ResolvedCoordinationTiming`, settings/mod.rs 390-394 -/
structure ResolvedTiming (T : Type) where
  act : T
  abi : T
  rev : T
deriving DecidableEq

/-- `CoordinationSettings`, settings/mod.rs 397-406 -/
structure CoordinationSettings (T : Type) where
  act : T
  abi : T
  rev : T
  lamTimeout : T
  firOverrides : Map Str (CoordinationTiming T)

/-- The closure `pick`, settings/mod.rs 424-429 -/
def pick {T : Type} (constraint firOverride : Option (CoordinationTiming T))
    (select : CoordinationTiming T → Option T) (default : T) : T :=
  ((constraint.bind select).or (firOverride.bind select)).getD default

/-- `CoordinationSettings::resolve`, settings/mod.rs 417-436 -/
def resolve {T : Type} (s : CoordinationSettings T) (fir : Option Str)
    (constraint : Option (CoordinationTiming T)) : ResolvedTiming T :=
  let firOverride := fir.bind fun f => s.firOverrides.get? f
  ⟨pick constraint firOverride (·.act) s.act, pick constraint firOverride (·.abi) s.abi,
    pick constraint firOverride (·.rev) s.rev⟩

/-! ## Line styles -/

/-- `slice.chunks_exact(2)` mapped to `Dash`, line_styles.rs 49-55 -/
def dashes {F : Type} : List F → List (F × F)
  | a :: b :: l => (a, b) :: dashes l
  | _ => []

/-- The pattern of a style, line_styles.rs 46-61 -/
def pattern {F : Type} (lengths : List F) : Option (List (F × F)) :=
  if lengths.length > 1 then some (dashes lengths) else none

/-- The built-in styles, line_styles.rs 67-120; `f` turns the literals into `f32`. -/
def builtinStyles {F : Type} (f : Nat → F) : List (Str × Option (List (F × F))) :=
  [(c!"SOLID", none),
   (c!"DOT", some [(f 1, f 1)]),
   (c!"ALTERNATE", some [(f 1, f 1)]),
   (c!"DASH", some [(f 3, f 3)]),
   (c!"DASHDOT", some [(f 3, f 3), (f 1, f 3)]),
   (c!"DASHDOTDOT", some [(f 3, f 3), (f 1, f 3), (f 1, f 3)])]

/-- `line_styles_from_topsky`, line_styles.rs 38-122.  `styles` lists the name and dash lengths of
`Topsky::line_styles` in the iteration order of that map; `upper` is `str::to_uppercase`. -/
def lineStyles {F : Type} (f : Nat → F) (upper : Str → Str) (styles : Option (Map Str (List F))) :
    Map Str (Option (List (F × F))) :=
  Map.ofList ((styles.getD []).map (fun e => (upper e.1, pattern e.2)) ++ builtinStyles f)

/-! ## Symbols -/

/-- `SymbolRule`, symbols.rs 12-21 -/
inductive SymbolRule (F : Type) where
  | move (p : F × F)
  | line (p : F × F)
  | pixel (p : F × F)
  | arc (p : F × F) (r : F) (a b : Int)
  | ellipticArc (p : F × F) (r s : F) (a b : Int)
  | filledArc (p : F × F) (r : F) (a b : Int)
  | filledEllipticArc (p : F × F) (r s : F) (a b : Int)
  | polygon (ps : List (F × F))
deriving DecidableEq

abbrev Symbol (F : Type) := List (SymbolRule F)

/-- The fields of `Symbols`, symbols.rs 25-36 -/
inductive Kind where
  | historyDot | fix | ndb | vor | airport | primary | coasted | uncontrolled | controlled
deriving DecidableEq

/-- `SymbolType`, symbology.rs 79-105 -/
inductive SymbolType where
  | airport | ndb | vor | fix | aircraftStandby | aircraftPrimaryOnly
  | aircraftCorrAlphaCharlieSecondaryOnly | aircraftCorrModeSierraSecondaryOnly
  | aircraftCorrModeAlphaCharlie | aircraftCorrModeSierra
  | aircraftCorrModeAlphaCharlieIdent | aircraftCorrModeSierraIdent
  | aircraftFlightPlanTrack | aircraftCoasting | historyDot | groundAircraft
  | aircraftUncorrModeAlphaCharlieSecondaryOnly | aircraftUncorrModeSierraSecondaryOnly
  | aircraftUncorrModeAlphaCharlie | aircraftUncorrModeSierra
  | aircraftUncorrModeAlphaCharlieIdent | aircraftUncorrModeSierraIdent
  | groundVehicle | groundRotorcraft
deriving DecidableEq

/-- `SymbolType::from_u32`, derived by `num_derive` from the order of the variants (symbology.rs 79-105). -/
def SymbolType.fromU32 : Nat → Option SymbolType
  | 0 => some .airport
  | 1 => some .ndb
  | 2 => some .vor
  | 3 => some .fix
  | 4 => some .aircraftStandby
  | 5 => some .aircraftPrimaryOnly
  | 6 => some .aircraftCorrAlphaCharlieSecondaryOnly
  | 7 => some .aircraftCorrModeSierraSecondaryOnly
  | 8 => some .aircraftCorrModeAlphaCharlie
  | 9 => some .aircraftCorrModeSierra
  | 10 => some .aircraftCorrModeAlphaCharlieIdent
  | 11 => some .aircraftCorrModeSierraIdent
  | 12 => some .aircraftFlightPlanTrack
  | 13 => some .aircraftCoasting
  | 14 => some .historyDot
  | 15 => some .groundAircraft
  | 16 => some .aircraftUncorrModeAlphaCharlieSecondaryOnly
  | 17 => some .aircraftUncorrModeSierraSecondaryOnly
  | 18 => some .aircraftUncorrModeAlphaCharlie
  | 19 => some .aircraftUncorrModeSierra
  | 20 => some .aircraftUncorrModeAlphaCharlieIdent
  | 21 => some .aircraftUncorrModeSierraIdent
  | 22 => some .groundVehicle
  | 23 => some .groundRotorcraft
  | _ => none

section
variable {F : Type} (f : Int → F)

/-- `default_history_dot`, symbols.rs 40-50; `f` turns literals into `f64` (`-0.0` is written as
`f 0`). -/
def defaultHistoryDot : Symbol F := [.polygon [(f (-1), f (-1)), (f 1, f (-1)), (f 1, f 1), (f (-1), f 1)]]

/-- `default_fix`, symbols.rs 51-61 -/
def defaultFix : Symbol F :=
  [.move (f (-5), f 5), .line (f 0, f (-5)), .line (f 5, f 5), .line (f (-5), f 5)]

/-- `default_ndb`, symbols.rs 62-72 -/
def defaultNdb : Symbol F :=
  [.pixel (f 0, f 0), .arc (f 0, f 0) (f 1) 0 360, .arc (f 0, f 0) (f 3) 0 360,
   .arc (f 0, f 0) (f 5) 0 360]

/-- `default_vor`, symbols.rs 73-91 -/
def defaultVor : Symbol F :=
  [.move (f (-6), f 0), .line (f (-2), f (-5)), .line (f 2, f (-5)), .line (f 6, f 0), .line (f 2, f 5),
   .line (f (-2), f 5), .line (f (-6), f 0), .move (f (-6), f (-5)), .line (f (-6), f 5),
   .line (f 6, f 5), .line (f 6, f (-5)), .line (f (-6), f (-5))]

/-- `default_airport`, symbols.rs 92-107 -/
def defaultAirport : Symbol F :=
  [.move (f (-3), f (-3)), .line (f 3, f (-3)), .line (f 3, f 3), .line (f (-3), f 3),
   .line (f (-3), f (-3)), .move (f 5, f 0), .line (f (-6), f 0), .move (f 0, f 5), .line (f 0, f (-6))]

/-- `default_primary`, symbols.rs 108-118 -/
def defaultPrimary : Symbol F :=
  [.move (f (-3), f (-3)), .line (f 4, f 4), .move (f (-3), f 3), .line (f 4, f (-4))]

/-- `default_controlled`, symbols.rs 119-130 -/
def defaultControlled : Symbol F :=
  [.move (f (-5), f 0), .line (f 0, f (-5)), .line (f 5, f 0), .line (f 0, f 5), .line (f (-5), f 0)]

/-- `default_uncontrolled`, symbols.rs 131-141 -/
def defaultUncontrolled : Symbol F :=
  [.move (f (-4), f 3), .line (f 0, f (-4)), .line (f 3, f 3), .line (f (-4), f 3)]

/-- `default_coasted`, symbols.rs 142-152 -/
def defaultCoasted : Symbol F :=
  [.move (f (-4), f (-4)), .line (f (-4), f 4), .line (f 4, f 4), .line (f 4, f (-4))]

/-- `Symbols::from_euroscope`, symbols.rs 159-246: the field of each kind. `topsky` are the rules of
`Topsky::symbols`. -/
def symbolOf (symbology : Map SymbolType (Symbol F)) (topsky : Option (Map Str (Symbol F))) :
    Kind → Symbol F
  | .historyDot => (((topsky.bind (·.get? c!"HISTORY"))).or
      (symbology.get? .historyDot)).getD (defaultHistoryDot f)
  | .fix => ((topsky.bind (·.get? c!"FIX")).or (symbology.get? .fix)).getD (defaultFix f)
  | .ndb => ((topsky.bind (·.get? c!"NDB")).or (symbology.get? .ndb)).getD (defaultNdb f)
  | .vor => ((topsky.bind (·.get? c!"VOR")).or (symbology.get? .vor)).getD (defaultNdb f)
  | .airport => ((topsky.bind (·.get? c!"AIRPORT")).or (symbology.get? .airport)).getD (defaultAirport f)
  | .primary => ((topsky.bind (·.get? c!"PRIMARY")).or
      (symbology.get? .aircraftPrimaryOnly)).getD (defaultPrimary f)
  | .coasted => ((topsky.bind (·.get? c!"COASTED")).or
      (symbology.get? .aircraftCoasting)).getD (defaultCoasted f)
  | .uncontrolled => ((topsky.bind (·.get? c!"UNCONTROLLED")).or
      (symbology.get? .aircraftUncorrModeAlphaCharlie)).getD (defaultUncontrolled f)
  | .controlled => ((topsky.bind (·.get? c!"DAPS")).or
      (symbology.get? .aircraftCorrModeSierra)).getD (defaultControlled f)

/-- `Symbols::default`, symbols.rs 249-264 -/
def defaultSymbol : Kind → Symbol F
  | .historyDot => defaultHistoryDot f
  | .fix => defaultFix f
  | .ndb => defaultNdb f
  | .vor => defaultVor f
  | .airport => defaultAirport f
  | .primary => defaultPrimary f
  | .coasted => defaultCoasted f
  | .uncontrolled => defaultUncontrolled f
  | .controlled => defaultControlled f

end

end Verif.Settings
