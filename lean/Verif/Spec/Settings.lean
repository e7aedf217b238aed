import Verif.Model.Settings
/-!
# Specification of settings
-/

namespace Verif.Settings

/-- The text of octal digits. -/
def digitsText (ds : List (Fin 8)) : Str := ds.map fun d => Char.ofNat ('0'.toNat + d.val)

/-- The number written by octal digits. -/
def digitsNumber (ds : List (Fin 8)) : Nat := ds.foldl (fun n d => 8 * n + d.val) 0

/-- `s` is an octal numeral for the 16-bit number `n`, possibly with a plus sign. -/
def Octal (s : Str) (n : Nat) : Prop :=
  n < 65536 ∧ ∃ ds : List (Fin 8), ds ≠ [] ∧ digitsNumber ds = n ∧
    (s = digitsText ds ∨ s = '+' :: digitsText ds)

/-- `k` is the octal numeral of `n` with at least four digits, without further leading zeros. -/
def IsCode (k : Str) (n : Nat) : Prop :=
  ∃ ds : List (Fin 8), k = digitsText ds ∧ digitsNumber ds = n ∧ 4 ≤ ds.length ∧
    (4 < ds.length → ds.head? ≠ some 0)

/-- The entry applies to code `n`: it has a code and no range and the code is `n`, or it has a range
and no code and `n` lies in the range. -/
def Covers (sq : SquawkDef) (n : Nat) : Prop :=
  (∃ s, sq.code = some s ∧ sq.range = none ∧ Octal s n) ∨
  (∃ a b lo hi, sq.code = none ∧ sq.range = some (a, b) ∧ Octal a lo ∧ Octal b hi ∧ lo ≤ n ∧ n ≤ hi)

/-- The dash pattern of a list of lengths: consecutive pairs, an odd last length being ignored; no
pattern if there is no pair. -/
def IsPattern {F : Type} (lengths : List F) : Option (List (F × F)) → Prop
  | none => lengths.length < 2
  | some ds => 2 ≤ lengths.length ∧ ds.length = lengths.length / 2 ∧
      ∀ i (p : F × F), ds[i]? = some p ↔ lengths[2 * i]? = some p.1 ∧ lengths[2 * i + 1]? = some p.2

/-- The names of the built-in line styles. -/
def builtinNames : List Str :=
  [c!"SOLID", c!"ALTERNATE", c!"DASH", c!"DOT", c!"DASHDOT", c!"DASHDOTDOT"]

/-- The TopSky name of each symbol. -/
def topskyName : Kind → Str
  | .historyDot => c!"HISTORY"
  | .fix => c!"FIX"
  | .ndb => c!"NDB"
  | .vor => c!"VOR"
  | .airport => c!"AIRPORT"
  | .primary => c!"PRIMARY"
  | .coasted => c!"COASTED"
  | .uncontrolled => c!"UNCONTROLLED"
  | .controlled => c!"DAPS"

/-- The symbology type of each symbol. -/
def symbologyType : Kind → SymbolType
  | .historyDot => .historyDot
  | .fix => .fix
  | .ndb => .ndb
  | .vor => .vor
  | .airport => .airport
  | .primary => .aircraftPrimaryOnly
  | .coasted => .aircraftCoasting
  | .uncontrolled => .aircraftUncorrModeAlphaCharlie
  | .controlled => .aircraftCorrModeSierra

end Verif.Settings
