import Verif.Spec.Isec
import Verif.Model.AirwayGraph
/-!
# Specification for airway.txt

Written without reference to the grammar or the parser.  Comments, line ends, coordinates and
designators are those of `Spec/Isec.lean`.
-/

namespace Verif.Spec.Airway
open Verif.Spec.Isec (IsComment IsLineEnd IsCoord IsDesignator)

/-- The fields of a neighbour, as written. -/
structure Nb where
  designator : Str
  lat : Str
  lng : Str
  /-- digits, `NESTB` or nothing -/
  level : Str
  /-- `Y` or `N` -/
  valid : Str
  deriving DecidableEq, Repr

/-- The fields of an airway line, as written. -/
structure Line where
  fix : Str
  lat : Str
  lng : Str
  airway : Str
  /-- `B`, `H`, `L` or nothing -/
  type : Str
  nb1 : Option Nb
  nb2 : Option Nb
  deriving DecidableEq, Repr

/-- The text of a neighbour; every field has a tab in front of it.  No neighbour is five fields that
are `0` or empty, followed by `N`. -/
def IsNb : Option Nb → Str → Prop
  | none, t => ∃ z1 z2 z3 z4 z5 : Str, (∀ z ∈ [z1, z2, z3, z4, z5], z = [] ∨ z = ['0']) ∧
      t = '\t' :: (z1 ++ '\t' :: (z2 ++ '\t' :: (z3 ++ '\t' :: (z4 ++ '\t' :: (z5 ++ ['N'])))))
  | some n, t => IsDesignator n.designator ∧ IsCoord n.lat ∧ IsCoord n.lng ∧
      (IsDigits n.level ∨ n.level = c!"NESTB" ∨ n.level = []) ∧ (n.valid = ['Y'] ∨ n.valid = ['N']) ∧
      t = '\t' :: (n.designator ++ '\t' :: (n.lat ++ '\t' :: (n.lng ++ '\t' :: (n.level ++ '\t' :: n.valid))))

/-- The text of an airway line: fix, latitude, longitude, `14`, airway and type, separated by tabs, two
neighbours and possibly a comment. -/
def IsLine (w : Line) (t : Str) : Prop :=
  ∃ n1 n2 cm, IsDesignator w.fix ∧ IsCoord w.lat ∧ IsCoord w.lng ∧ IsDesignator w.airway ∧
    (w.type = ['B'] ∨ w.type = ['H'] ∨ w.type = ['L'] ∨ w.type = []) ∧ IsNb w.nb1 n1 ∧ IsNb w.nb2 n2 ∧
    (cm = [] ∨ IsComment cm) ∧
    t = w.fix ++ '\t' :: (w.lat ++ '\t' :: (w.lng ++ '\t' :: '1' :: '4' :: '\t' :: (w.airway ++ '\t' ::
      (w.type ++ (n1 ++ (n2 ++ cm))))))

/-- The content consists of airway lines, each with a line end, and lines that are empty or a comment;
`ws` are its airway lines in file order. -/
inductive IsFile : Str → List Line → Prop
  | last (b : Str) : (b = [] ∨ IsComment b) → IsFile b []
  | blank (b nl rest : Str) (ws : List Line) : (b = [] ∨ IsComment b) → IsLineEnd nl rest →
      IsFile rest ws → IsFile (b ++ nl ++ rest) ws
  | line (w : Line) (t nl rest : Str) (ws : List Line) : IsLine w t → IsLineEnd nl rest →
      IsFile rest ws → IsFile (t ++ nl ++ rest) (w :: ws)

open Verif.AirwayGraph

/-- The minimum level of a neighbour. -/
def levelOf (n : Nb) : Option Nat :=
  if n.level = [] ∨ n.level = c!"NESTB" then none else some (digitsValue n.level)

/-- The airway type a text stands for. -/
def typeOf (t : Str) : AirwayType :=
  if t = ['H'] then .high else if t = ['L'] then .low else if t = ['B'] then .both else .unknown

/-- The segment a line with the neighbour `n` stands for.  `pt` gives the position for a latitude and
a longitude. -/
def segment {P : Type} (pt : Str → Str → P) (w : Line) (n : Nb) : Segment P :=
  { airway := w.airway, fromName := w.fix, fromPos := pt w.lat w.lng
    segment := { fix := { designator := n.designator, coordinate := pt n.lat n.lng }
                 validDirection := n.valid = ['Y'], minimumLevel := levelOf n }
    airwayType := typeOf w.type }

/-- The segments of a line: one for every neighbour. -/
def segments {P : Type} (pt : Str → Str → P) (w : Line) : List (Segment P) :=
  (w.nb1.map (segment pt w)).toList ++ (w.nb2.map (segment pt w)).toList

/-- Every level of the line is a `u32`. -/
def LevelsFit (w : Line) : Prop :=
  ∀ n, (w.nb1 = some n ∨ w.nb2 = some n) → ∀ l, levelOf n = some l → l < 4294967296

end Verif.Spec.Airway
