import Verif.Model.Maps
/-!
# What a TopSky map should look like

Everything is stated position by position: what a rule draws, and with which attributes, depends on
the rules before it.
-/

namespace Verif.Maps.Spec
open World
variable [World]

/-- An element drawn by a map. -/
inductive Elem where
  | line (points : List Point)
  | symbol (s : Symbol)
  | label (l : Label)
  | polygon (ring : List Point)

/-- Does the rule draw the collected coordinates? -/
def isFlush : MapRule → Bool
  | .coordPoly _ => true
  | .coordLine => true
  | _ => false

def coordOf : MapRule → Option Loc
  | .coord l => some l
  | _ => none

/-- The coordinates collected by `before` since its last COORDPOLY or COORDLINE. -/
def collected (before : List MapRule) : List Loc :=
  (before.reverse.takeWhile fun r => !isFlush r).reverse.filterMap coordOf

/-- The ring through points: closed by repeating the first point, unless it is closed already. -/
def ringOf : List Point → List Point
  | [] => []
  | a :: l => if pointEq a (l.getLastD a) then a :: l else (a :: l) ++ [a]

/-- What a rule draws. -/
def drawn (s : Settings) (conv : Loc → Option Point) (before : List MapRule) : MapRule → List Elem
  | .symbol sym => (conv sym.location).toList.map fun p =>
      .symbol ⟨sym.name, p, sym.label.map (·.1), sym.labelAlignment.getD defaultAlignment,
        match sym.label with
        | some (_, offset) => offset
        | none => s.labelOffset⟩
  | .line ls => ls.map fun l => .line (l.filterMap conv)
  | .text t => (conv t.location).toList.map fun p =>
      .label ⟨p, t.alignment.getD defaultAlignment, t.content⟩
  | .coordPoly _ => [.polygon (ringOf ((collected before).filterMap conv))]
  | .coordLine => [.line ((collected before).filterMap conv)]
  | _ => []

/-- The effect of a rule on the attributes; `none` if it has none (an unknown colour included). -/
def configures (s : Settings) (getColour : Str → Option Col) : MapRule → Option (Attr → Attr)
  | .colour name => (getColour name).map fun c a => { a with colour := c }
  | .asrData d => some fun a => { a with asrData := d }
  | .layer n => some fun a => { a with layer := n }
  | .zoom n => some fun a => { a with zoom := some n }
  | .fontSize f => some fun a =>
      { a with
        fontSize := match f with
          | .exact n => n
          | .add n => World.add a.fontSize n
          | .subtract n => World.sub a.fontSize n
          | .multiply n => World.mul a.fontSize n
          | .default => s.fontSize }
  | .lineStyle l => some fun a => { a with lineStyle := l }
  | _ => none

/-- The attributes in effect after the rules `before`. -/
def inEffect (s : Settings) (getColour : Str → Option Col) (initial : Attr) (before : List MapRule) :
    Attr :=
  (before.filterMap (configures s getColour)).foldl (fun a f => f a) initial

/-- Everything the rules draw, with the attributes in effect, in rule order. -/
def expected (s : Settings) (getColour : Str → Option Col) (conv : Loc → Option Point)
    (initial : Attr) (rules : List MapRule) : List (Attr × Elem) :=
  rules.zipIdx.flatMap fun (r, i) =>
    (drawn s conv (rules.take i) r).map fun e => (inEffect s getColour initial (rules.take i), e)

/-- The attributes before the first rule: the defaults and the first known colour of the map. -/
def initial (s : Settings) (colour : Col) : Attr :=
  ⟨colour, s.fontSize, s.layer, none, none, defaultLineStyle⟩

/-- The elements of one kind, with attributes. -/
def linesOf (l : List (Attr × Elem)) : List (Attr × List Point) :=
  l.filterMap fun | (a, .line p) => some (a, p) | _ => none
def symbolsOf (l : List (Attr × Elem)) : List (Attr × Symbol) :=
  l.filterMap fun | (a, .symbol p) => some (a, p) | _ => none
def labelsOf (l : List (Attr × Elem)) : List (Attr × Label) :=
  l.filterMap fun | (a, .label p) => some (a, p) | _ => none
def polygonsOf (l : List (Attr × Elem)) : List (Attr × List Point) :=
  l.filterMap fun | (a, .polygon p) => some (a, p) | _ => none

def isPolygon : Elem → Bool
  | .polygon _ => true
  | _ => false

/-- The elements drawn by `before` since its last rule that changes an attribute. -/
def sinceChange (s : Settings) (getColour : Str → Option Col) (conv : Loc → Option Point)
    (before : List MapRule) : List Elem :=
  before.zipIdx.flatMap fun (r, i) =>
    if ∀ r' ∈ before.drop i, configures s getColour r' = none then drawn s conv (before.take i) r
    else []

/-- No attribute is changed when only polygons were drawn since the last change. -/
def NoChangeAfterPolygonsOnly (s : Settings) (getColour : Str → Option Col)
    (conv : Loc → Option Point) (rules : List MapRule) : Prop :=
  ∀ before r after, rules = before ++ r :: after → configures s getColour r ≠ none →
    sinceChange s getColour conv before = [] ∨
      ∃ e ∈ sinceChange s getColour conv before, isPolygon e = false

/-! ### Active conditions, folder, hidden -/

/-- The AND_ACTIVE conditions up to the next ACTIVE rule. -/
def leadingAnds : List MapRule → List Active
  | [] => []
  | .active _ :: _ => []
  | .andActive a :: l => a :: leadingAnds l
  | _ :: l => leadingAnds l

/-- One group per ACTIVE rule: its condition and the AND_ACTIVE conditions up to the next one. -/
def activeGroups : List MapRule → List (List Active)
  | [] => []
  | .active a :: l => (a :: leadingAnds l) :: activeGroups l
  | _ :: l => activeGroups l

/-- The folder named last, else the folder for maps without one. -/
def folderOf (s : Settings) (rules : List MapRule) : Str :=
  ((rules.filterMap fun | .folder f => some f | _ => none).getLast?).getD s.autoFolder

def isHidden (rules : List MapRule) : Prop := MapRule.hidden ∈ rules

/-! ### Names -/

/-- `name` itself if it is not taken, else the free `name_i` with the smallest `i ≥ 2`. -/
def IsNameFor (taken : List Str) (name given : Str) : Prop :=
  (name ∉ taken ∧ given = name) ∨
  (name ∈ taken ∧ ∃ i, 2 ≤ i ∧ given = name ++ '_' :: showNat i ∧ given ∉ taken ∧
    ∀ j, 2 ≤ j → j < i → (name ++ '_' :: showNat j) ∈ taken)

/-- The names given to maps that come in that order. -/
def AreNamesFor (names given : List Str) : Prop :=
  names.length = given.length ∧
  ∀ i (h : i < names.length) (h' : i < given.length), IsNameFor (given.take i) names[i] given[i]

end Verif.Maps.Spec
