import Verif.Peg.Core
import Verif.Base.Num
import Verif.Model.Settings
/-!
# Drawing rules of symbols

The closure that turns a drawing rule into a `SymbolRule` is written twice in the code, with the same
text: `parse_symbol_rules` of `/repo/src/symbology.rs` and of `/repo/src/topsky/symbol.rs`.  It is
modelled once, for any token type `R` whose tokens are classified by `kind`.
-/

namespace Verif.Parse.SymbolRule
open Verif.Peg
open Verif.Settings (SymbolRule)

/-- The test `(radius_x - radius_y).abs() < f64::EPSILON`, symbology.rs 181 and 204, topsky/symbol.rs 45 and 68, left abstract: nothing is
assumed about it. -/
class Close (F : Type) where
  close : F → F → Bool

/-- The tokens that are drawing rules, symbol_rule.pest 1-3. -/
inductive Kind
  | moveto | line | fillarc | fillarcEllipse | arc | arcEllipse | ellipse | ellipseCircle | polygon | pixel
  | fillrect
  deriving DecidableEq

section
variable {R F : Type} [F64 F]

/-- `iterator.next().unwrap().as_str().parse().unwrap()` for an `f64`. -/
def nextNum (ts : List (Tree R)) : Run (F × List (Tree R)) := do
  let (x, ts) ← next ts
  let v ← unwrap (F64.ofText x.asStr)
  pure (v, ts)

/-- `symbolrule.next().unwrap().as_str().parse::<i64>().unwrap() % 360`; Rust's `%` truncates towards
zero. -/
def nextAngle (ts : List (Tree R)) : Run (Int × List (Tree R)) := do
  let (x, ts) ← next ts
  let v ← unwrap (parseSigned (2 ^ 63) x.asStr)
  pure (v.tmod 360, ts)

/-- `parse_point`, symbology.rs 145-150, topsky/mod.rs 220-225 -/
def parsePoint (pair : Tree R) : Run (F × F) := do
  let (x, ts) ← nextNum pair.inner
  let (y, _) ← nextNum ts
  pure (x, y)

/-- `parse_point(symbolrule.next().unwrap())` -/
def nextPoint (ts : List (Tree R)) : Run ((F × F) × List (Tree R)) := do
  let (x, ts) ← next ts
  let p ← parsePoint x
  pure (p, ts)

/-- The closure of `parse_symbol_rules`, symbology.rs 157-235, topsky/symbol.rs 21-99.  An unknown token
is `unreachable!`. -/
def parseRule [Close F] (kind : R → Option Kind) (pair : Tree R) : Run (SymbolRule F) :=
  match kind pair.asRule with
  | some .moveto => do
    let (p, _) ← nextPoint pair.inner
    pure (.move p)
  | some .line => do
    let (p, _) ← nextPoint pair.inner
    pure (.line p)
  | some .pixel => do
    let (p, _) ← nextPoint pair.inner
    pure (.pixel p)
  | some .arc => do
    let (p, ts) ← nextPoint pair.inner
    let (r, ts) ← nextNum ts
    let (a, ts) ← nextAngle ts
    let (b, _) ← nextAngle ts
    pure (.arc p r a b)
  | some .arcEllipse => do
    let (p, ts) ← nextPoint pair.inner
    let (rx, ts) ← nextNum ts
    let (ry, ts) ← nextNum ts
    let (a, ts) ← nextAngle ts
    let (b, _) ← nextAngle ts
    pure (if Close.close rx ry then .arc p rx a b else .ellipticArc p rx ry a b)
  | some .fillarc => do
    let (p, ts) ← nextPoint pair.inner
    let (r, ts) ← nextNum ts
    let (a, ts) ← nextAngle ts
    let (b, _) ← nextAngle ts
    pure (.filledArc p r a b)
  | some .fillarcEllipse => do
    let (p, ts) ← nextPoint pair.inner
    let (rx, ts) ← nextNum ts
    let (ry, ts) ← nextNum ts
    let (a, ts) ← nextAngle ts
    let (b, _) ← nextAngle ts
    pure (if Close.close rx ry then .filledArc p rx a b else .filledEllipticArc p rx ry a b)
  | some .ellipseCircle => do
    let (p, ts) ← nextPoint pair.inner
    let (r, _) ← nextNum ts
    pure (.filledArc p r 0 0)
  | some .ellipse => do
    let (p, ts) ← nextPoint pair.inner
    let (rx, ts) ← nextNum ts
    let (ry, _) ← nextNum ts
    pure (.filledEllipticArc p rx ry 0 0)
  | some .fillrect => do
    let (p1, ts) ← nextPoint pair.inner
    let (p2, _) ← nextPoint ts
    pure (.polygon [(p1.1, p1.2), (p2.1, p1.2), (p2.1, p2.2), (p1.1, p2.2)])
  | some .polygon => do
    let ps ← pair.inner.mapM parsePoint
    pure (.polygon ps)
  | none => .error .panic

end

end Verif.Parse.SymbolRule
