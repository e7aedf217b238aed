import Verif.Base.Unicode
import Verif.Base.Lit
/-!
# Parsing expression grammars as `pest` runs them

The parsers of the code base are generated by `pest` from the grammars in `/repo/src/pest`.  This
file is a model of what the generated code does; `pest` itself is not part of the repository, so the
rules below are part of the trusted base (DESIGN.md lists them).  No grammar of the repository is
recursive, so a grammar rule is an expression in which the rules it uses are nested.
-/

namespace Verif.Peg

/-- `pest::Atomicity`.  Implicit skipping happens in `nonAtomic` only; tokens are dropped in
`atomic` only. -/
inductive Atom where
  | nonAtomic
  | compound
  | atomic
  deriving DecidableEq, Repr

/-- Rule modifiers that produce tokens: none, `@` and `$`.  Silent rules (`_`) are just their
body. -/
inductive Ty where
  | normal
  | atomic
  | compound
  deriving DecidableEq, Repr

/-- Grammar expressions; `R` is the type of rule names (`Rule` of the generated parser). -/
inductive Expr (R : Type) where
  /-- a string literal -/
  | str (w : Str)
  /-- one character of a class: ranges, `ANY`, `ASCII_DIGIT`, `LETTER`, … -/
  | cls (p : Char → Bool)
  /-- `SOI` -/
  | soi
  /-- `EOI`; it emits a token -/
  | eoi (r : R)
  /-- `x ~ y` -/
  | seq (x y : Expr R)
  /-- `x | y` -/
  | alt (x y : Expr R)
  /-- `x?` -/
  | opt (x : Expr R)
  /-- `x*` -/
  | star (x : Expr R)
  /-- `!x` -/
  | not (x : Expr R)
  /-- a use of a rule that emits a token -/
  | rule (r : R) (ty : Ty) (x : Expr R)
  /-- a use of `WHITESPACE` or `COMMENT`: silent, and its body runs atomically -/
  | quiet (x : Expr R)
  /-- `PUSH(x)` -/
  | push (x : Expr R)
  /-- `POP` -/
  | pop
  /-- `PUSH(x) ~ y ~ POP` inside an atomic rule: `x`, `y` and again the text of `x`
  (`eval_dup` in `Verif/Peg/Exact.lean`: this is the combination of the three) -/
  | dup (x y : Expr R)

@[inherit_doc] infixr:65 " ⬝ " => Expr.seq
@[inherit_doc] infixr:60 " ∥ " => Expr.alt

namespace Expr
variable {R : Type}

/-- `x+`: `pest` unrolls it to `x ~ x*`. -/
def plus (x : Expr R) : Expr R := x ⬝ star x

/-- `ANY` -/
def any : Expr R := cls fun _ => true

/-- `NEWLINE` -/
def newline : Expr R := str ['\n'] ∥ str ['\r', '\n'] ∥ str ['\r']

end Expr

/-- A `Pair`: rule, matched text, inner pairs. -/
inductive Tree (R : Type) where
  | node (r : R) (text : Str) (kids : List (Tree R))

namespace Tree
variable {R : Type}
/-- `Pair::as_rule` -/
def asRule : Tree R → R | node r _ _ => r
/-- `Pair::as_str` -/
def asStr : Tree R → Str | node _ s _ => s
/-- `Pair::into_inner` -/
def inner : Tree R → List (Tree R) | node _ _ k => k
@[simp] theorem asRule_node (r : R) (s k) : (node r s k).asRule = r := rfl
@[simp] theorem asStr_node (r : R) (s k) : (node r s k).asStr = s := rfl
@[simp] theorem inner_node (r : R) (s k) : (node r s k).inner = k := rfl
end Tree

/-- Parser state: position, remaining input, stack of pushed texts. -/
structure St where
  pos : Nat
  rest : Str
  stack : List Str
  deriving DecidableEq, Repr

/-- Outcome of an expression. `diverge`: the generated parser would loop for ever. -/
inductive Res (R : Type) where
  | ok (st : St) (ts : List (Tree R))
  | fail
  | diverge

namespace Res
variable {R : Type}
/-- Run `f` after a success. -/
def bind : Res R → (St → List (Tree R) → Res R) → Res R
  | ok st ts, f => f st ts
  | fail, _ => fail
  | diverge, _ => diverge
@[simp] theorem ok_bind (st : St) (ts : List (Tree R)) (f) : (ok st ts).bind f = f st ts := rfl
@[simp] theorem fail_bind (f : St → List (Tree R) → Res R) : fail.bind f = fail := rfl
@[simp] theorem diverge_bind (f : St → List (Tree R) → Res R) : diverge.bind f = diverge := rfl
end Res

/-- Move past `w`. -/
def St.advance (st : St) (n : Nat) : St := { st with pos := st.pos + n, rest := st.rest.drop n }

/-- The text between two states. -/
def St.between (st st' : St) : Str := st.rest.take (st.rest.length - st'.rest.length)

/-- `state.repeat(f)`: `f` as often as it succeeds.  An iteration that consumes nothing would be
repeated for ever.  Every other iteration shortens the input, so fuel beyond its length is never
used up. -/
def many {R : Type} (f : St → Res R) : Nat → St → Res R
  | 0, _ => .diverge
  | n + 1, st =>
    match f st with
    | .fail => .ok st []
    | .diverge => .diverge
    | .ok st' ts =>
      if st'.rest.length < st.rest.length then (many f n st').bind fun st'' ts' => .ok st'' (ts ++ ts')
      else .diverge

/-- Implicit skipping: only in non-atomic state. -/
def skipIf {R : Type} (sk : St → Res R) (a : Atom) (st : St) : Res R :=
  match a with
  | .nonAtomic => sk st
  | _ => .ok st []

/-- Does a rule used in atomicity `a` emit a token? -/
def emits : Ty → Atom → Bool
  | .compound, _ => true
  | _, .atomic => false
  | _, _ => true

/-- Atomicity inside the rule. -/
def inside : Ty → Atom → Atom
  | .normal, a => a
  | .atomic, _ => .atomic
  | .compound, _ => .compound

/-- The generated parser.  `sk` is the implicit skip. -/
def eval {R : Type} (sk : St → Res R) : Expr R → Atom → St → Res R
  | .str w, _, st => if w.isPrefixOf st.rest then .ok (st.advance w.length) [] else .fail
  | .cls p, _, st =>
    match st.rest with
    | [] => .fail
    | c :: _ => if p c then .ok (st.advance 1) [] else .fail
  | .soi, _, st => if st.pos = 0 then .ok st [] else .fail
  | .eoi r, a, st =>
    if st.rest = [] then .ok st (if a = .atomic then [] else [.node r [] []]) else .fail
  | .seq x y, a, st =>
    (eval sk x a st).bind fun st1 ts1 =>
      (skipIf sk a st1).bind fun st2 _ =>
        (eval sk y a st2).bind fun st3 ts3 => .ok st3 (ts1 ++ ts3)
  | .alt x y, a, st =>
    match eval sk x a st with
    | .fail => eval sk y a st
    | r => r
  | .opt x, a, st =>
    match eval sk x a st with
    | .fail => .ok st []
    | r => r
  | .star x, a, st =>
    match eval sk x a st with
    | .fail => .ok st []
    | .diverge => .diverge
    | .ok st1 ts1 =>
      (many (fun s => (skipIf sk a s).bind fun s1 _ => eval sk x a s1) (st1.rest.length + 1) st1).bind
        fun st2 ts2 => .ok st2 (ts1 ++ ts2)
  | .not x, a, st =>
    match eval sk x a st with
    | .fail => .ok st []
    | .ok _ _ => .fail
    | .diverge => .diverge
  | .rule r ty x, a, st =>
    (eval sk x (inside ty a) st).bind fun st' ts =>
      .ok st' (if emits ty a then [.node r (st.between st') ts] else ts)
  | .quiet x, _, st => eval sk x .atomic st
  | .push x, a, st =>
    (eval sk x a st).bind fun st' ts => .ok { st' with stack := st.between st' :: st'.stack } ts
  | .pop, _, st =>
    match st.stack with
    | [] => .fail
    | w :: ws =>
      if w.isPrefixOf st.rest then .ok { st.advance w.length with stack := ws } [] else .fail
  | .dup x y, a, st =>
    (eval sk x a st).bind fun st1 ts1 =>
      (eval sk y a st1).bind fun st2 ts2 =>
        if (st.between st1).isPrefixOf st2.rest then .ok (st2.advance (st.between st1).length) (ts1 ++ ts2)
        else .fail

/-- No implicit rules. -/
def noSkip {R : Type} (st : St) : Res R := .ok st []

/-- Repeat a `WHITESPACE` or `COMMENT` rule. -/
def manyQuiet {R : Type} (x : Expr R) (st : St) : Res R :=
  many (eval noSkip x .atomic) (st.rest.length + 1) st

/-- The implicit skip of a grammar with only one of `WHITESPACE`, `COMMENT`. -/
def skipOne {R : Type} (x : Expr R) (st : St) : Res R := (manyQuiet x st).bind fun st' _ => .ok st' []

/-- The implicit skip with both: `WHITESPACE* ~ (COMMENT ~ WHITESPACE*)*`. -/
def skipBoth {R : Type} (ws comment : Expr R) (st : St) : Res R :=
  (manyQuiet ws st).bind fun st1 _ =>
    (many (fun s => (eval noSkip comment .atomic s).bind fun s' _ => manyQuiet ws s')
      (st1.rest.length + 1) st1).bind fun st2 _ => .ok st2 []

/-- `Parser::parse(rule, input)`. -/
def run {R : Type} (sk : St → Res R) (e : Expr R) (input : Str) : Run (List (Tree R)) :=
  match eval sk e .nonAtomic ⟨0, input, []⟩ with
  | .ok _ ts => .ok ts
  | .fail => .error .parseError
  | .diverge => .error .diverge

/-- `pairs.next().unwrap()`. -/
def next {R : Type} : List (Tree R) → Run (Tree R × List (Tree R))
  | [] => .error .panic
  | t :: ts => .ok (t, ts)

@[simp] theorem next_cons {R : Type} (t : Tree R) (ts) : next (t :: ts) = .ok (t, ts) := rfl
@[simp] theorem next_nil {R : Type} : next ([] : List (Tree R)) = .error .panic := rfl

end Verif.Peg
