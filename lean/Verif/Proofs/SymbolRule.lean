import Verif.Parse.SymbolRule
import Verif.Spec.SymbolRule
import Verif.Peg.NewLines
import Verif.Peg.Numbers
import Verif.Peg.Infix
/-!
# Lemmas about the drawing rules of symbols

The rules of symbol_rule.pest are part of two grammars, so they are built here from the names of the
tokens.
-/

namespace Verif.Proofs.SymbolRule
open Verif.Peg Verif.Spec.Drawing Verif.Parse.SymbolRule
open Verif.Settings (SymbolRule)

/-- The tokens of symbol_rule.pest in a grammar. -/
structure Names (R : Type) where
  decimal : R
  integer : R
  point : R
  name : Kind → R

inductive Part
  | pt | dec | int

section
variable {R : Type} (n : Names R)

abbrev delim : Expr R := (.str c!":") ∥ (.str c!" ")
abbrev decE : Expr R := .rule n.decimal .atomic Base.decimal
abbrev intE : Expr R := .rule n.integer .atomic Base.integer
abbrev ptE : Expr R := .rule n.point .compound (decE n ⬝ delim ⬝ decE n)

def partE : Part → Expr R
  | .pt => ptE n
  | .dec => decE n
  | .int => intE n

def partsE : Part → List Part → Expr R
  | p, [] => delim ⬝ partE n p
  | p, q :: qs => delim ⬝ partE n p ⬝ partsE q qs

/-- A rule with a keyword and parts. -/
def lineE (k : Kind) (w : Str) (p : Part) (ps : List Part) : Expr R :=
  .rule (n.name k) .compound ((.str w) ⬝ partsE n p ps)

def polyE : Expr R := .rule (n.name .polygon) .compound ((.str c!"POLYGON") ⬝ (.plus (delim ⬝ ptE n)))

/-- symbol_rule.pest 1-3 without the line end -/
def rulesE : Expr R :=
  lineE n .moveto c!"MOVETO" .pt [] ∥ lineE n .line c!"LINETO" .pt [] ∥
  lineE n .fillarcEllipse c!"FILLARC" .pt [.dec, .dec, .int, .int] ∥ lineE n .fillarc c!"FILLARC" .pt [.dec, .int, .int] ∥
  lineE n .arcEllipse c!"ARC" .pt [.dec, .dec, .int, .int] ∥ lineE n .arc c!"ARC" .pt [.dec, .int, .int] ∥
  polyE n ∥ lineE n .pixel c!"SETPIXEL" .pt [] ∥ lineE n .ellipse c!"ELLIPSE" .pt [.dec, .dec] ∥
  lineE n .ellipseCircle c!"ELLIPSE" .pt [.dec] ∥ lineE n .fillrect c!"FILLRECT" .pt [.pt]

end

/-- A part and its text. -/
inductive Arg
  | pt (x : Str) (d : Char) (y : Str)
  | dec (n : Str)
  | int (n : Str)

def Arg.text : Arg → Str
  | .pt x d y => x ++ d :: y
  | .dec n => n
  | .int n => n

def Arg.part : Arg → Part
  | .pt .. => .pt
  | .dec .. => .dec
  | .int .. => .int

def Arg.tree {R : Type} (n : Names R) : Arg → Tree R
  | .pt x d y => .node n.point (x ++ d :: y) [.node n.decimal x [], .node n.decimal y []]
  | .dec s => .node n.decimal s []
  | .int s => .node n.integer s []

def IsDelim (d : Char) : Prop := d = ':' ∨ d = ' '

def Arg.Valid : Arg → Prop
  | .pt x d y => IsDecimal x ∧ IsDelim d ∧ IsDecimal y
  | .dec n => IsDecimal n
  | .int n => IsInteger n

/-- Parts with the delimiters in front of them. -/
abbrev Args := List (Char × Arg)

def Args.text (l : Args) : Str := l.flatMap fun e => e.1 :: e.2.text

def Args.Valid (l : Args) : Prop := ∀ e ∈ l, IsDelim e.1 ∧ e.2.Valid

def numStart (c : Char) : Bool := isAsciiDigit c || c == '+' || c == '-' || c == '.'

/-- No further number follows. -/
def ArgsEnd (r : Str) : Prop := NumEnd r ∧ ∀ d t, r = d :: t → IsDelim d → HeadNot numStart t

set_option linter.unusedSectionVars false

section
variable {R : Type} {sk : St → Res R} {K : Str → Str → Prop}

/-- What is used about the implicit skip. -/
structure Good (sk : St → Res R) (K : Str → Str → Prop) : Prop where
  ok : SkipOK K sk
  exact : SkipExact K sk
  uniform : Uniform sk

variable (g : Good sk K) (n : Names R)
include g

theorem fails_seq_at {x y : Expr R} {a : Atom} (ha : a ≠ .nonAtomic) {s r : Str} {u : List (Tree R)} (hp : plain x = true)
    (hw : wf x = true) (hy : plain y = true) (h : Out sk K x a s r u) (hf : Fails sk y a r) : Fails sk (x ⬝ y) a (s ++ r) := by
  refine ⟨0, [], ?_⟩
  have e1 := out_eval g.uniform g.exact x hp hw _ _ _ _ (⟨0, s ++ r, []⟩ : St) h rfl
  have e3 := (uniform_eval g.uniform y hy a).fail_of hf ((⟨0, s ++ r, []⟩ : St).past s r) rfl
  cases a with
  | nonAtomic => exact absurd rfl ha
  | compound => simp only [eval, e1, Res.ok_bind, skipIf, e3]; rfl
  | atomic => simp only [eval, e1, Res.ok_bind, skipIf, e3]; rfl

theorem like_delim (a : Atom) : LikeCls sk K delim a (fun c => c == ':' || c == ' ') :=
  (likeCls_char ':' a).alt (likeCls_char ' ' a) (uniform_eval g.uniform _ rfl a)

theorem out_delim {a : Atom} {d : Char} {r : Str} (h : IsDelim d) : Out sk K delim a [d] r [] :=
  ((like_delim g a).out _ _ _).2 ⟨d, rfl, by rcases h with rfl | rfl <;> decide, rfl⟩

theorem delim_numEnd {d : Char} {r : Str} (h : IsDelim d) : NumEnd (d :: r) :=
  headNot_cons.2 (by rcases h with rfl | rfl <;> decide)

theorem out_dec {s r : Str} (h : IsDecimal s) (hr : NumEnd r) : Out sk K (decE n) .compound s r [.node n.decimal s []] :=
  ⟨[], out_decimal_build g.ok g.uniform (by decide) h hr, rfl⟩

theorem out_int {s r : Str} (h : IsInteger s) (hr : NumEnd r) : Out sk K (intE n) .compound s r [.node n.integer s []] :=
  ⟨[], out_integer_build g.uniform (by decide) h hr.digit, rfl⟩

theorem out_arg {e : Arg} {r : Str} (h : e.Valid) (hr : NumEnd r) : Out sk K (partE n e.part) .compound e.text r [e.tree n] := by
  cases e with
  | dec s => exact out_dec g n h hr
  | int s => exact out_int g n h hr
  | pt x d y =>
    refine ⟨[.node n.decimal x [], .node n.decimal y []], ?_, rfl⟩
    refine (out_seq_atomic (by decide)).2 ⟨x, d :: y, _, _, rfl, rfl, out_dec g n h.1 (delim_numEnd g h.2.1), ?_⟩
    exact (out_seq_atomic (by decide)).2 ⟨[d], y, [], _, rfl, rfl, out_delim g h.2.1, out_dec g n h.2.2 hr⟩

theorem args_numEnd {l : Args} {r : Str} (h : l.Valid) (hr : NumEnd r) : NumEnd (l.text ++ r) := by
  cases l with
  | nil => exact hr
  | cons e l => exact delim_numEnd g (h e List.mem_cons_self).1

theorem out_args (l : Args) : ∀ (e : Char × Arg) (r : Str), Args.Valid (e :: l) → NumEnd r →
    Out sk K (partsE n e.2.part (l.map (·.2.part))) .compound (Args.text (e :: l)) r ((e :: l).map (·.2.tree n)) := by
  induction l with
  | nil =>
    intro e r h hr
    refine (out_seq_atomic (by decide)).2 ⟨[e.1], e.2.text, [], _, by simp [Args.text], rfl,
      out_delim g (h e List.mem_cons_self).1, out_arg g n (h e List.mem_cons_self).2 hr⟩
  | cons f l ih =>
    intro e r h hr
    have h' : Args.Valid (f :: l) := fun x hx => h x (List.mem_cons_of_mem _ hx)
    refine (out_seq_atomic (by decide)).2 ⟨[e.1], e.2.text ++ Args.text (f :: l), [], _, by simp [Args.text], rfl,
      out_delim g (h e List.mem_cons_self).1, ?_⟩
    exact (out_seq_atomic (by decide)).2 ⟨e.2.text, Args.text (f :: l), [e.2.tree n], _, rfl, rfl,
      out_arg g n (h e List.mem_cons_self).2 (args_numEnd g h' hr), ih f r h' hr⟩

theorem fails_sign {r : Str} (h : HeadNot numStart r) {a : Atom} : Out sk K (.opt ((.str c!"-") ∥ (.str c!"+"))) a [] r [] := by
  refine Or.inr ⟨rfl, rfl, (fails_alt_iff (uniform_eval g.uniform _ rfl _)).2 ⟨fails_str.2 ?_, fails_str.2 ?_⟩⟩
  · rintro ⟨t, rfl⟩; exact absurd (headNot_cons.1 h) (by decide)
  · rintro ⟨t, rfl⟩; exact absurd (headNot_cons.1 h) (by decide)

theorem numStart_digit {r : Str} (h : HeadNot numStart r) : HeadNot isAsciiDigit r := fun c hc => by
  have := h c hc
  simp only [numStart, Bool.or_eq_false_iff] at this
  exact this.1.1.1

theorem fails_digits {r : Str} (h : HeadNot numStart r) : Fails sk (.plus (.cls isAsciiDigit)) .atomic r :=
  fails_plus (fails_cls.2 (numStart_digit g h))

theorem fails_int {r : Str} (h : HeadNot numStart r) : Fails sk (intE n) .compound r :=
  fails_rule (fails_seq_at g (by decide) rfl rfl rfl (s := []) (fails_sign g h) (fails_digits g h))

theorem fails_dec {r : Str} (h : HeadNot numStart r) : Fails sk (decE n) .compound r := by
  refine fails_rule (fails_seq_at g (by decide) rfl rfl rfl (s := []) (fails_sign g h) ?_)
  refine (fails_alt_iff (uniform_eval g.uniform _ rfl _)).2 ⟨?_, fails_digits g h⟩
  refine fails_seq_at g (by decide) rfl rfl rfl (s := []) (u := []) ?_ (fails_seq_left (fails_str.2 ?_))
  · exact ((likeCls_cls isAsciiDigit _).star (by decide)).2 ⟨by simp, numStart_digit g h, rfl⟩
  · rintro ⟨t, rfl⟩; exact absurd (headNot_cons.1 h) (by decide)

theorem fails_part {p : Part} {r : Str} (h : HeadNot numStart r) : Fails sk (partE n p) .compound r := by
  cases p with
  | pt => exact fails_rule (fails_seq_left (fails_dec g n h))
  | dec => exact fails_dec g n h
  | int => exact fails_int g n h

theorem plain_part (p : Part) : plain (partE n p) = true ∧ wf (partE n p) = true := by
  cases p <;> exact ⟨rfl, rfl⟩

theorem plain_parts (ps : List Part) : ∀ p, plain (partsE n p ps) = true ∧ wf (partsE n p ps) = true := by
  induction ps with
  | nil => intro p; simp only [partsE, plain, wf, (plain_part g n p).1, (plain_part g n p).2]; exact ⟨rfl, rfl⟩
  | cons q qs ih =>
    intro p
    simp only [partsE, plain, wf, (plain_part g n p).1, (plain_part g n p).2, (ih q).1, (ih q).2]
    exact ⟨rfl, rfl⟩

theorem fails_delim_part {r : Str} (h : ArgsEnd r) {x : Expr R} (hx : plain x = true)
    (hf : ∀ t, HeadNot numStart t → Fails sk x .compound t) :
    Fails sk (delim ⬝ x) .compound r := by
  cases r with
  | nil => exact fails_seq_left (((like_delim g _).fails _).2 (headNot_nil _))
  | cons c t =>
    by_cases hc : IsDelim c
    · exact fails_seq_at g (by decide) rfl rfl hx (s := [c]) (out_delim g hc) (hf _ (h.2 c t rfl hc))
    · refine fails_seq_left (((like_delim g _).fails _).2 (headNot_cons.2 ?_))
      simpa [IsDelim] using hc

theorem fails_parts_end {r : Str} (h : ArgsEnd r) (p : Part) (ps : List Part) : Fails sk (partsE n p ps) .compound r := by
  cases ps with
  | nil => exact fails_delim_part g h (plain_part g n p).1 fun t ht => fails_part g n ht
  | cons q qs =>
    refine fails_delim_part g h ?_ fun t ht => fails_seq_left (fails_part g n ht)
    simp only [plain, (plain_part g n p).1, (plain_parts g n qs q).1]
    rfl

/-- More numbers are expected than there are. -/
theorem fails_parts (q : Part) (qs : List Part) (l : Args) : ∀ (e : Char × Arg) (r : Str), Args.Valid (e :: l) → ArgsEnd r →
    Fails sk (partsE n e.2.part (l.map (·.2.part) ++ q :: qs)) .compound (Args.text (e :: l) ++ r) := by
  have key : ∀ (e : Char × Arg) (r : Str) (p : Part) (ps : List Part), IsDelim e.1 → e.2.Valid → NumEnd r →
      Fails sk (partsE n p ps) .compound r →
      Fails sk (partsE n e.2.part (p :: ps)) .compound (e.1 :: e.2.text ++ r) := by
    intro e r p ps h1 h2 h3 h4
    have hp : plain (partE n e.2.part ⬝ partsE n p ps) = true := by
      simp only [plain, (plain_part g n _).1, (plain_parts g n ps p).1]; rfl
    exact fails_seq_at g (by decide) rfl rfl hp (s := [e.1]) (r := e.2.text ++ r) (out_delim g h1)
      (fails_seq_at g (by decide) (plain_part g n _).1 (plain_part g n _).2 (plain_parts g n ps p).1
        (out_arg g n h2 h3) h4)
  induction l with
  | nil =>
    intro e r h hr
    have := key e r q qs (h e List.mem_cons_self).1 (h e List.mem_cons_self).2 hr.1 (fails_parts_end g n hr q qs)
    simpa [Args.text] using this
  | cons f l ih =>
    intro e r h hr
    have h' : Args.Valid (f :: l) := fun x hx => h x (List.mem_cons_of_mem _ hx)
    have := key e (Args.text (f :: l) ++ r) f.2.part (l.map (·.2.part) ++ q :: qs) (h e List.mem_cons_self).1
      (h e List.mem_cons_self).2 (args_numEnd g h' hr.1) (ih f r h' hr)
    simpa [Args.text] using this

theorem out_line (k : Kind) (w : Str) {e : Char × Arg} {l : Args} {r : Str} (h : Args.Valid (e :: l)) (hr : NumEnd r) :
    Out sk K (lineE n k w e.2.part (l.map (·.2.part))) .nonAtomic (w ++ Args.text (e :: l)) r
      [.node (n.name k) (w ++ Args.text (e :: l)) ((e :: l).map (·.2.tree n))] :=
  ⟨_, (out_seq_atomic (by decide)).2 ⟨w, _, [], _, rfl, rfl, out_str0, out_args g n l e r h hr⟩, rfl⟩

theorem fails_line (k : Kind) (w : Str) (q : Part) (qs : List Part) {e : Char × Arg} {l : Args} {r : Str} (h : Args.Valid (e :: l))
    (hr : ArgsEnd r) :
    Fails sk (lineE n k w e.2.part (l.map (·.2.part) ++ q :: qs)) .nonAtomic (w ++ (Args.text (e :: l) ++ r)) :=
  fails_rule (fails_seq_at g (by decide) rfl rfl (plain_parts g n _ _).1 (u := []) out_str0 (fails_parts g n q qs l e r h hr))

/-- Points of a polygon. -/
theorem out_points {l : Args} {r : Str} (hr : ArgsEnd r) (h : l.Valid) (hp : ∀ e ∈ l, e.2.part = .pt) :
    Out sk K (.star (delim ⬝ ptE n)) .compound l.text r (l.map (·.2.tree n)) := by
  have one : ∀ (e : Char × Arg) (r : Str), IsDelim e.1 → e.2.Valid → e.2.part = .pt → NumEnd r →
      Out sk K (delim ⬝ ptE n) .compound (e.1 :: e.2.text) r [e.2.tree n] := fun e r h1 h2 h3 h4 => by
    have := out_arg g n h2 h4
    rw [h3] at this
    exact (out_seq_atomic (by decide)).2 ⟨[e.1], e.2.text, [], _, rfl, rfl, out_delim g h1, this⟩
  have hend : Fails sk (delim ⬝ ptE n) .compound r := fails_delim_part g hr rfl fun t ht => fails_part g n (p := .pt) ht
  cases l with
  | nil => exact Or.inl ⟨rfl, rfl, hend⟩
  | cons e l =>
    have h' : Args.Valid l := fun x hx => h x (List.mem_cons_of_mem _ hx)
    have et : ∀ l : Args, (l.map fun e => ((([] : Str), e.1 :: e.2.text), [e.2.tree n])).flatMap
        (fun p : (Str × Str) × List (Tree R) => p.1.1 ++ p.1.2) = l.text := by
      intro l; induction l <;> simp_all [Args.text]
    refine Or.inr ⟨e.1 :: e.2.text, [e.2.tree n], l.map fun e => (([], e.1 :: e.2.text), [e.2.tree n]), ?_, ?_, ?_, ?_, ?_⟩
    · rw [et]; simp [Args.text]
    · clear h hp et
      clear h'
      have : (l.map fun e => ((([] : Str), e.1 :: e.2.text), [e.2.tree n])).flatMap (·.2) = l.map (·.2.tree n) := by
        induction l <;> simp_all
      rw [this]; rfl
    · rw [et]
      exact one e _ (h e List.mem_cons_self).1 (h e List.mem_cons_self).2 (hp e List.mem_cons_self) (args_numEnd g h' hr.1)
    · have hp' : ∀ e ∈ l, e.2.part = .pt := fun x hx => hp x (List.mem_cons_of_mem _ hx)
      clear h hp
      induction l with
      | nil => trivial
      | cons f l ih =>
        have h'' : Args.Valid l := fun x hx => h' x (List.mem_cons_of_mem _ hx)
        refine ⟨⟨rfl, ?_⟩, ih h'' fun x hx => hp' x (List.mem_cons_of_mem _ hx)⟩
        rw [et]
        exact one f _ (h' f List.mem_cons_self).1 (h' f List.mem_cons_self).2 (hp' f List.mem_cons_self) (args_numEnd g h'' hr.1)
    · obtain ⟨pos, stk, hf⟩ := hend
      exact ⟨pos, stk, hf⟩

theorem out_poly {e : Char × Arg} {l : Args} {r : Str} (h : Args.Valid (e :: l)) (hr : ArgsEnd r)
    (hp : ∀ x ∈ e :: l, x.2.part = .pt) :
    Out sk K (polyE n) .nonAtomic (c!"POLYGON" ++ Args.text (e :: l)) r
      [.node (n.name .polygon) (c!"POLYGON" ++ Args.text (e :: l)) ((e :: l).map (·.2.tree n))] := by
  have h' : Args.Valid l := fun x hx => h x (List.mem_cons_of_mem _ hx)
  refine ⟨_, (out_seq_atomic (by decide)).2 ⟨_, _, [], _, rfl, rfl, out_str0, ?_⟩, rfl⟩
  refine (out_seq_atomic (by decide)).2 ⟨e.1 :: e.2.text, Args.text l, [e.2.tree n], _, by simp [Args.text], rfl, ?_,
    out_points g n hr h' fun x hx => hp x (List.mem_cons_of_mem _ hx)⟩
  have := out_arg g n (h e List.mem_cons_self).2 (args_numEnd g h' hr.1)
  rw [hp e List.mem_cons_self] at this
  exact (out_seq_atomic (by decide)).2 ⟨[e.1], e.2.text, [], _, rfl, rfl, out_delim g (h e List.mem_cons_self).1, this⟩

end

theorem fails_kw {R : Type} {sk : St → Res R} (n : Names R) {k : Kind} {w : Str} {p : Part} {ps : List Part} {r : Str} (h : ¬ w <+: r) :
    Fails sk (lineE n k w p ps) .nonAtomic r := fails_rule (fails_seq_left (fails_str.2 h))

theorem fails_kw_poly {R : Type} {sk : St → Res R} (n : Names R) {r : Str} (h : ¬ c!"POLYGON" <+: r) :
    Fails sk (polyE n) .nonAtomic r := fails_rule (fails_seq_left (fails_str.2 h))

/-! ## Reading the tokens -/

section
variable {R F : Type} [F64 F] (n : Names R) (num : Str → F)

theorem angle_run (v : Str) (h : IsInteger v) (ts : List (Tree R)) : nextAngle ((Arg.int v).tree n :: ts) =
    if FitsI64 v then .ok (angle v, ts) else .error .panic := by
  have e := parseSigned_integer h (bound := 2 ^ 63) (by decide)
  have e2 : (-((2 ^ 63 : Nat) : Int) ≤ intValue v ∧ intValue v < ((2 ^ 63 : Nat) : Int)) ↔ FitsI64 v := by
    simp [FitsI64]
  unfold nextAngle
  simp only [Arg.tree, next, Tree.asStr, run_ok_bind, e, e2]
  by_cases hf : FitsI64 v
  · simp only [if_pos hf]; rfl
  · simp only [if_neg hf]; rfl

theorem num_run (hnum : ∀ s, IsDecimal s → F64.ofText s = some (num s)) (v : Str) (h : IsDecimal v) (ts : List (Tree R)) :
    nextNum ((Arg.dec v).tree n :: ts) = .ok (num v, ts) := by
  unfold nextNum
  simp only [Arg.tree, next, Tree.asStr, run_ok_bind, hnum v h]
  rfl

theorem point_run (hnum : ∀ s, IsDecimal s → F64.ofText s = some (num s)) (x y : Str) (d : Char) (hx : IsDecimal x) (hy : IsDecimal y) :
    parsePoint ((Arg.pt x d y).tree n) = .ok (num x, num y) := by
  have e1 := num_run n num hnum x hx [.node n.decimal y []]
  have e2 := num_run n num hnum y hy []
  simp only [Arg.tree] at e1 e2
  unfold parsePoint
  simp only [Arg.tree, Tree.inner, e1, run_ok_bind, e2]
  rfl

theorem nextPoint_run (hnum : ∀ s, IsDecimal s → F64.ofText s = some (num s)) (x y : Str) (d : Char) (hx : IsDecimal x) (hy : IsDecimal y)
    (ts : List (Tree R)) : nextPoint ((Arg.pt x d y).tree n :: ts) = .ok ((num x, num y), ts) := by
  unfold nextPoint
  simp only [next, run_ok_bind, point_run n num hnum x y d hx hy]
  rfl

end

theorem args_two {x y : Str} {ns : List Str} {t : Str} (h : IsArgs (x :: y :: ns) t) :
    ∃ d e u, t = (d :: (x ++ (e :: (y ++ u)))) ∧ IsDelim d ∧ IsDelim e ∧ IsArgs ns u := by
  cases h with
  | cons d _ _ t hd h =>
    cases h with
    | cons e _ _ u he h => exact ⟨d, e, u, rfl, hd, he, h⟩

theorem args_one {x : Str} {ns : List Str} {t : Str} (h : IsArgs (x :: ns) t) :
    ∃ d u, t = (d :: (x ++ u)) ∧ IsDelim d ∧ IsArgs ns u := by
  cases h with
  | cons d _ _ t hd h => exact ⟨d, t, rfl, hd, h⟩

theorem args_points {R F : Type} [F64 F] (n : Names R) (num : Str → F) (hnum : ∀ s, IsDecimal s → F64.ofText s = some (num s))
    {ps : List (Str × Str)} : ∀ {t : Str}, IsArgs (ps.flatMap fun q => [q.1, q.2]) t → (∀ p ∈ ps, IsDecimal p.1 ∧ IsDecimal p.2) →
    ∃ l : Args, l.text = t ∧ l.Valid ∧ (∀ e ∈ l, e.2.part = .pt) ∧ l.length = ps.length ∧
      (l.map (·.2.tree n)).mapM parsePoint = (.ok (ps.map fun q => (num q.1, num q.2)) : Run (List (F × F))) := by
  induction ps with
  | nil => intro t h _; cases h; exact ⟨[], rfl, by simp [Args.Valid], by simp, rfl, rfl⟩
  | cons p ps ih =>
    intro t h hv
    simp only [List.flatMap_cons, List.cons_append, List.nil_append] at h
    obtain ⟨d, e, u, rfl, hd, he, h⟩ := args_two h
    obtain ⟨l, h1, h2, h3, h4, h5⟩ := ih h fun q hq => hv q (List.mem_cons_of_mem _ hq)
    refine ⟨(d, .pt p.1 e p.2) :: l, ?_, ?_, ?_, by simp [h4], ?_⟩
    · simp [Args.text, Arg.text] at h1 ⊢
      rw [h1]
    · intro x hx
      rcases List.mem_cons.1 hx with rfl | hx
      · exact ⟨hd, (hv p List.mem_cons_self).1, he, (hv p List.mem_cons_self).2⟩
      · exact h2 x hx
    · intro x hx
      rcases List.mem_cons.1 hx with rfl | hx
      · rfl
      · exact h3 x hx
    · simp only [List.map_cons, List.mapM_cons, point_run n num hnum p.1 p.2 e (hv p List.mem_cons_self).1 (hv p List.mem_cons_self).2,
        run_ok_bind, h5]
      rfl

/-! ## A drawing rule -/

section
variable {R F : Type} [F64 F] [Close F] {sk : St → Res R} {K : Str → Str → Prop} (g : Good sk K) (n : Names R) {kind : R → Option Kind}
  (hk : ∀ k, kind (n.name k) = some k) (num : Str → F) (hnum : ∀ s, IsDecimal s → F64.ofText s = some (num s))
include g hk hnum

theorem rule_two {k : Kind} {w : Str} {x y t r : Str} (ht : IsArgs [x, y] t) (hx : IsDecimal x) (hy : IsDecimal y) (hr : ArgsEnd r) :
    ∃ u, Out sk K (lineE n k w .pt []) .nonAtomic (w ++ t) r [u] ∧ u.asRule = n.name k ∧
      u.asStr = w ++ t ∧ nextPoint u.inner = (.ok ((num x, num y), []) : Run _) := by
  obtain ⟨d, e, u, rfl, hd, he, h⟩ := args_two ht
  cases h
  have o := out_line g n k w (e := (d, .pt x e y)) (l := []) (r := r) (by simp [Args.Valid, Arg.Valid, hd, he, hx, hy]) hr.1
  have et : Args.text [(d, Arg.pt x e y)] = d :: (x ++ e :: (y ++ [])) := by simp [Args.text, Arg.text]
  rw [et] at o
  exact ⟨_, o, rfl, rfl, nextPoint_run n num hnum x y e hx hy []⟩

/-- A drawing rule is matched, and read as what it stands for unless an angle does not fit. -/
theorem rule_out {d : Drawing} {s r : Str} (h : d.IsText s) (hr : ArgsEnd r) : ∃ u, Out sk K (rulesE n) .nonAtomic s r [u] ∧ u.asStr = s ∧
    parseRule kind u = if d.Fits then .ok (d.value num Close.close) else .error .panic := by
  obtain ⟨⟨h1, h2⟩, t, ht, rfl⟩ := h
  have uni : ∀ x : Expr R, plain x = true → Uniform (eval sk x .nonAtomic) := fun x hx => uniform_eval g.uniform x hx _
  cases d with
  | move x y =>
    obtain ⟨u, o, e1, e2, e3⟩ := rule_two g n hk num hnum (k := .moveto) (w := c!"MOVETO") ht (h1 x (by simp [Drawing.lengths]))
      (h1 y (by simp [Drawing.lengths])) hr
    refine ⟨u, Or.inl o, e2, ?_⟩
    rw [if_pos (by simp [Drawing.Fits, Drawing.angles])]
    simp only [parseRule, e1, hk, e3, run_ok_bind]
    rfl
  | line x y =>
    obtain ⟨u, o, e1, e2, e3⟩ := rule_two g n hk num hnum (k := .line) (w := c!"LINETO") ht (h1 x (by simp [Drawing.lengths]))
      (h1 y (by simp [Drawing.lengths])) hr
    refine ⟨u, Or.inr ⟨Or.inl o, fails_kw n (by simp [Drawing.keyword])⟩, e2, ?_⟩
    rw [if_pos (by simp [Drawing.Fits, Drawing.angles])]
    simp only [parseRule, e1, hk, e3, run_ok_bind]
    rfl
  | pixel x y =>
    obtain ⟨u, o, e1, e2, e3⟩ := rule_two g n hk num hnum (k := .pixel) (w := c!"SETPIXEL") ht (h1 x (by simp [Drawing.lengths]))
      (h1 y (by simp [Drawing.lengths])) hr
    refine ⟨u, ?_, e2, ?_⟩
    · refine Or.inr ⟨?_, fails_kw n (by simp [Drawing.keyword])⟩
      refine Or.inr ⟨?_, fails_kw n (by simp [Drawing.keyword])⟩
      refine Or.inr ⟨?_, fails_kw n (by simp [Drawing.keyword])⟩
      refine Or.inr ⟨?_, fails_kw n (by simp [Drawing.keyword])⟩
      refine Or.inr ⟨?_, fails_kw n (by simp [Drawing.keyword])⟩
      refine Or.inr ⟨?_, fails_kw n (by simp [Drawing.keyword])⟩
      refine Or.inr ⟨?_, fails_kw_poly n (by simp [Drawing.keyword])⟩
      exact Or.inl o
    rw [if_pos (by simp [Drawing.Fits, Drawing.angles])]
    simp only [parseRule, e1, hk, e3, run_ok_bind]
    rfl
  | arc x y v a b =>
    obtain ⟨d1, d2, t, rfl, hd1, hd2, ht⟩ := args_two ht
    obtain ⟨d3, t, rfl, hd3, ht⟩ := args_one ht
    obtain ⟨d4, d5, t, rfl, hd4, hd5, ht⟩ := args_two ht
    cases ht
    have hx := h1 x (by simp [Drawing.lengths])
    have hy := h1 y (by simp [Drawing.lengths])
    have hv := h1 v (by simp [Drawing.lengths])
    have ha := h2 a (by simp [Drawing.angles])
    have hb := h2 b (by simp [Drawing.angles])
    have et : Args.text [(d1, Arg.pt x d2 y), (d3, .dec v), (d4, .int a), (d5, .int b)] = d1 :: (x ++ d2 :: (y ++ d3 :: (v ++ d4 :: (a ++ d5 :: (b ++ []))))) := by simp [Args.text, Arg.text]
    have o := out_line g n .arc c!"ARC" (e := (d1, .pt x d2 y)) (l := [(d3, .dec v), (d4, .int a), (d5, .int b)]) (r := r)
      (by simp [Args.Valid, Arg.Valid, *]) hr.1
    rw [et] at o
    have et2 : Args.text [(d1, Arg.pt x d2 y), (d3, .dec v), (d4, .dec a), (d5, .int b)] = d1 :: (x ++ d2 :: (y ++ d3 :: (v ++ d4 :: (a ++ d5 :: (b ++ []))))) := by simp [Args.text, Arg.text]
    have f := fails_line g n .arcEllipse c!"ARC" .int [] (e := (d1, .pt x d2 y)) (l := [(d3, .dec v), (d4, .dec a), (d5, .int b)]) (r := r)
      (by simp [Args.Valid, Arg.Valid, ha.isDecimal, hb.isDecimal, *]) hr
    rw [et2, ← List.append_assoc] at f
    refine ⟨.node (n.name .arc) (c!"ARC" ++ d1 :: (x ++ d2 :: (y ++ d3 :: (v ++ d4 :: (a ++ d5 :: (b ++ [])))))) ([(d1, Arg.pt x d2 y), (d3, .dec v), (d4, .int a), (d5, .int b)].map (·.2.tree n)), ?_, rfl, ?_⟩
    · refine Or.inr ⟨?_, fails_kw n (by simp [Drawing.keyword])⟩
      refine Or.inr ⟨?_, fails_kw n (by simp [Drawing.keyword])⟩
      refine Or.inr ⟨?_, fails_kw n (by simp [Drawing.keyword])⟩
      refine Or.inr ⟨?_, fails_kw n (by simp [Drawing.keyword])⟩
      refine Or.inr ⟨?_, f⟩
      exact Or.inl o
    · show parseRule kind (.node (n.name .arc) _ _) = _
      simp only [parseRule, Tree.asRule, Tree.inner, hk, List.map, nextPoint_run n num hnum x y d2 hx hy, num_run n num hnum v hv, angle_run n a ha, angle_run n b hb, run_ok_bind]
      by_cases fa : FitsI64 a
      · by_cases fb : FitsI64 b
        · simp only [if_pos fa, run_ok_bind, angle_run n b hb, if_pos fb]
          rw [if_pos (show (Drawing.arc x y v a b).Fits by simp [Drawing.Fits, Drawing.angles, fa, fb])]
          rfl
        · simp only [if_pos fa, run_ok_bind, angle_run n b hb, if_neg fb]
          rw [if_neg (show ¬ (Drawing.arc x y v a b).Fits by simp [Drawing.Fits, Drawing.angles, fa, fb])]
          rfl
      · simp only [if_neg fa]
        rw [if_neg (show ¬ (Drawing.arc x y v a b).Fits by simp [Drawing.Fits, Drawing.angles, fa])]
        rfl
  | ellipticArc x y v w a b =>
    obtain ⟨d1, d2, t, rfl, hd1, hd2, ht⟩ := args_two ht
    obtain ⟨d3, d4, t, rfl, hd3, hd4, ht⟩ := args_two ht
    obtain ⟨d5, d6, t, rfl, hd5, hd6, ht⟩ := args_two ht
    cases ht
    have hx := h1 x (by simp [Drawing.lengths])
    have hy := h1 y (by simp [Drawing.lengths])
    have hv := h1 v (by simp [Drawing.lengths])
    have hw := h1 w (by simp [Drawing.lengths])
    have ha := h2 a (by simp [Drawing.angles])
    have hb := h2 b (by simp [Drawing.angles])
    have et : Args.text [(d1, Arg.pt x d2 y), (d3, .dec v), (d4, .dec w), (d5, .int a), (d6, .int b)] = d1 :: (x ++ d2 :: (y ++ d3 :: (v ++ d4 :: (w ++ d5 :: (a ++ d6 :: (b ++ [])))))) := by simp [Args.text, Arg.text]
    have o := out_line g n .arcEllipse c!"ARC" (e := (d1, .pt x d2 y)) (l := [(d3, .dec v), (d4, .dec w), (d5, .int a), (d6, .int b)]) (r := r)
      (by simp [Args.Valid, Arg.Valid, *]) hr.1
    rw [et] at o
    refine ⟨.node (n.name .arcEllipse) (c!"ARC" ++ d1 :: (x ++ d2 :: (y ++ d3 :: (v ++ d4 :: (w ++ d5 :: (a ++ d6 :: (b ++ []))))))) ([(d1, Arg.pt x d2 y), (d3, .dec v), (d4, .dec w), (d5, .int a), (d6, .int b)].map (·.2.tree n)), ?_, rfl, ?_⟩
    · refine Or.inr ⟨?_, fails_kw n (by simp [Drawing.keyword])⟩
      refine Or.inr ⟨?_, fails_kw n (by simp [Drawing.keyword])⟩
      refine Or.inr ⟨?_, fails_kw n (by simp [Drawing.keyword])⟩
      refine Or.inr ⟨?_, fails_kw n (by simp [Drawing.keyword])⟩
      exact Or.inl o
    · show parseRule kind (.node (n.name .arcEllipse) _ _) = _
      simp only [parseRule, Tree.asRule, Tree.inner, hk, List.map, nextPoint_run n num hnum x y d2 hx hy, num_run n num hnum v hv, num_run n num hnum w hw, angle_run n a ha, angle_run n b hb, run_ok_bind]
      by_cases fa : FitsI64 a
      · by_cases fb : FitsI64 b
        · simp only [if_pos fa, run_ok_bind, angle_run n b hb, if_pos fb]
          rw [if_pos (show (Drawing.ellipticArc x y v w a b).Fits by simp [Drawing.Fits, Drawing.angles, fa, fb])]
          rfl
        · simp only [if_pos fa, run_ok_bind, angle_run n b hb, if_neg fb]
          rw [if_neg (show ¬ (Drawing.ellipticArc x y v w a b).Fits by simp [Drawing.Fits, Drawing.angles, fa, fb])]
          rfl
      · simp only [if_neg fa]
        rw [if_neg (show ¬ (Drawing.ellipticArc x y v w a b).Fits by simp [Drawing.Fits, Drawing.angles, fa])]
        rfl
  | filledArc x y v a b =>
    obtain ⟨d1, d2, t, rfl, hd1, hd2, ht⟩ := args_two ht
    obtain ⟨d3, t, rfl, hd3, ht⟩ := args_one ht
    obtain ⟨d4, d5, t, rfl, hd4, hd5, ht⟩ := args_two ht
    cases ht
    have hx := h1 x (by simp [Drawing.lengths])
    have hy := h1 y (by simp [Drawing.lengths])
    have hv := h1 v (by simp [Drawing.lengths])
    have ha := h2 a (by simp [Drawing.angles])
    have hb := h2 b (by simp [Drawing.angles])
    have et : Args.text [(d1, Arg.pt x d2 y), (d3, .dec v), (d4, .int a), (d5, .int b)] = d1 :: (x ++ d2 :: (y ++ d3 :: (v ++ d4 :: (a ++ d5 :: (b ++ []))))) := by simp [Args.text, Arg.text]
    have o := out_line g n .fillarc c!"FILLARC" (e := (d1, .pt x d2 y)) (l := [(d3, .dec v), (d4, .int a), (d5, .int b)]) (r := r)
      (by simp [Args.Valid, Arg.Valid, *]) hr.1
    rw [et] at o
    have et2 : Args.text [(d1, Arg.pt x d2 y), (d3, .dec v), (d4, .dec a), (d5, .int b)] = d1 :: (x ++ d2 :: (y ++ d3 :: (v ++ d4 :: (a ++ d5 :: (b ++ []))))) := by simp [Args.text, Arg.text]
    have f := fails_line g n .fillarcEllipse c!"FILLARC" .int [] (e := (d1, .pt x d2 y)) (l := [(d3, .dec v), (d4, .dec a), (d5, .int b)]) (r := r)
      (by simp [Args.Valid, Arg.Valid, ha.isDecimal, hb.isDecimal, *]) hr
    rw [et2, ← List.append_assoc] at f
    refine ⟨.node (n.name .fillarc) (c!"FILLARC" ++ d1 :: (x ++ d2 :: (y ++ d3 :: (v ++ d4 :: (a ++ d5 :: (b ++ [])))))) ([(d1, Arg.pt x d2 y), (d3, .dec v), (d4, .int a), (d5, .int b)].map (·.2.tree n)), ?_, rfl, ?_⟩
    · refine Or.inr ⟨?_, fails_kw n (by simp [Drawing.keyword])⟩
      refine Or.inr ⟨?_, fails_kw n (by simp [Drawing.keyword])⟩
      refine Or.inr ⟨?_, f⟩
      exact Or.inl o
    · show parseRule kind (.node (n.name .fillarc) _ _) = _
      simp only [parseRule, Tree.asRule, Tree.inner, hk, List.map, nextPoint_run n num hnum x y d2 hx hy, num_run n num hnum v hv, angle_run n a ha, angle_run n b hb, run_ok_bind]
      by_cases fa : FitsI64 a
      · by_cases fb : FitsI64 b
        · simp only [if_pos fa, run_ok_bind, angle_run n b hb, if_pos fb]
          rw [if_pos (show (Drawing.filledArc x y v a b).Fits by simp [Drawing.Fits, Drawing.angles, fa, fb])]
          rfl
        · simp only [if_pos fa, run_ok_bind, angle_run n b hb, if_neg fb]
          rw [if_neg (show ¬ (Drawing.filledArc x y v a b).Fits by simp [Drawing.Fits, Drawing.angles, fa, fb])]
          rfl
      · simp only [if_neg fa]
        rw [if_neg (show ¬ (Drawing.filledArc x y v a b).Fits by simp [Drawing.Fits, Drawing.angles, fa])]
        rfl
  | filledEllipticArc x y v w a b =>
    obtain ⟨d1, d2, t, rfl, hd1, hd2, ht⟩ := args_two ht
    obtain ⟨d3, d4, t, rfl, hd3, hd4, ht⟩ := args_two ht
    obtain ⟨d5, d6, t, rfl, hd5, hd6, ht⟩ := args_two ht
    cases ht
    have hx := h1 x (by simp [Drawing.lengths])
    have hy := h1 y (by simp [Drawing.lengths])
    have hv := h1 v (by simp [Drawing.lengths])
    have hw := h1 w (by simp [Drawing.lengths])
    have ha := h2 a (by simp [Drawing.angles])
    have hb := h2 b (by simp [Drawing.angles])
    have et : Args.text [(d1, Arg.pt x d2 y), (d3, .dec v), (d4, .dec w), (d5, .int a), (d6, .int b)] = d1 :: (x ++ d2 :: (y ++ d3 :: (v ++ d4 :: (w ++ d5 :: (a ++ d6 :: (b ++ [])))))) := by simp [Args.text, Arg.text]
    have o := out_line g n .fillarcEllipse c!"FILLARC" (e := (d1, .pt x d2 y)) (l := [(d3, .dec v), (d4, .dec w), (d5, .int a), (d6, .int b)]) (r := r)
      (by simp [Args.Valid, Arg.Valid, *]) hr.1
    rw [et] at o
    refine ⟨.node (n.name .fillarcEllipse) (c!"FILLARC" ++ d1 :: (x ++ d2 :: (y ++ d3 :: (v ++ d4 :: (w ++ d5 :: (a ++ d6 :: (b ++ []))))))) ([(d1, Arg.pt x d2 y), (d3, .dec v), (d4, .dec w), (d5, .int a), (d6, .int b)].map (·.2.tree n)), ?_, rfl, ?_⟩
    · refine Or.inr ⟨?_, fails_kw n (by simp [Drawing.keyword])⟩
      refine Or.inr ⟨?_, fails_kw n (by simp [Drawing.keyword])⟩
      exact Or.inl o
    · show parseRule kind (.node (n.name .fillarcEllipse) _ _) = _
      simp only [parseRule, Tree.asRule, Tree.inner, hk, List.map, nextPoint_run n num hnum x y d2 hx hy, num_run n num hnum v hv, num_run n num hnum w hw, angle_run n a ha, angle_run n b hb, run_ok_bind]
      by_cases fa : FitsI64 a
      · by_cases fb : FitsI64 b
        · simp only [if_pos fa, run_ok_bind, angle_run n b hb, if_pos fb]
          rw [if_pos (show (Drawing.filledEllipticArc x y v w a b).Fits by simp [Drawing.Fits, Drawing.angles, fa, fb])]
          rfl
        · simp only [if_pos fa, run_ok_bind, angle_run n b hb, if_neg fb]
          rw [if_neg (show ¬ (Drawing.filledEllipticArc x y v w a b).Fits by simp [Drawing.Fits, Drawing.angles, fa, fb])]
          rfl
      · simp only [if_neg fa]
        rw [if_neg (show ¬ (Drawing.filledEllipticArc x y v w a b).Fits by simp [Drawing.Fits, Drawing.angles, fa])]
        rfl
  | circle x y v =>
    obtain ⟨d1, d2, t, rfl, hd1, hd2, ht⟩ := args_two ht
    obtain ⟨d3, t, rfl, hd3, ht⟩ := args_one ht
    cases ht
    have hx := h1 x (by simp [Drawing.lengths])
    have hy := h1 y (by simp [Drawing.lengths])
    have hv := h1 v (by simp [Drawing.lengths])
    have et : Args.text [(d1, Arg.pt x d2 y), (d3, .dec v)] = d1 :: (x ++ d2 :: (y ++ d3 :: (v ++ []))) := by simp [Args.text, Arg.text]
    have o := out_line g n .ellipseCircle c!"ELLIPSE" (e := (d1, .pt x d2 y)) (l := [(d3, .dec v)]) (r := r)
      (by simp [Args.Valid, Arg.Valid, *]) hr.1
    rw [et] at o
    have et2 : Args.text [(d1, Arg.pt x d2 y), (d3, .dec v)] = d1 :: (x ++ d2 :: (y ++ d3 :: (v ++ []))) := by simp [Args.text, Arg.text]
    have f := fails_line g n .ellipse c!"ELLIPSE" .dec [] (e := (d1, .pt x d2 y)) (l := [(d3, .dec v)]) (r := r)
      (by simp [Args.Valid, Arg.Valid, *]) hr
    rw [et2, ← List.append_assoc] at f
    refine ⟨.node (n.name .ellipseCircle) (c!"ELLIPSE" ++ d1 :: (x ++ d2 :: (y ++ d3 :: (v ++ [])))) ([(d1, Arg.pt x d2 y), (d3, .dec v)].map (·.2.tree n)), ?_, rfl, ?_⟩
    · refine Or.inr ⟨?_, fails_kw n (by simp [Drawing.keyword])⟩
      refine Or.inr ⟨?_, fails_kw n (by simp [Drawing.keyword])⟩
      refine Or.inr ⟨?_, fails_kw n (by simp [Drawing.keyword])⟩
      refine Or.inr ⟨?_, fails_kw n (by simp [Drawing.keyword])⟩
      refine Or.inr ⟨?_, fails_kw n (by simp [Drawing.keyword])⟩
      refine Or.inr ⟨?_, fails_kw n (by simp [Drawing.keyword])⟩
      refine Or.inr ⟨?_, fails_kw_poly n (by simp [Drawing.keyword])⟩
      refine Or.inr ⟨?_, fails_kw n (by simp [Drawing.keyword])⟩
      refine Or.inr ⟨?_, f⟩
      exact Or.inl o
    · show parseRule kind (.node (n.name .ellipseCircle) _ _) = _
      simp only [parseRule, Tree.asRule, Tree.inner, hk, List.map, nextPoint_run n num hnum x y d2 hx hy, num_run n num hnum v hv, run_ok_bind]
      rw [if_pos (by simp [Drawing.Fits, Drawing.angles])]
      rfl
  | ellipse x y v w =>
    obtain ⟨d1, d2, t, rfl, hd1, hd2, ht⟩ := args_two ht
    obtain ⟨d3, d4, t, rfl, hd3, hd4, ht⟩ := args_two ht
    cases ht
    have hx := h1 x (by simp [Drawing.lengths])
    have hy := h1 y (by simp [Drawing.lengths])
    have hv := h1 v (by simp [Drawing.lengths])
    have hw := h1 w (by simp [Drawing.lengths])
    have et : Args.text [(d1, Arg.pt x d2 y), (d3, .dec v), (d4, .dec w)] = d1 :: (x ++ d2 :: (y ++ d3 :: (v ++ d4 :: (w ++ [])))) := by simp [Args.text, Arg.text]
    have o := out_line g n .ellipse c!"ELLIPSE" (e := (d1, .pt x d2 y)) (l := [(d3, .dec v), (d4, .dec w)]) (r := r)
      (by simp [Args.Valid, Arg.Valid, *]) hr.1
    rw [et] at o
    refine ⟨.node (n.name .ellipse) (c!"ELLIPSE" ++ d1 :: (x ++ d2 :: (y ++ d3 :: (v ++ d4 :: (w ++ []))))) ([(d1, Arg.pt x d2 y), (d3, .dec v), (d4, .dec w)].map (·.2.tree n)), ?_, rfl, ?_⟩
    · refine Or.inr ⟨?_, fails_kw n (by simp [Drawing.keyword])⟩
      refine Or.inr ⟨?_, fails_kw n (by simp [Drawing.keyword])⟩
      refine Or.inr ⟨?_, fails_kw n (by simp [Drawing.keyword])⟩
      refine Or.inr ⟨?_, fails_kw n (by simp [Drawing.keyword])⟩
      refine Or.inr ⟨?_, fails_kw n (by simp [Drawing.keyword])⟩
      refine Or.inr ⟨?_, fails_kw n (by simp [Drawing.keyword])⟩
      refine Or.inr ⟨?_, fails_kw_poly n (by simp [Drawing.keyword])⟩
      refine Or.inr ⟨?_, fails_kw n (by simp [Drawing.keyword])⟩
      exact Or.inl o
    · show parseRule kind (.node (n.name .ellipse) _ _) = _
      simp only [parseRule, Tree.asRule, Tree.inner, hk, List.map, nextPoint_run n num hnum x y d2 hx hy, num_run n num hnum v hv, num_run n num hnum w hw, run_ok_bind]
      rw [if_pos (by simp [Drawing.Fits, Drawing.angles])]
      rfl
  | rect x y v w =>
    obtain ⟨d1, d2, t, rfl, hd1, hd2, ht⟩ := args_two ht
    obtain ⟨d3, d4, t, rfl, hd3, hd4, ht⟩ := args_two ht
    cases ht
    have hx := h1 x (by simp [Drawing.lengths])
    have hy := h1 y (by simp [Drawing.lengths])
    have hv := h1 v (by simp [Drawing.lengths])
    have hw := h1 w (by simp [Drawing.lengths])
    have et : Args.text [(d1, Arg.pt x d2 y), (d3, .pt v d4 w)] = d1 :: (x ++ d2 :: (y ++ d3 :: (v ++ d4 :: (w ++ [])))) := by simp [Args.text, Arg.text]
    have o := out_line g n .fillrect c!"FILLRECT" (e := (d1, .pt x d2 y)) (l := [(d3, .pt v d4 w)]) (r := r)
      (by simp [Args.Valid, Arg.Valid, *]) hr.1
    rw [et] at o
    refine ⟨.node (n.name .fillrect) (c!"FILLRECT" ++ d1 :: (x ++ d2 :: (y ++ d3 :: (v ++ d4 :: (w ++ []))))) ([(d1, Arg.pt x d2 y), (d3, .pt v d4 w)].map (·.2.tree n)), ?_, rfl, ?_⟩
    · refine Or.inr ⟨?_, fails_kw n (by simp [Drawing.keyword])⟩
      refine Or.inr ⟨?_, fails_kw n (by simp [Drawing.keyword])⟩
      refine Or.inr ⟨?_, fails_kw n (by simp [Drawing.keyword])⟩
      refine Or.inr ⟨?_, fails_kw n (by simp [Drawing.keyword])⟩
      refine Or.inr ⟨?_, fails_kw n (by simp [Drawing.keyword])⟩
      refine Or.inr ⟨?_, fails_kw n (by simp [Drawing.keyword])⟩
      refine Or.inr ⟨?_, fails_kw_poly n (by simp [Drawing.keyword])⟩
      refine Or.inr ⟨?_, fails_kw n (by simp [Drawing.keyword])⟩
      refine Or.inr ⟨?_, fails_kw n (by simp [Drawing.keyword])⟩
      refine Or.inr ⟨?_, fails_kw n (by simp [Drawing.keyword])⟩
      exact o
    · show parseRule kind (.node (n.name .fillrect) _ _) = _
      simp only [parseRule, Tree.asRule, Tree.inner, hk, List.map, nextPoint_run n num hnum x y d2 hx hy, nextPoint_run n num hnum v w d4 hv hw, run_ok_bind]
      rw [if_pos (by simp [Drawing.Fits, Drawing.angles])]
      rfl
  | polygon p ps =>
    have hd : ∀ q ∈ p :: ps, IsDecimal q.1 ∧ IsDecimal q.2 := fun q hq =>
      ⟨h1 q.1 (List.mem_flatMap.2 ⟨q, hq, by simp⟩), h1 q.2 (List.mem_flatMap.2 ⟨q, hq, by simp⟩)⟩
    obtain ⟨l, rfl, l1, l2, l3, l4⟩ := args_points n num hnum (by simpa only [Drawing.lengths, Drawing.angles, List.append_nil] using ht) hd
    cases l with
    | nil => cases l3
    | cons e l =>
      have o := out_poly g n l1 hr l2
      refine ⟨.node (n.name .polygon) (c!"POLYGON" ++ Args.text (e :: l)) ((e :: l).map (·.2.tree n)), ?_, rfl, ?_⟩
      · refine Or.inr ⟨?_, fails_kw n (by simp [Drawing.keyword])⟩
        refine Or.inr ⟨?_, fails_kw n (by simp [Drawing.keyword])⟩
        refine Or.inr ⟨?_, fails_kw n (by simp [Drawing.keyword])⟩
        refine Or.inr ⟨?_, fails_kw n (by simp [Drawing.keyword])⟩
        refine Or.inr ⟨?_, fails_kw n (by simp [Drawing.keyword])⟩
        refine Or.inr ⟨?_, fails_kw n (by simp [Drawing.keyword])⟩
        exact Or.inl o
      · rw [if_pos (by simp [Drawing.Fits, Drawing.angles])]
        simp only [parseRule, Tree.asRule, Tree.inner, hk, l4, run_ok_bind]
        rfl

end

end Verif.Proofs.SymbolRule
