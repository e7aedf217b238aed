import Verif.Peg.Kids
import Verif.Proofs.SymbolRule
/-!
# Lemmas about the drawing rules of symbols: everything that is matched
-/

namespace Verif.Proofs.SymbolRule
open Verif.Peg Verif.Spec.Drawing Verif.Parse.SymbolRule
open Verif.Settings (SymbolRule)

/-- A point with its delimiters. -/
structure Pt where
  d : Char
  x : Str
  e : Char
  y : Str

def Pt.arg (p : Pt) : Char × Arg := (p.d, .pt p.x p.e p.y)

/-- The token and the parts of a drawing rule. -/
inductive Form : Drawing → Kind → Args → Prop
  | move (d1 d2) (x y) : Form (.move x y) .moveto [(d1, .pt x d2 y)]
  | line (d1 d2) (x y) : Form (.line x y) .line [(d1, .pt x d2 y)]
  | pixel (d1 d2) (x y) : Form (.pixel x y) .pixel [(d1, .pt x d2 y)]
  | arc (d1 d2 d3 d4 d5) (x y v a b) :
    Form (.arc x y v a b) .arc [(d1, .pt x d2 y), (d3, .dec v), (d4, .int a), (d5, .int b)]
  | ellipticArc (d1 d2 d3 d4 d5 d6) (x y v w a b) :
    Form (.ellipticArc x y v w a b) .arcEllipse [(d1, .pt x d2 y), (d3, .dec v), (d4, .dec w), (d5, .int a), (d6, .int b)]
  | filledArc (d1 d2 d3 d4 d5) (x y v a b) :
    Form (.filledArc x y v a b) .fillarc [(d1, .pt x d2 y), (d3, .dec v), (d4, .int a), (d5, .int b)]
  | filledEllipticArc (d1 d2 d3 d4 d5 d6) (x y v w a b) :
    Form (.filledEllipticArc x y v w a b) .fillarcEllipse
      [(d1, .pt x d2 y), (d3, .dec v), (d4, .dec w), (d5, .int a), (d6, .int b)]
  | circle (d1 d2 d3) (x y v) : Form (.circle x y v) .ellipseCircle [(d1, .pt x d2 y), (d3, .dec v)]
  | ellipse (d1 d2 d3 d4) (x y v w) : Form (.ellipse x y v w) .ellipse [(d1, .pt x d2 y), (d3, .dec v), (d4, .dec w)]
  | rect (d1 d2 d3 d4) (x y v w) : Form (.rect x y v w) .fillrect [(d1, .pt x d2 y), (d3, .pt v d4 w)]
  | polygon (q : Pt) (qs : List Pt) : Form (.polygon (q.x, q.y) (qs.map fun p => (p.x, p.y))) .polygon ((q :: qs).map Pt.arg)

def Arg.nums : Arg → List Str
  | .pt x _ y => [x, y]
  | .dec n => [n]
  | .int n => [n]

theorem args_isArgs : ∀ {l : Args}, l.Valid → IsArgs (l.flatMap (·.2.nums)) l.text
  | [], _ => .nil
  | (d, e) :: l, hv => by
    have ih := args_isArgs (l := l) fun x hx => hv x (List.mem_cons_of_mem _ hx)
    have h := hv (d, e) List.mem_cons_self
    have et : Args.text ((d, e) :: l) = d :: (e.text ++ Args.text l) := rfl
    rw [et]
    cases e with
    | dec n => exact .cons _ _ _ _ h.1 ih
    | int n => exact .cons _ _ _ _ h.1 ih
    | pt x c y =>
      have e2 : Arg.text (.pt x c y) ++ Args.text l = x ++ c :: (y ++ Args.text l) := by simp [Arg.text]
      rw [e2]
      exact .cons _ _ _ _ h.1 (.cons _ _ _ _ h.2.2.1 ih)

theorem form_nums {d : Drawing} {k : Kind} {l : Args} (h : Form d k l) : d.lengths ++ d.angles = l.flatMap (·.2.nums) := by
  cases h with
  | polygon q qs =>
    simp only [Drawing.lengths, Drawing.angles, List.append_nil]
    have : ∀ qs : List Pt, ((qs.map fun p => (p.x, p.y)).flatMap fun q : Str × Str => [q.1, q.2]) = (qs.map Pt.arg).flatMap (·.2.nums) := by
      intro qs
      induction qs with
      | nil => rfl
      | cons q qs ih => simp only [List.map_cons, List.flatMap_cons, ih]; rfl
    exact this (q :: qs)
  | _ => rfl

/-- The parts of a form are its numbers. -/
theorem form_text {d : Drawing} {k : Kind} {l : Args} (h : Form d k l) (hv : l.Valid) : d.IsText (d.keyword ++ l.text) := by
  refine ⟨?_, _, by rw [form_nums h]; exact args_isArgs hv, rfl⟩
  cases h with
  | polygon q qs =>
    refine ⟨?_, by simp [Drawing.angles]⟩
    intro s hs
    obtain ⟨p, hp, hs⟩ := List.mem_flatMap.1 hs
    rw [show (q.x, q.y) :: (qs.map fun p => (p.x, p.y)) = (q :: qs).map (fun p => (p.x, p.y)) from rfl] at hp
    obtain ⟨a, ha, rfl⟩ := List.mem_map.1 hp
    have := (hv a.arg (List.mem_map_of_mem ha)).2
    simp only [List.mem_cons, List.not_mem_nil, or_false] at hs
    rcases hs with rfl | rfl
    · exact this.1
    · exact this.2.2
  | _ =>
    simp only [Args.Valid, List.mem_cons, List.not_mem_nil, or_false, forall_eq_or_imp, forall_eq, Arg.Valid] at hv
    exact ⟨by simp [Drawing.lengths, hv], by simp [Drawing.angles, hv]⟩

set_option linter.unusedSectionVars false

section
variable {R F : Type} [F64 F] [Close F] (n : Names R) {kind : R → Option Kind}
  (hk : ∀ k, kind (n.name k) = some k) (num : Str → F) (hnum : ∀ s, IsDecimal s → F64.ofText s = some (num s))
include hk hnum

theorem points_read {qs : List Pt} (hv : Args.Valid (qs.map Pt.arg)) :
    (qs.map fun q => q.arg.2.tree n).mapM parsePoint = (.ok (qs.map fun q => (num q.x, num q.y)) : Run (List (F × F))) := by
  induction qs with
  | nil => rfl
  | cons q qs ih =>
    have h := (hv q.arg (by simp)).2
    have ih := ih fun x hx => hv x (by simp at hx ⊢; exact Or.inr hx)
    have e := point_run n num hnum q.x q.y q.e h.1 h.2.2
    simp only [List.map_cons, List.mapM_cons, Pt.arg, e, run_ok_bind]
    simp only [Pt.arg] at ih
    rw [ih]
    rfl

theorem two_angles {a b : Str} (ha : IsInteger a) (hb : IsInteger b) (f : Int → Int → SymbolRule F) :
    (do let (x, ts) ← nextAngle [(Arg.int a).tree n, (Arg.int b).tree n]
        let (y, _) ← nextAngle ts
        pure (f x y) : Run (SymbolRule F)) =
      if FitsI64 a ∧ FitsI64 b then .ok (f (angle a) (angle b)) else .error .panic := by
  rw [angle_run n a ha]
  by_cases fa : FitsI64 a
  · rw [if_pos fa]
    simp only [run_ok_bind]
    rw [angle_run n b hb]
    by_cases fb : FitsI64 b
    · rw [if_pos fb, if_pos ⟨fa, fb⟩]; rfl
    · rw [if_neg fb, if_neg fun h => fb h.2]; rfl
  · rw [if_neg fa, if_neg fun h => fa h.1]; rfl

/-- Reading the token of a form. -/
theorem form_read {d : Drawing} {k : Kind} {l : Args} (h : Form d k l) (hv : l.Valid) (s : Str) :
    parseRule kind (.node (n.name k) s (l.map (·.2.tree n))) = if d.Fits then .ok (d.value num Close.close) else .error .panic := by
  have fits : ∀ {a b : Str} {d : Drawing} {x : SymbolRule F}, d.angles = [a, b] →
      (if FitsI64 a ∧ FitsI64 b then (.ok x : Run (SymbolRule F)) else .error .panic) = if d.Fits then .ok x else .error .panic := by
    intro a b d x e
    have : d.Fits ↔ FitsI64 a ∧ FitsI64 b := by simp [Drawing.Fits, e]
    simp only [this]
  cases h with
  | polygon q qs =>
    have e := points_read n hk num hnum hv
    rw [if_pos (by simp [Drawing.Fits, Drawing.angles])]
    simp only [parseRule, Tree.asRule, Tree.inner, hk, List.map_map]
    rw [show ((fun e : Char × Arg => e.2.tree n) ∘ Pt.arg) = (fun q => q.arg.2.tree n) from rfl, e]
    simp [run_ok_bind, Drawing.value]
  | arc d1 d2 d3 d4 d5 x y v a b =>
    simp only [Args.Valid, List.mem_cons, List.not_mem_nil, or_false, forall_eq_or_imp, forall_eq, Arg.Valid] at hv
    obtain ⟨⟨_, hx, _, hy⟩, ⟨_, hv⟩, ⟨_, ha⟩, ⟨_, hb⟩⟩ := hv
    have e := two_angles n hk num hnum ha hb fun a b => SymbolRule.arc (num x, num y) (num v) a b
    simp only [parseRule, Tree.asRule, Tree.inner, hk, List.map, nextPoint_run n num hnum x y d2 hx hy, num_run n num hnum v hv, run_ok_bind]
    exact e.trans (fits rfl)
  | filledArc d1 d2 d3 d4 d5 x y v a b =>
    simp only [Args.Valid, List.mem_cons, List.not_mem_nil, or_false, forall_eq_or_imp, forall_eq, Arg.Valid] at hv
    obtain ⟨⟨_, hx, _, hy⟩, ⟨_, hv⟩, ⟨_, ha⟩, ⟨_, hb⟩⟩ := hv
    have e := two_angles n hk num hnum ha hb fun a b => SymbolRule.filledArc (num x, num y) (num v) a b
    simp only [parseRule, Tree.asRule, Tree.inner, hk, List.map, nextPoint_run n num hnum x y d2 hx hy, num_run n num hnum v hv, run_ok_bind]
    exact e.trans (fits rfl)
  | ellipticArc d1 d2 d3 d4 d5 d6 x y v w a b =>
    simp only [Args.Valid, List.mem_cons, List.not_mem_nil, or_false, forall_eq_or_imp, forall_eq, Arg.Valid] at hv
    obtain ⟨⟨_, hx, _, hy⟩, ⟨_, hv⟩, ⟨_, hw⟩, ⟨_, ha⟩, ⟨_, hb⟩⟩ := hv
    have e := two_angles n hk num hnum ha hb fun a b => if Close.close (num v) (num w) then SymbolRule.arc (num x, num y) (num v) a b
      else .ellipticArc (num x, num y) (num v) (num w) a b
    simp only [parseRule, Tree.asRule, Tree.inner, hk, List.map, nextPoint_run n num hnum x y d2 hx hy, num_run n num hnum v hv,
      num_run n num hnum w hw, run_ok_bind]
    exact e.trans (fits rfl)
  | filledEllipticArc d1 d2 d3 d4 d5 d6 x y v w a b =>
    simp only [Args.Valid, List.mem_cons, List.not_mem_nil, or_false, forall_eq_or_imp, forall_eq, Arg.Valid] at hv
    obtain ⟨⟨_, hx, _, hy⟩, ⟨_, hv⟩, ⟨_, hw⟩, ⟨_, ha⟩, ⟨_, hb⟩⟩ := hv
    have e := two_angles n hk num hnum ha hb fun a b => if Close.close (num v) (num w) then SymbolRule.filledArc (num x, num y) (num v) a b
      else .filledEllipticArc (num x, num y) (num v) (num w) a b
    simp only [parseRule, Tree.asRule, Tree.inner, hk, List.map, nextPoint_run n num hnum x y d2 hx hy, num_run n num hnum v hv,
      num_run n num hnum w hw, run_ok_bind]
    exact e.trans (fits rfl)
  | circle d1 d2 d3 x y v =>
    simp only [Args.Valid, List.mem_cons, List.not_mem_nil, or_false, forall_eq_or_imp, forall_eq, Arg.Valid] at hv
    obtain ⟨⟨_, hx, _, hy⟩, ⟨_, hv⟩⟩ := hv
    rw [if_pos (by simp [Drawing.Fits, Drawing.angles])]
    simp only [parseRule, Tree.asRule, Tree.inner, hk, List.map, nextPoint_run n num hnum x y d2 hx hy, num_run n num hnum v hv, run_ok_bind]
    rfl
  | ellipse d1 d2 d3 d4 x y v w =>
    simp only [Args.Valid, List.mem_cons, List.not_mem_nil, or_false, forall_eq_or_imp, forall_eq, Arg.Valid] at hv
    obtain ⟨⟨_, hx, _, hy⟩, ⟨_, hv⟩, ⟨_, hw⟩⟩ := hv
    rw [if_pos (by simp [Drawing.Fits, Drawing.angles])]
    simp only [parseRule, Tree.asRule, Tree.inner, hk, List.map, nextPoint_run n num hnum x y d2 hx hy, num_run n num hnum v hv,
      num_run n num hnum w hw, run_ok_bind]
    rfl
  | rect d1 d2 d3 d4 x y v w =>
    simp only [Args.Valid, List.mem_cons, List.not_mem_nil, or_false, forall_eq_or_imp, forall_eq, Arg.Valid] at hv
    obtain ⟨⟨_, hx, _, hy⟩, ⟨_, hv, _, hw⟩⟩ := hv
    rw [if_pos (by simp [Drawing.Fits, Drawing.angles])]
    simp only [parseRule, Tree.asRule, Tree.inner, hk, List.map, nextPoint_run n num hnum x y d2 hx hy,
      nextPoint_run n num hnum v w d4 hv hw, run_ok_bind]
    rfl
  | _ d1 d2 x y =>
    simp only [Args.Valid, List.mem_cons, List.not_mem_nil, or_false, forall_eq, Arg.Valid] at hv
    obtain ⟨_, hx, _, hy⟩ := hv
    rw [if_pos (by simp [Drawing.Fits, Drawing.angles])]
    simp only [parseRule, Tree.asRule, Tree.inner, hk, List.map, nextPoint_run n num hnum x y d2 hx hy, run_ok_bind]
    rfl

end

/-! ## What the grammar matches -/

section
variable {R : Type} {sk : St → Res R} {K : Str → Str → Prop} (g : Good sk K) (n : Names R)
include g

theorem delim_inv {a : Atom} {s r : Str} {ts : List (Tree R)} (h : Out sk K delim a s r ts) : ∃ d, s = [d] ∧ IsDelim d ∧ ts = [] := by
  obtain ⟨d, rfl, hd, rfl⟩ := ((like_delim g a).out _ _ _).1 h
  exact ⟨d, rfl, by simpa [IsDelim] using hd, rfl⟩

theorem dec_inv {s r : Str} {ts : List (Tree R)} (h : Out sk K (decE n) .compound s r ts) : IsDecimal s ∧ ts = [.node n.decimal s []] := by
  obtain ⟨kids, h1, h2⟩ := h
  obtain ⟨rfl, h3⟩ := out_decimal (by decide) h1
  exact ⟨h3, h2⟩

theorem int_inv {s r : Str} {ts : List (Tree R)} (h : Out sk K (intE n) .compound s r ts) : IsInteger s ∧ ts = [.node n.integer s []] := by
  obtain ⟨kids, h1, h2⟩ := h
  obtain ⟨rfl, h3⟩ := out_integer (by decide) h1
  exact ⟨h3, h2⟩

theorem part_inv {p : Part} {s r : Str} {ts : List (Tree R)} (h : Out sk K (partE n p) .compound s r ts) :
    ∃ e : Arg, e.part = p ∧ e.Valid ∧ e.text = s ∧ ts = [e.tree n] := by
  cases p with
  | dec => obtain ⟨h1, rfl⟩ := dec_inv g n h; exact ⟨.dec s, rfl, h1, rfl, rfl⟩
  | int => obtain ⟨h1, rfl⟩ := int_inv g n h; exact ⟨.int s, rfl, h1, rfl, rfl⟩
  | pt =>
    obtain ⟨kids, h1, h2⟩ := h
    obtain ⟨s1, s2, t1, t2, rfl, rfl, h3, h4⟩ := (out_seq_atomic (by decide)).1 h1
    obtain ⟨s3, s4, t3, t4, rfl, rfl, h5, h6⟩ := (out_seq_atomic (by decide)).1 h4
    obtain ⟨d, rfl, hd, rfl⟩ := delim_inv g h5
    obtain ⟨i3, rfl⟩ := dec_inv g n h3
    obtain ⟨i6, rfl⟩ := dec_inv g n h6
    exact ⟨.pt s1 d s4, rfl, ⟨i3, hd, i6⟩, rfl, h2⟩

theorem one_inv {p : Part} {s r : Str} {ts : List (Tree R)} (h : Out sk K (delim ⬝ partE n p) .compound s r ts) :
    ∃ e : Char × Arg, e.2.part = p ∧ IsDelim e.1 ∧ e.2.Valid ∧ s = e.1 :: e.2.text ∧ ts = [e.2.tree n] := by
  obtain ⟨s3, s4, t3, t4, rfl, rfl, h5, h6⟩ := (out_seq_atomic (by decide)).1 h
  obtain ⟨d, rfl, hd, rfl⟩ := delim_inv g h5
  obtain ⟨e, h1, h2, rfl, rfl⟩ := part_inv g n h6
  exact ⟨(d, e), h1, hd, h2, rfl, rfl⟩

theorem parts_inv (ps : List Part) : ∀ (p : Part) {s r : Str} {ts : List (Tree R)}, Out sk K (partsE n p ps) .compound s r ts →
    ∃ l : Args, l.map (·.2.part) = p :: ps ∧ l.Valid ∧ s = l.text ∧ ts = l.map (·.2.tree n) := by
  induction ps with
  | nil =>
    intro p s r ts h
    obtain ⟨e, h1, h2, h3, rfl, rfl⟩ := one_inv g n h
    exact ⟨[e], by simp [h1], by simp [Args.Valid, h2, h3], by simp [Args.text], rfl⟩
  | cons q qs ih =>
    intro p s r ts h
    obtain ⟨s1, s2, t1, t2, rfl, rfl, h3, h4⟩ := (out_seq_atomic (by decide)).1 h
    obtain ⟨s3, s4, t3, t4, rfl, rfl, h5, h6⟩ := (out_seq_atomic (by decide)).1 h4
    obtain ⟨d, rfl, hd, rfl⟩ := delim_inv g h3
    obtain ⟨e, h1, h2, rfl, rfl⟩ := part_inv g n h5
    obtain ⟨l, l1, l2, rfl, rfl⟩ := ih q h6
    refine ⟨(d, e) :: l, by simp [h1, l1], ?_, by simp [Args.text], rfl⟩
    intro x hx
    rcases List.mem_cons.1 hx with rfl | hx
    · exact ⟨hd, h2⟩
    · exact l2 x hx

theorem line_inv {k : Kind} {w : Str} {p : Part} {ps : List Part} {s r : Str} {ts : List (Tree R)}
    (h : Out sk K (lineE n k w p ps) .nonAtomic s r ts) :
    ∃ l : Args, l.map (·.2.part) = p :: ps ∧ l.Valid ∧ s = w ++ l.text ∧ ts = [.node (n.name k) s (l.map (·.2.tree n))] := by
  obtain ⟨kids, h1, h2⟩ := h
  obtain ⟨s1, s2, t1, t2, rfl, rfl, ⟨rfl, rfl⟩, h4⟩ := (out_seq_atomic (by decide)).1 h1
  obtain ⟨l, l1, l2, rfl, rfl⟩ := parts_inv g n ps p h4
  exact ⟨l, l1, l2, rfl, h2⟩

theorem pts_inv {s r : Str} {ts : List (Tree R)} (h : Out sk K (.star (delim ⬝ ptE n)) .compound s r ts) :
    ∃ l : List Pt, Args.Valid (l.map Pt.arg) ∧ s = Args.text (l.map Pt.arg) ∧ ts = (l.map Pt.arg).map (·.2.tree n) := by
  refine out_star_ind h (fun s ts => ∃ l : List Pt, Args.Valid (l.map Pt.arg) ∧ s = Args.text (l.map Pt.arg) ∧
    ts = (l.map Pt.arg).map (·.2.tree n)) ⟨[], by simp [Args.Valid], rfl, rfl⟩ ?_
  rintro m s ts s' ts' hm ho ⟨l, l1, rfl, rfl⟩
  have hm : m = [] := by rcases hm with hm | hm <;> exact hm
  subst hm
  obtain ⟨⟨d, e⟩, h1, h2, h3, rfl, rfl⟩ := one_inv g n (p := .pt) ho
  cases e with
  | dec v => cases h1
  | int v => cases h1
  | pt x c y =>
    refine ⟨⟨d, x, c, y⟩ :: l, ?_, by simp [Args.text, Pt.arg], by simp [Pt.arg]⟩
    intro z hz
    rcases List.mem_cons.1 hz with rfl | hz
    · exact ⟨h2, h3⟩
    · exact l1 z hz

theorem poly_inv {s r : Str} {ts : List (Tree R)} (h : Out sk K (polyE n) .nonAtomic s r ts) :
    ∃ (q : Pt) (l : List Pt), Args.Valid ((q :: l).map Pt.arg) ∧ s = c!"POLYGON" ++ Args.text ((q :: l).map Pt.arg) ∧
      ts = [.node (n.name .polygon) s (((q :: l).map Pt.arg).map (·.2.tree n))] := by
  obtain ⟨kids, h1, h2⟩ := h
  obtain ⟨s1, s2, t1, t2, rfl, rfl, ⟨rfl, rfl⟩, h4⟩ := (out_seq_atomic (by decide)).1 h1
  obtain ⟨s3, s4, t3, t4, rfl, rfl, h5, h6⟩ := (out_seq_atomic (by decide)).1 h4
  obtain ⟨⟨d, e⟩, e1, e2, e3, rfl, rfl⟩ := one_inv g n (p := .pt) h5
  obtain ⟨l, l1, rfl, rfl⟩ := pts_inv g n h6
  cases e with
  | dec v => cases e1
  | int v => cases e1
  | pt x c y =>
    refine ⟨⟨d, x, c, y⟩, l, ?_, by simp [Args.text, Pt.arg], ?_⟩
    · intro z hz
      rcases List.mem_cons.1 hz with rfl | hz
      · exact ⟨e2, e3⟩
      · exact l1 z hz
    · simpa [Args.text, Pt.arg, emits] using h2

end

theorem arg_pt {e : Char × Arg} (h : e.2.part = .pt) : ∃ d x c y, e = (d, .pt x c y) := by
  obtain ⟨d, e⟩ := e
  cases e with
  | pt x c y => exact ⟨d, x, c, y, rfl⟩
  | dec v => cases h
  | int v => cases h

theorem arg_dec {e : Char × Arg} (h : e.2.part = .dec) : ∃ d v, e = (d, .dec v) := by
  obtain ⟨d, e⟩ := e
  cases e with
  | pt x c y => cases h
  | dec v => exact ⟨d, v, rfl⟩
  | int v => cases h

theorem arg_int {e : Char × Arg} (h : e.2.part = .int) : ∃ d v, e = (d, .int v) := by
  obtain ⟨d, e⟩ := e
  cases e with
  | pt x c y => cases h
  | dec v => cases h
  | int v => exact ⟨d, v, rfl⟩

theorem map_cons_inv {A B : Type} {f : A → B} {l : List A} {b : B} {bs : List B} (h : l.map f = b :: bs) :
    ∃ a l', l = a :: l' ∧ f a = b ∧ l'.map f = bs := by
  cases l with
  | nil => cases h
  | cons a l => exact ⟨a, l, rfl, (List.cons.inj h).1, (List.cons.inj h).2⟩

theorem map_nil_inv {A B : Type} {f : A → B} {l : List A} (h : l.map f = []) : l = [] := List.map_eq_nil_iff.1 h

/-- Everything that is matched is a drawing rule. -/
theorem rule_inv {R : Type} {sk : St → Res R} {K : Str → Str → Prop} (g : Good sk K) (n : Names R) {ts : List (Tree R)}
    (h : Kids sk K (rulesE n) .nonAtomic ts) :
    ∃ d k l, Form d k l ∧ l.Valid ∧ ts = [.node (n.name k) (d.keyword ++ l.text) (l.map (·.2.tree n))] := by
  rcases h with ⟨t, ⟨s, r, h⟩, rfl⟩ | h
  · obtain ⟨l, e, hv, rfl, e0⟩ := line_inv g n h
    obtain rfl := (List.cons.inj e0).1
    obtain ⟨a, l, rfl, e1, e⟩ := map_cons_inv e
    cases map_nil_inv e
    obtain ⟨d1, x, d2, y, rfl⟩ := arg_pt e1
    exact ⟨_, _, _, .move d1 d2 x y, hv, rfl⟩
  rcases h with ⟨t, ⟨s, r, h⟩, rfl⟩ | h
  · obtain ⟨l, e, hv, rfl, e0⟩ := line_inv g n h
    obtain rfl := (List.cons.inj e0).1
    obtain ⟨a, l, rfl, e1, e⟩ := map_cons_inv e
    cases map_nil_inv e
    obtain ⟨d1, x, d2, y, rfl⟩ := arg_pt e1
    exact ⟨_, _, _, .line d1 d2 x y, hv, rfl⟩
  rcases h with ⟨t, ⟨s, r, h⟩, rfl⟩ | h
  · obtain ⟨l, e, hv, rfl, e0⟩ := line_inv g n h
    obtain rfl := (List.cons.inj e0).1
    obtain ⟨a, l, rfl, e1, e⟩ := map_cons_inv e
    obtain ⟨b, l, rfl, e2, e⟩ := map_cons_inv e
    obtain ⟨c, l, rfl, e3, e⟩ := map_cons_inv e
    obtain ⟨d, l, rfl, e4, e⟩ := map_cons_inv e
    obtain ⟨f, l, rfl, e5, e⟩ := map_cons_inv e
    cases map_nil_inv e
    obtain ⟨d1, x, d2, y, rfl⟩ := arg_pt e1
    obtain ⟨d3, v, rfl⟩ := arg_dec e2
    obtain ⟨d4, w, rfl⟩ := arg_dec e3
    obtain ⟨d5, a, rfl⟩ := arg_int e4
    obtain ⟨d6, b, rfl⟩ := arg_int e5
    exact ⟨_, _, _, .filledEllipticArc d1 d2 d3 d4 d5 d6 x y v w a b, hv, rfl⟩
  rcases h with ⟨t, ⟨s, r, h⟩, rfl⟩ | h
  · obtain ⟨l, e, hv, rfl, e0⟩ := line_inv g n h
    obtain rfl := (List.cons.inj e0).1
    obtain ⟨a, l, rfl, e1, e⟩ := map_cons_inv e
    obtain ⟨b, l, rfl, e2, e⟩ := map_cons_inv e
    obtain ⟨c, l, rfl, e3, e⟩ := map_cons_inv e
    obtain ⟨d, l, rfl, e4, e⟩ := map_cons_inv e
    cases map_nil_inv e
    obtain ⟨d1, x, d2, y, rfl⟩ := arg_pt e1
    obtain ⟨d3, v, rfl⟩ := arg_dec e2
    obtain ⟨d5, a, rfl⟩ := arg_int e3
    obtain ⟨d6, b, rfl⟩ := arg_int e4
    exact ⟨_, _, _, .filledArc d1 d2 d3 d5 d6 x y v a b, hv, rfl⟩
  rcases h with ⟨t, ⟨s, r, h⟩, rfl⟩ | h
  · obtain ⟨l, e, hv, rfl, e0⟩ := line_inv g n h
    obtain rfl := (List.cons.inj e0).1
    obtain ⟨a, l, rfl, e1, e⟩ := map_cons_inv e
    obtain ⟨b, l, rfl, e2, e⟩ := map_cons_inv e
    obtain ⟨c, l, rfl, e3, e⟩ := map_cons_inv e
    obtain ⟨d, l, rfl, e4, e⟩ := map_cons_inv e
    obtain ⟨f, l, rfl, e5, e⟩ := map_cons_inv e
    cases map_nil_inv e
    obtain ⟨d1, x, d2, y, rfl⟩ := arg_pt e1
    obtain ⟨d3, v, rfl⟩ := arg_dec e2
    obtain ⟨d4, w, rfl⟩ := arg_dec e3
    obtain ⟨d5, a, rfl⟩ := arg_int e4
    obtain ⟨d6, b, rfl⟩ := arg_int e5
    exact ⟨_, _, _, .ellipticArc d1 d2 d3 d4 d5 d6 x y v w a b, hv, rfl⟩
  rcases h with ⟨t, ⟨s, r, h⟩, rfl⟩ | h
  · obtain ⟨l, e, hv, rfl, e0⟩ := line_inv g n h
    obtain rfl := (List.cons.inj e0).1
    obtain ⟨a, l, rfl, e1, e⟩ := map_cons_inv e
    obtain ⟨b, l, rfl, e2, e⟩ := map_cons_inv e
    obtain ⟨c, l, rfl, e3, e⟩ := map_cons_inv e
    obtain ⟨d, l, rfl, e4, e⟩ := map_cons_inv e
    cases map_nil_inv e
    obtain ⟨d1, x, d2, y, rfl⟩ := arg_pt e1
    obtain ⟨d3, v, rfl⟩ := arg_dec e2
    obtain ⟨d5, a, rfl⟩ := arg_int e3
    obtain ⟨d6, b, rfl⟩ := arg_int e4
    exact ⟨_, _, _, .arc d1 d2 d3 d5 d6 x y v a b, hv, rfl⟩
  rcases h with ⟨t, ⟨s, r, h⟩, rfl⟩ | h
  · obtain ⟨q, l, hv, rfl, e0⟩ := poly_inv g n h
    obtain rfl := (List.cons.inj e0).1
    exact ⟨_, _, _, .polygon q l, hv, rfl⟩
  rcases h with ⟨t, ⟨s, r, h⟩, rfl⟩ | h
  · obtain ⟨l, e, hv, rfl, e0⟩ := line_inv g n h
    obtain rfl := (List.cons.inj e0).1
    obtain ⟨a, l, rfl, e1, e⟩ := map_cons_inv e
    cases map_nil_inv e
    obtain ⟨d1, x, d2, y, rfl⟩ := arg_pt e1
    exact ⟨_, _, _, .pixel d1 d2 x y, hv, rfl⟩
  rcases h with ⟨t, ⟨s, r, h⟩, rfl⟩ | h
  · obtain ⟨l, e, hv, rfl, e0⟩ := line_inv g n h
    obtain rfl := (List.cons.inj e0).1
    obtain ⟨a, l, rfl, e1, e⟩ := map_cons_inv e
    obtain ⟨b, l, rfl, e2, e⟩ := map_cons_inv e
    obtain ⟨c, l, rfl, e3, e⟩ := map_cons_inv e
    cases map_nil_inv e
    obtain ⟨d1, x, d2, y, rfl⟩ := arg_pt e1
    obtain ⟨d3, v, rfl⟩ := arg_dec e2
    obtain ⟨d4, w, rfl⟩ := arg_dec e3
    exact ⟨_, _, _, .ellipse d1 d2 d3 d4 x y v w, hv, rfl⟩
  rcases h with ⟨t, ⟨s, r, h⟩, rfl⟩ | h
  · obtain ⟨l, e, hv, rfl, e0⟩ := line_inv g n h
    obtain rfl := (List.cons.inj e0).1
    obtain ⟨a, l, rfl, e1, e⟩ := map_cons_inv e
    obtain ⟨b, l, rfl, e2, e⟩ := map_cons_inv e
    cases map_nil_inv e
    obtain ⟨d1, x, d2, y, rfl⟩ := arg_pt e1
    obtain ⟨d3, v, rfl⟩ := arg_dec e2
    exact ⟨_, _, _, .circle d1 d2 d3 x y v, hv, rfl⟩
  · obtain ⟨t, ⟨s, r, h⟩, rfl⟩ := h
    obtain ⟨l, e, hv, rfl, e0⟩ := line_inv g n h
    obtain rfl := (List.cons.inj e0).1
    obtain ⟨a, l, rfl, e1, e⟩ := map_cons_inv e
    obtain ⟨b, l, rfl, e2, e⟩ := map_cons_inv e
    cases map_nil_inv e
    obtain ⟨d1, x, d2, y, rfl⟩ := arg_pt e1
    obtain ⟨d3, v, d4, w, rfl⟩ := arg_pt e2
    exact ⟨_, _, _, .rect d1 d2 d3 d4 x y v w, hv, rfl⟩

/-- What is matched is read as what it stands for. -/
theorem rule_sound {R F : Type} [F64 F] [Close F] {sk : St → Res R} {K : Str → Str → Prop} (g : Good sk K) (n : Names R)
    {kind : R → Option Kind} (hk : ∀ k, kind (n.name k) = some k) (num : Str → F)
    (hnum : ∀ s, IsDecimal s → F64.ofText s = some (num s)) {ts : List (Tree R)}
    (h : Kids sk K (rulesE n) .nonAtomic ts) :
    ∃ (d : Drawing) (u : Tree R), ts = [u] ∧ d.IsText u.asStr ∧
      parseRule kind u = if d.Fits then .ok (d.value num Close.close) else .error .panic := by
  obtain ⟨d, k, l, hf, hv, rfl⟩ := rule_inv g n h
  exact ⟨d, _, rfl, form_text hf hv, form_read n hk num hnum hf hv _⟩

/-- What is matched is the text of a drawing rule. -/
theorem rule_text {R : Type} {sk : St → Res R} {K : Str → Str → Prop} (g : Good sk K) (n : Names R) {s r : Str} {ts : List (Tree R)}
    (h : Out sk K (rulesE n) .nonAtomic s r ts) : ∃ d : Drawing, d.IsText s := by
  obtain ⟨d, k, l, hf, hv, e⟩ := rule_inv g n (out_kids _ _ _ _ _ h)
  have key : ∃ q kids, ts = [Tree.node q s kids] := by
    rcases h with ⟨kids, _, e⟩ | ⟨h, _⟩
    · exact ⟨_, _, e⟩
    rcases h with ⟨kids, _, e⟩ | ⟨h, _⟩
    · exact ⟨_, _, e⟩
    rcases h with ⟨kids, _, e⟩ | ⟨h, _⟩
    · exact ⟨_, _, e⟩
    rcases h with ⟨kids, _, e⟩ | ⟨h, _⟩
    · exact ⟨_, _, e⟩
    rcases h with ⟨kids, _, e⟩ | ⟨h, _⟩
    · exact ⟨_, _, e⟩
    rcases h with ⟨kids, _, e⟩ | ⟨h, _⟩
    · exact ⟨_, _, e⟩
    rcases h with ⟨kids, _, e⟩ | ⟨h, _⟩
    · exact ⟨_, _, e⟩
    rcases h with ⟨kids, _, e⟩ | ⟨h, _⟩
    · exact ⟨_, _, e⟩
    rcases h with ⟨kids, _, e⟩ | ⟨h, _⟩
    · exact ⟨_, _, e⟩
    rcases h with ⟨kids, _, e⟩ | ⟨h, _⟩
    · exact ⟨_, _, e⟩
    obtain ⟨kids, _, e⟩ := h
    exact ⟨_, _, e⟩
  obtain ⟨q, kids, e'⟩ := key
  rw [e'] at e
  obtain ⟨_, rfl, _⟩ : _ ∧ s = _ ∧ _ := by simpa using e
  exact ⟨d, form_text hf hv⟩

end Verif.Proofs.SymbolRule
