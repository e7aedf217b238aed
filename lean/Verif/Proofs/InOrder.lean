import Verif.Peg.All
import Verif.Proofs.Post
import Verif.Spec.InOrder
/-!
# Tokens stand in the text one behind another
-/

namespace Verif.Spec

theorem InOrder.pad {l : List Str} {s : Str} (h : InOrder l s) (m : Str) : InOrder l (m ++ s) := by
  cases h with
  | nil => exact .nil _
  | cons before part behind parts h =>
    rw [← List.append_assoc]
    exact .cons _ _ _ _ h

theorem InOrder.append {a b : List Str} {s t : Str} (h : InOrder a s) (h' : InOrder b t) : InOrder (a ++ b) (s ++ t) := by
  induction h with
  | nil s => exact h'.pad s
  | cons before part behind parts _ ih =>
    rw [List.append_assoc, List.append_assoc]
    exact .cons _ _ _ _ ih

theorem InOrder.left {l : List Str} {s : Str} (h : InOrder l s) (m : Str) : InOrder l (s ++ m) := by
  have := h.append (.nil m)
  rwa [List.append_nil] at this

theorem InOrder.of_infix {l : List Str} {s t : Str} (h : InOrder l s) (hi : s <:+: t) : InOrder l t := by
  obtain ⟨a, b, rfl⟩ := hi
  exact (h.pad a).left b

theorem InOrder.one (s : Str) : InOrder [s] s := by
  simpa using InOrder.cons [] s [] [] (.nil _)

theorem InOrder.sub {l l' : List Str} {s : Str} (h : InOrder l s) (hs : l'.Sublist l) : InOrder l' s := by
  induction h generalizing l' with
  | nil s => rw [List.sublist_nil.1 hs]; exact .nil _
  | cons before part behind parts _ ih =>
    cases hs with
    | cons _ hs => exact ((ih hs).pad _).pad _
    | cons_cons _ hs => exact .cons _ _ _ _ (ih hs)

theorem InOrder.infix {l : List Str} {s : Str} (h : InOrder l s) : ∀ p ∈ l, p <:+: s := by
  induction h with
  | nil => simp
  | cons before part behind parts _ ih =>
    intro p hp
    rcases List.mem_cons.1 hp with rfl | hp
    · exact ⟨before, behind, by simp⟩
    · obtain ⟨a, b, e⟩ := ih p hp
      exact ⟨before ++ (part ++ a), b, by rw [← e]; simp⟩

theorem InOrder.sublist {l : List Str} {s : Str} (h : InOrder l s) : l.flatten.Sublist s := by
  induction h with
  | nil s => exact List.nil_sublist _
  | cons before part behind parts _ ih =>
    exact (List.Sublist.append (List.Sublist.refl part) ih).trans (List.sublist_append_right _ _)

end Verif.Spec

namespace Verif.Peg
open Verif.Spec
variable {R : Type} {sk : St → Res R} {K : Str → Str → Prop}

/-- The parts of a token stand one behind another in it. -/
def Ordered (t : Tree R) : Prop := InOrder (t.inner.map Tree.asStr) t.asStr

theorem out_inOrder (x : Expr R) : ∀ a s r ts, Out sk K x a s r ts → InOrder (ts.map Tree.asStr) s := by
  induction x with
  | str w => intro a s r ts h; rw [h.2]; exact .nil _
  | cls p => intro a s r ts h; obtain ⟨c, _, _, h⟩ := h; rw [h]; exact .nil _
  | soi => intro a s r ts h; rw [h.2]; exact .nil _
  | eoi e =>
    intro a s r ts h
    rw [h.2.2]
    split
    · exact .nil _
    · exact (InOrder.one []).of_infix List.nil_infix
  | seq x y ihx ihy =>
    intro a s r ts h
    obtain ⟨s1, m, s2, t1, t2, rfl, _, h1, h2, rfl⟩ := h
    rw [List.map_append]
    exact ((ihx _ _ _ _ h1).left m).append (ihy _ _ _ _ h2)
  | dup x y ihx ihy =>
    intro a s r ts h
    obtain ⟨w, u, t1, t2, rfl, h1, h2, rfl⟩ := h
    rw [List.map_append]
    exact (ihx _ _ _ _ h1).append ((ihy _ _ _ _ h2).left _)
  | alt x y ihx ihy =>
    intro a s r ts h
    rcases h with h | ⟨h, _⟩
    · exact ihx _ _ _ _ h
    · exact ihy _ _ _ _ h
  | opt x ih =>
    intro a s r ts h
    rcases h with h | ⟨_, h, _⟩
    · exact ih _ _ _ _ h
    · rw [h]; exact .nil _
  | star x ih =>
    intro a s r ts h
    refine out_star_ind h (fun s ts => InOrder (ts.map Tree.asStr) s) (.nil _) ?_
    intro m s ts s' ts' _ h ih'
    rw [List.map_append]
    exact ((ih _ _ _ _ h).pad m).append ih'
  | not x => intro a s r ts h; rw [h.2.1]; exact .nil _
  | rule e ty x ih =>
    intro a s r ts h
    obtain ⟨kids, h1, h2⟩ := h
    by_cases he : emits ty a = true
    · rw [if_pos he] at h2
      rw [h2]
      exact InOrder.one s
    · rw [if_neg he] at h2
      rw [h2]
      exact ih _ _ _ _ h1
  | quiet x ih => intro a s r ts h; exact ih _ _ _ _ h
  | push x ih => intro a s r ts h; exact ih _ _ _ _ h
  | pop => intro a s r ts h; rw [h]; exact .nil _

theorem makes_ordered (x : Expr R) : ∀ a, Makes sk K Ordered x a := by
  induction x with
  | eoi e => intro a; exact InOrder.nil _
  | seq x y ihx ihy => exact fun a => ⟨ihx a, ihy a⟩
  | dup x y ihx ihy => exact fun a => ⟨ihx a, ihy a⟩
  | alt x y ihx ihy => exact fun a => ⟨ihx a, ihy a⟩
  | opt x ih => exact ih
  | star x ih => exact ih
  | rule e ty x ih => exact fun a => ⟨fun _ _ _ h => out_inOrder _ _ _ _ _ h, ih _⟩
  | quiet x ih => exact fun a => ih _
  | push x ih => exact ih
  | _ => exact fun a => trivial

/-- The tokens stand one behind another in the text, and so do the parts of each of them. -/
def Queue (ts : List (Tree R)) (T : Str) : Prop := InOrder (ts.map Tree.asStr) T ∧ ∀ t ∈ ts, All Ordered t

theorem out_queue {x : Expr R} {a : Atom} {s r : Str} {ts : List (Tree R)} (h : Out sk K x a s r ts) : Queue ts s :=
  ⟨out_inOrder _ _ _ _ _ h, out_all _ _ _ _ _ (makes_ordered x a) h⟩

theorem All.queue {t : Tree R} (h : All Ordered t) : Queue t.inner t.asStr := ⟨h.here, h.inner⟩

/-- What is read from a row of tokens stands in the row. -/
theorem Queue.step {t : Tree R} {ts : List (Tree R)} {T : Str} {l : List Str} (h : Queue (t :: ts) T) (hl : InOrder l t.asStr)
    {l' : List Str} (hr : ∀ T, Queue ts T → InOrder l' T) : InOrder (l ++ l') T := by
  obtain ⟨h1, h2⟩ := h
  generalize e : (t :: ts).map Tree.asStr = m at h1
  cases h1 with
  | nil => cases e
  | cons before part behind parts h1 =>
    injection e with e1 e2
    subst e1 e2
    exact (hl.append (hr behind ⟨h1, fun u hu => h2 u (List.mem_cons_of_mem _ hu)⟩)).pad _

theorem Queue.str {t : Tree R} {ts : List (Tree R)} {T : Str} (h : Queue (t :: ts) T)
    {l' : List Str} (hr : ∀ T, Queue ts T → InOrder l' T) : InOrder (t.asStr :: l') T := h.step (InOrder.one _) hr

theorem Queue.skip {t : Tree R} {ts : List (Tree R)} {T : Str} (h : Queue (t :: ts) T)
    {l' : List Str} (hr : ∀ T, Queue ts T → InOrder l' T) : InOrder l' T := h.step (.nil _) hr

theorem Queue.strs {ts : List (Tree R)} {T : Str} (h : Queue ts T) : InOrder (ts.map Tree.asStr) T := h.1

theorem Queue.mapM {A : Type} {f : Tree R → Run A} {fields : A → List Str}
    (hf : ∀ t v, All Ordered t → f t = .ok v → InOrder (fields v) t.asStr) :
    ∀ {ts : List (Tree R)} {vs : List A} {T : Str}, Queue ts T → ts.mapM f = .ok vs → InOrder (vs.flatMap fields) T
  | [], vs, T, _, hm => by cases hm; exact .nil _
  | t :: ts, vs, T, h, hm => by
    rw [List.mapM_cons] at hm
    obtain ⟨v, hv, hm⟩ := run_bind_ok_iff.1 hm
    obtain ⟨ws, hw, hm⟩ := run_bind_ok_iff.1 hm
    cases hm
    exact h.step (hf t v (h.2 t List.mem_cons_self) hv) fun T h => Queue.mapM hf h hw

end Verif.Peg
