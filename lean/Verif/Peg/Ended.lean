import Verif.Peg.Safe
/-!
# Expressions whose text ends with a line end

`Ended s`: behind the last line end of `s` there are only blanks and a comment.
-/

namespace Verif.Peg
open Verif.Spec
variable {R : Type} {sk : St → Res R} {K : Str → Str → Prop} {marks : List Str}

/-- Blanks and possibly a comment. -/
def IsRest (marks : List Str) (m : Str) : Prop :=
  (∀ c ∈ m, ¬ IsNewline c) ∧ ((∀ c ∈ m, IsBlankChar c) ∨ ∃ sp w body, m = sp ++ (w ++ body) ∧ (∀ c ∈ sp, IsBlankChar c) ∧ w ∈ marks)

/-- See above. -/
def Ended (marks : List Str) (s : Str) : Prop := ∃ a c m, s = a ++ c :: m ∧ IsNewline c ∧ IsRest marks m

theorem rest_nil : IsRest marks [] := ⟨by simp, Or.inl (by simp)⟩

theorem rest_append {m n : Str} (h : IsRest marks m) (h' : IsRest marks n) : IsRest marks (m ++ n) := by
  refine ⟨fun c hc => ?_, ?_⟩
  · rcases List.mem_append.1 hc with hc | hc
    · exact h.1 c hc
    · exact h'.1 c hc
  · rcases h.2 with h1 | ⟨sp, w, body, rfl, h1, h2⟩
    · rcases h'.2 with h3 | ⟨sp, w, body, rfl, h3, h4⟩
      · left
        intro c hc
        rcases List.mem_append.1 hc with hc | hc
        · exact h1 c hc
        · exact h3 c hc
      · refine Or.inr ⟨m ++ sp, w, body, by simp, fun c hc => ?_, h4⟩
        rcases List.mem_append.1 hc with hc | hc
        · exact h1 c hc
        · exact h3 c hc
    · exact Or.inr ⟨sp, w, body ++ n, by simp, h1, h2⟩

theorem ended_left {a s : Str} (h : Ended marks s) : Ended marks (a ++ s) := by
  obtain ⟨b, c, m, rfl, h⟩ := h
  exact ⟨a ++ b, c, m, by simp, h⟩

theorem ended_right {s m : Str} (h : Ended marks s) (hm : IsRest marks m) : Ended marks (s ++ m) := by
  obtain ⟨b, c, m', rfl, h, h'⟩ := h
  exact ⟨b, c, m' ++ m, by simp, h, rest_append h' hm⟩

mutual
/-- The text of the expression ends with a line end. -/
def ends : Expr R → Bool
  | .str w => match w.getLast? with | some c => isNewlineChar c | none => false
  | .alt x y => ends x && ends y
  | .seq x y => ends y || (ends x && endsOpt y)
  | .rule _ _ x => ends x
  | .quiet x => ends x
  | .push x => ends x
  | _ => false
/-- The text of the expression is empty or ends with a line end. -/
def endsOpt : Expr R → Bool
  | .star x => ends x
  | .opt x => ends x
  | .not _ => true
  | .soi => true
  | .eoi _ => true
  | _ => false
end

theorem out_ended (hK : ∀ m r, K m r → IsRest marks m) (x : Expr R) : ∀ a s r ts,
    (ends x = true → Out sk K x a s r ts → Ended marks s) ∧ (endsOpt x = true → Out sk K x a s r ts → s = [] ∨ Ended marks s) := by
  have hg : ∀ {a m r}, Gap K a m r → IsRest marks m := by
    intro a m r h
    cases a with
    | nonAtomic => exact hK _ _ h
    | _ => have : m = [] := h
           rw [this]; exact rest_nil
  induction x with
  | str w =>
    intro a s r ts
    refine ⟨fun he h => ?_, fun he => by simp [endsOpt] at he⟩
    obtain ⟨rfl, _⟩ := h
    simp only [ends] at he
    cases hw : List.getLast? s with
    | none => rw [hw] at he; cases he
    | some c =>
      rw [hw] at he
      obtain ⟨b, hb⟩ := List.getLast?_eq_some_iff.1 hw
      exact ⟨b, c, [], hb, newline_iff.1 he, rest_nil⟩
  | cls p => intro a s r ts; exact ⟨fun he => by simp [ends] at he, fun he => by simp [endsOpt] at he⟩
  | soi => intro a s r ts; exact ⟨fun he => by simp [ends] at he, fun _ h => Or.inl h.1⟩
  | eoi e => intro a s r ts; exact ⟨fun he => by simp [ends] at he, fun _ h => Or.inl h.1⟩
  | not x => intro a s r ts; exact ⟨fun he => by simp [ends] at he, fun _ h => Or.inl h.1⟩
  | dup x y => intro a s r ts; exact ⟨fun he => by simp [ends] at he, fun he => by simp [endsOpt] at he⟩
  | pop => intro a s r ts; exact ⟨fun he => by simp [ends] at he, fun he => by simp [endsOpt] at he⟩
  | seq x y ihx ihy =>
    intro a s r ts
    refine ⟨fun he h => ?_, fun he => by simp [endsOpt] at he⟩
    obtain ⟨s1, m, s2, t1, t2, rfl, hm, h1, h2, rfl⟩ := h
    simp only [ends, Bool.or_eq_true, Bool.and_eq_true] at he
    rcases he with he | ⟨he, he'⟩
    · exact ended_left ((ihy _ _ _ _).1 he h2)
    · rcases (ihy _ _ _ _).2 he' h2 with rfl | h3
      · rw [List.append_nil]
        exact ended_right ((ihx _ _ _ _).1 he h1) (hg hm)
      · exact ended_left h3
  | alt x y ihx ihy =>
    intro a s r ts
    refine ⟨fun he h => ?_, fun he => by simp [endsOpt] at he⟩
    simp only [ends, Bool.and_eq_true] at he
    rcases h with h | ⟨h, _⟩
    · exact (ihx _ _ _ _).1 he.1 h
    · exact (ihy _ _ _ _).1 he.2 h
  | opt x ih =>
    intro a s r ts
    refine ⟨fun he => by simp [ends] at he, fun he h => ?_⟩
    rcases h with h | ⟨h, _⟩
    · exact Or.inr ((ih _ _ _ _).1 he h)
    · exact Or.inl h
  | star x ih =>
    intro a s r ts
    refine ⟨fun he => by simp [ends] at he, fun he h => ?_⟩
    simp only [endsOpt] at he
    refine out_star_ind h (fun s _ => s = [] ∨ Ended marks s) (Or.inl rfl) ?_
    intro m s ts s' ts' _ h ih'
    right
    rcases ih' with rfl | ih'
    · rw [List.append_nil]
      exact ended_left ((ih _ _ _ _).1 he h)
    · exact ended_left ih'
  | rule e ty x ih =>
    intro a s r ts
    refine ⟨fun he h => ?_, fun he => by simp [endsOpt] at he⟩
    obtain ⟨kids, h1, h2⟩ := h
    exact (ih _ _ _ _).1 he h1
  | quiet x ih => 
    intro a s r ts
    exact ⟨fun he h => (ih _ _ _ _).1 he h, fun he => by simp [endsOpt] at he⟩
  | push x ih =>
    intro a s r ts
    exact ⟨fun he h => (ih _ _ _ _).1 he h, fun he => by simp [endsOpt] at he⟩

theorem LineSkip.rest {pw : Char → Bool} (h : LineSkip sk K pw marks) (hp : ∀ c, pw c = true → IsBlankChar c) (hm : ∀ w ∈ marks, NoNl w)
    {m r : Str} (hk : K m r) : IsRest marks m := by
  refine ⟨fun c hc => not_newline_iff.1 (h.noNl hm hk c hc), ?_⟩
  obtain ⟨sp, cm, rfl, h1, h2⟩ := (h.iff _ _).1 hk
  rcases h2 with ⟨rfl, _⟩ | ⟨⟨w, hw, body, rfl, hb⟩, _⟩
  · left
    simpa using fun c hc => hp c (h1 c hc)
  · exact Or.inr ⟨sp, w, body, rfl, fun c hc => hp c (h1 c hc), hw⟩

end Verif.Peg
