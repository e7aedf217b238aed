import Verif.Base.Core
/-!
# Values that exist if the numbers fit
-/

namespace Verif.Proofs

/-- The value, or a panic. -/
def gated {A : Type} (p : Prop) [Decidable p] (v : A) : Run A := if p then .ok v else .error .panic

variable {A B : Type}

theorem gated_bind {p q : Prop} [Decidable p] [Decidable q] {v : A} {f : A → Run B} {w : B} (h : f v = gated q w) :
    (gated p v).bind f = gated (p ∧ q) w := by
  unfold gated at h ⊢
  by_cases hp : p
  · rw [if_pos hp]
    show f v = _
    rw [h]
    by_cases hq : q
    · rw [if_pos hq, if_pos ⟨hp, hq⟩]
    · rw [if_neg hq, if_neg fun h => hq h.2]
  · rw [if_neg hp, if_neg fun h => hp h.1]
    rfl

theorem gated_ok {p : Prop} [Decidable p] {v : A} {f : A → Run B} {w : B} (h : f v = .ok w) :
    (gated p v).bind f = gated p w := by
  unfold gated
  by_cases hp : p
  · rw [if_pos hp, if_pos hp]; exact h
  · rw [if_neg hp, if_neg hp]; rfl

theorem gated_congr {p q : Prop} [Decidable p] [Decidable q] {v w : A} (h : p ↔ q) (e : v = w) :
    gated p v = gated q w := by
  subst e
  unfold gated
  by_cases hp : p
  · rw [if_pos hp, if_pos (h.1 hp)]
  · rw [if_neg hp, if_neg fun hq => hp (h.2 hq)]

theorem gated_true {p : Prop} [Decidable p] {v : A} (h : p) : gated p v = .ok v := if_pos h

theorem mapM_gated {p : A → Prop} [DecidablePred p] {v : A → B} : ∀ l : List A,
    (l.mapM fun a => gated (p a) (v a)) = gated (∀ a ∈ l, p a) (l.map v)
  | [] => by simp [gated]
  | a :: l => by
    rw [List.mapM_cons, mapM_gated l]
    refine (gated_bind (q := ∀ a ∈ l, p a) (w := v a :: l.map v) ?_).trans ?_
    · exact gated_ok rfl
    · exact gated_congr (by simp) rfl

theorem unwrap_gated {p : Prop} [Decidable p] {v : A} : unwrap (if p then some v else none) = gated p v := by
  unfold gated
  by_cases h : p
  · rw [if_pos h, if_pos h]; rfl
  · rw [if_neg h, if_neg h]; rfl

end Verif.Proofs
