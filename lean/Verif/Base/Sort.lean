import Verif.Base.Core
/-!
# Sorting

`sorted`, `sorted_by_key` of the crate `itertools` are stable sorts; strings are compared by their code points (the order of the
UTF-8 bytes is the order of the code points).
-/

namespace Verif

/-- `a <= b` for `String` -/
def strLe : Str → Str → Bool
  | [], _ => true
  | _ :: _, [] => false
  | a :: s, b :: t => if a = b then strLe s t else decide (a.toNat < b.toNat)

theorem strLe_refl (s : Str) : strLe s s = true := by
  induction s with
  | nil => rfl
  | cons a s ih => simp [strLe, ih]

theorem char_toNat_inj {a b : Char} (h : a.toNat = b.toNat) : a = b := by
  rw [← Char.ofNat_toNat a, h, Char.ofNat_toNat]

theorem strLe_total (s t : Str) : strLe s t = true ∨ strLe t s = true := by
  induction s generalizing t with
  | nil => exact Or.inl rfl
  | cons a s ih =>
    cases t with
    | nil => exact Or.inr rfl
    | cons b t =>
      by_cases e : a = b
      · subst e
        simpa [strLe] using ih t
      · have e' : b ≠ a := fun h => e h.symm
        simp only [strLe, if_neg e, if_neg e', decide_eq_true_eq]
        have : a.toNat ≠ b.toNat := fun h => e (char_toNat_inj h)
        omega

theorem strLe_trans {s t u : Str} (h1 : strLe s t = true) (h2 : strLe t u = true) : strLe s u = true := by
  induction s generalizing t u with
  | nil => rfl
  | cons a s ih =>
    cases t with
    | nil => cases h1
    | cons b t =>
      cases u with
      | nil => cases h2
      | cons c u =>
        simp only [strLe] at h1 h2 ⊢
        by_cases e : a = b
        · subst e
          by_cases e' : a = c
          · subst e'
            simp only [if_true] at h1 h2 ⊢
            exact ih h1 h2
          · simpa only [if_neg e'] using h2
        · rw [if_neg e, decide_eq_true_eq] at h1
          by_cases e' : b = c
          · subst e'
            rw [if_neg e, decide_eq_true_eq]
            exact h1
          · rw [if_neg e', decide_eq_true_eq] at h2
            have : a ≠ c := by
              rintro rfl
              omega
            rw [if_neg this, decide_eq_true_eq]
            omega

theorem strLe_antisymm {s t : Str} (h1 : strLe s t = true) (h2 : strLe t s = true) : s = t := by
  induction s generalizing t with
  | nil =>
    cases t with
    | nil => rfl
    | cons b t => cases h2
  | cons a s ih =>
    cases t with
    | nil => cases h1
    | cons b t =>
      simp only [strLe] at h1 h2
      by_cases e : a = b
      · subst e
        simp only [if_true] at h1 h2
        rw [ih h1 h2]
      · have e' : b ≠ a := fun h => e h.symm
        rw [if_neg e, decide_eq_true_eq] at h1
        rw [if_neg e', decide_eq_true_eq] at h2
        omega

variable {A : Type}

/-- Inserts in front of the first element with a key that is not smaller. -/
def insertBy (key : A → Str) (a : A) : List A → List A
  | [] => [a]
  | b :: l => if strLe (key a) (key b) then a :: b :: l else b :: insertBy key a l

/-- The stable sort by a key. -/
def sortBy (key : A → Str) : List A → List A
  | [] => []
  | a :: l => insertBy key a (sortBy key l)

theorem insertBy_perm (key : A → Str) (a : A) (l : List A) : (insertBy key a l).Perm (a :: l) := by
  induction l with
  | nil => exact .refl _
  | cons b l ih =>
    unfold insertBy
    split
    · exact .refl _
    · exact (ih.cons b).trans (.swap a b l)

theorem sortBy_perm (key : A → Str) (l : List A) : (sortBy key l).Perm l := by
  induction l with
  | nil => exact .refl _
  | cons a l ih => exact (insertBy_perm key a _).trans (ih.cons a)

/-- Keys do not decrease. -/
def SortedBy (key : A → Str) (l : List A) : Prop := l.Pairwise fun a b => strLe (key a) (key b) = true

theorem insertBy_sorted (key : A → Str) (a : A) {l : List A} (h : SortedBy key l) : SortedBy key (insertBy key a l) := by
  induction l with
  | nil => exact List.pairwise_singleton _ _
  | cons b l ih =>
    obtain ⟨h1, h2⟩ := List.pairwise_cons.1 h
    unfold insertBy
    split
    · next e =>
      refine List.pairwise_cons.2 ⟨fun c hc => ?_, h⟩
      rcases List.mem_cons.1 hc with rfl | hc
      · exact e
      · exact strLe_trans e (h1 c hc)
    · next e =>
      refine List.pairwise_cons.2 ⟨fun c hc => ?_, ih h2⟩
      rcases List.mem_cons.1 ((insertBy_perm key a l).mem_iff.1 hc) with rfl | hc
      · exact (strLe_total _ _).resolve_left e
      · exact h1 c hc

theorem sortBy_sorted (key : A → Str) (l : List A) : SortedBy key (sortBy key l) := by
  induction l with
  | nil => exact List.Pairwise.nil
  | cons a l ih => exact insertBy_sorted key a ih

/-- Elements with the same key keep their order. -/
theorem insertBy_stable (key : A → Str) (a : A) (l : List A) (k : Str) :
    (insertBy key a l).filter (fun x => decide (key x = k)) = (a :: l).filter (fun x => decide (key x = k)) := by
  induction l with
  | nil => rfl
  | cons b l ih =>
    unfold insertBy
    split
    · rfl
    · next e =>
      have hne : key a ≠ key b := by
        intro h
        rw [h] at e
        exact e (strLe_refl _)
      rw [List.filter_cons, ih]
      simp only [List.filter_cons]
      by_cases h1 : key a = k
      · have h2 : key b ≠ k := fun h => hne (h1.trans h.symm)
        simp [h1, h2]
      · simp [h1]

theorem sortBy_stable (key : A → Str) (l : List A) (k : Str) :
    (sortBy key l).filter (fun x => decide (key x = k)) = l.filter (fun x => decide (key x = k)) := by
  induction l with
  | nil => rfl
  | cons a l ih =>
    unfold sortBy
    rw [insertBy_stable, List.filter_cons, List.filter_cons, ih]

theorem sortBy_of_sorted {key : A → Str} {l : List A} (h : SortedBy key l) : sortBy key l = l := by
  induction l with
  | nil => rfl
  | cons a l ih =>
    obtain ⟨h1, h2⟩ := List.pairwise_cons.1 h
    unfold sortBy
    rw [ih h2]
    cases l with
    | nil => rfl
    | cons b l => unfold insertBy; rw [if_pos (h1 b List.mem_cons_self)]

theorem sortBy_idem (key : A → Str) (l : List A) : sortBy key (sortBy key l) = sortBy key l := sortBy_of_sorted (sortBy_sorted key l)

theorem map_insertBy {B : Type} (f : A → B) (key : B → Str) (a : A) (l : List A) :
    (insertBy (fun x => key (f x)) a l).map f = insertBy key (f a) (l.map f) := by
  induction l with
  | nil => rfl
  | cons b l ih =>
    simp only [insertBy, List.map_cons]
    split <;> simp_all

/-- Sorting the images is sorting by the images. -/
theorem map_sortBy {B : Type} (f : A → B) (key : B → Str) (l : List A) :
    (sortBy (fun x => key (f x)) l).map f = sortBy key (l.map f) := by
  induction l with
  | nil => rfl
  | cons a l ih => simp only [sortBy, List.map_cons, map_insertBy, ih]

/-- Two sorted lists of texts with the same elements are the same. -/
theorem sorted_unique {l l' : List Str} (h : SortedBy id l) (h' : SortedBy id l') (hp : l.Perm l') : l = l' :=
  hp.eq_of_pairwise (fun _ _ _ _ h1 h2 => strLe_antisymm h1 h2) h h'

/-- Sorting texts does not depend on the order of the texts. -/
theorem sortBy_of_perm {l l' : List Str} (h : l.Perm l') : sortBy id l = sortBy id l' :=
  sorted_unique (sortBy_sorted id l) (sortBy_sorted id l') ((sortBy_perm id l).trans (h.trans (sortBy_perm id l').symm))

end Verif
