import Verif.Peg.All
import Verif.Proofs.AdaptationSectors
import Verif.Model.Lines
/-!
# What holds of a result, if there is one
-/

namespace Verif.Proofs
open Verif.Peg Verif.Proofs.Adaptation

/-- The result has `P`, if there is one. -/
def Post {A : Type} (P : A → Prop) (m : Run A) : Prop := ∀ a, m = .ok a → P a

theorem Post.bind {A B : Type} {P : A → Prop} {Q : B → Prop} {m : Run A} {f : A → Run B} (h : Post P m)
    (hf : ∀ a, P a → Post Q (f a)) : Post Q (m >>= f) := by
  intro b hb
  obtain ⟨a, h1, h2⟩ := run_bind_ok.1 hb
  exact hf a (h a h1) b h2

theorem Post.pure {A : Type} {P : A → Prop} {a : A} (h : P a) : Post P (.ok a) := by
  intro b hb; cases hb; exact h

theorem Post.error {A : Type} {P : A → Prop} {f : Fault} : Post P (.error f : Run A) := by
  intro b hb; cases hb

theorem Post.any {A : Type} {m : Run A} : Post (fun _ => True) m := fun _ _ => trivial

theorem Post.mono {A : Type} {P Q : A → Prop} {m : Run A} (h : Post P m) (hq : ∀ a, P a → Q a) : Post Q m :=
  fun a ha => hq a (h a ha)

theorem Post.map {A B : Type} {P : B → Prop} {m : Run A} {f : A → B} (h : Post (fun a => P (f a)) m) : Post P (f <$> m) := by
  cases m with
  | error e => exact Post.error
  | ok a => exact Post.pure (h a rfl)

theorem Post.mapM {A B : Type} {P : B → Prop} {f : A → Run B} {l : List A} (h : ∀ a ∈ l, Post P (f a)) :
    Post (fun r => ∀ b ∈ r, P b) (l.mapM f) := by
  intro r hr b hb
  obtain ⟨a, ha, hf⟩ := mem_mapM hr b hb
  exact h a ha b hf

variable {R : Type} {Q : Tree R → Prop}

theorem Post.next {ts : List (Tree R)} (h : ∀ t ∈ ts, All Q t) :
    Post (fun p : Tree R × List (Tree R) => All Q p.1 ∧ ∀ t ∈ p.2, All Q t) (Peg.next ts) := by
  cases ts with
  | nil => exact Post.error
  | cons t ts => exact Post.pure ⟨h t List.mem_cons_self, fun u hu => h u (List.mem_cons_of_mem _ hu)⟩

/-! ## Merged lines -/

section
open Verif.Lines
variable {L : Type} [DecidableEq L]

theorem mem_modifyLast {α : Type} (f : α → α) : ∀ (l : List α) (b : α), b ∈ modifyLast f l → b ∈ l ∨ ∃ a ∈ l, b = f a
  | [], _, h => by cases h
  | [a], b, h => by
    rw [modifyLast, List.mem_singleton] at h
    exact Or.inr ⟨a, List.mem_cons_self, h⟩
  | a :: a' :: l, b, h => by
    rw [modifyLast] at h
    rcases List.mem_cons.1 h with rfl | h
    · exact Or.inl List.mem_cons_self
    · rcases mem_modifyLast f (a' :: l) b h with h | ⟨c, h, he⟩
      · exact Or.inl (List.mem_cons_of_mem _ h)
      · exact Or.inr ⟨c, List.mem_cons_of_mem _ h, he⟩

theorem mem_newLine {a b p : L} (h : p ∈ newLine a b) : p = a ∨ p = b := by
  unfold newLine at h
  split at h
  · exact Or.inl (List.mem_singleton.1 h)
  · simpa using h

theorem mem_addLine {acc : List (List L)} {l : L × L} {p : L} (h : p ∈ (addLine acc l).flatten) :
    p ∈ acc.flatten ∨ p = l.1 ∨ p = l.2 := by
  unfold addLine at h
  split at h
  · split at h
    · obtain ⟨line, hl, hp⟩ := List.mem_flatten.1 h
      rcases mem_modifyLast _ _ _ hl with hl | ⟨a, ha, rfl⟩
      · exact Or.inl (List.mem_flatten.2 ⟨_, hl, hp⟩)
      · rcases List.mem_append.1 hp with hp | hp
        · exact Or.inl (List.mem_flatten.2 ⟨_, ha, hp⟩)
        · exact Or.inr (Or.inr (List.mem_singleton.1 hp))
    · exact Or.inl h
  · rw [List.flatten_append, List.mem_append] at h
    rcases h with h | h
    · exact Or.inl h
    · right; exact mem_newLine (by simpa using h)

/-- The points of merged lines are ends of lines. -/
theorem mem_mergeLines {lines : List (L × L)} {p : L} (h : p ∈ (mergeLines lines).flatten) :
    ∃ l ∈ lines, p = l.1 ∨ p = l.2 := by
  have : ∀ (lines : List (L × L)) acc, p ∈ (lines.foldl addLine acc).flatten → p ∈ acc.flatten ∨ ∃ l ∈ lines, p = l.1 ∨ p = l.2 := by
    intro lines
    induction lines with
    | nil => intro acc h; exact Or.inl h
    | cons l lines ih =>
      intro acc h
      rcases ih _ h with h | ⟨l', hl, h⟩
      · rcases mem_addLine h with h | h
        · exact Or.inl h
        · exact Or.inr ⟨l, List.mem_cons_self, h⟩
      · exact Or.inr ⟨l', List.mem_cons_of_mem _ hl, h⟩
  rcases this lines [] h with h | h
  · simp at h
  · exact h

theorem mem_lineGroups {lines : List (ColouredLine L)} {p : L} {g : Group L} (hg : g ∈ lineGroups lines) (h : p ∈ g.lines.flatten) :
    ∃ l ∈ lines, p = l.start ∨ p = l.stop := by
  have : ∀ (lines : List (ColouredLine L)) acc (g : Group L), g ∈ lines.foldl addColoured acc → p ∈ g.lines.flatten →
      (∃ g ∈ acc, p ∈ g.lines.flatten) ∨ ∃ l ∈ lines, p = l.start ∨ p = l.stop := by
    intro lines
    induction lines with
    | nil => intro acc g hg h; exact Or.inl ⟨g, hg, h⟩
    | cons l lines ih =>
      intro acc g hg h
      rcases ih _ _ hg h with ⟨g', hg', h⟩ | ⟨l', hl, h⟩
      · unfold addColoured at hg'
        split at hg'
        · rcases mem_modifyLast _ _ _ hg' with hg' | ⟨a, ha, rfl⟩
          · exact Or.inl ⟨_, hg', h⟩
          · rcases mem_addLine h with h | h
            · exact Or.inl ⟨_, ha, h⟩
            · exact Or.inr ⟨l, List.mem_cons_self, h⟩
        · rcases List.mem_append.1 hg' with hg' | hg'
          · exact Or.inl ⟨_, hg', h⟩
          · rw [List.mem_singleton.1 hg'] at h
            exact Or.inr ⟨l, List.mem_cons_self, mem_newLine (by simpa using h)⟩
      · exact Or.inr ⟨l', List.mem_cons_of_mem _ hl, h⟩
  rcases this lines [] g hg h with ⟨_, h, _⟩ | h
  · cases h
  · exact h
end

end Verif.Proofs
