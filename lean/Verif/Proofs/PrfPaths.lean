import Verif.Model.PrfPaths
import Verif.Spec.PrfPaths
/-!
# Helper lemmas for the paths of a profile
-/

namespace Verif.PrfPaths
open Verif.Spec.PrfPaths

theorem splitSep_ne_nil (sep : Char) (s : Str) : splitSep sep s ≠ [] := by
  cases s with
  | nil => simp [splitSep]
  | cons c s =>
    simp only [splitSep]
    split
    · simp
    · split <;> simp

theorem splitSep_none {sep : Char} {s : Str} (h : ∀ c ∈ s, c ≠ sep) : splitSep sep s = [s] := by
  induction s with
  | nil => rfl
  | cons c s ih =>
    simp only [List.mem_cons, forall_eq_or_imp] at h
    simp [splitSep, ih h.2, h.1]

theorem splitSep_cons {sep : Char} {p s : Str} (h : ∀ c ∈ p, c ≠ sep) :
    splitSep sep (p ++ sep :: s) = p :: splitSep sep s := by
  induction p with
  | nil =>
    simp only [List.nil_append, splitSep]
    split
    · next h => exact absurd h (splitSep_ne_nil _ _)
    · next h => simp [h]
  | cons c p ih =>
    simp only [List.mem_cons, forall_eq_or_imp] at h
    simp only [List.cons_append, splitSep, ih h.2, if_neg h.1]

/-- Backslashes read as slashes. -/
def norm (s : Str) : Str := s.map fun c => if c = '\\' then '/' else c

theorem norm_id {p : Str} (h : ∀ c ∈ p, ¬ IsSep c) : norm p = p := by
  have : norm p = p.map id := by
    refine List.map_congr_left fun c hc => ?_
    have := h c hc
    simp only [IsSep, not_or] at this
    simp [this.2]
  simpa using this

theorem norm_sep {c : Char} (h : IsSep c) : (if c = '\\' then '/' else c) = '/' := by
  rcases h with rfl | rfl <;> decide

theorem split_names {s : Str} {ps : List Str} (h : Names s ps) : splitSep '/' (norm s) = ps := by
  induction h with
  | last p hp => rw [norm_id hp]; exact splitSep_none fun c hc e => hp c hc (Or.inl e)
  | cons p c s ps hp hc _ ih =>
    have h1 : norm (p ++ c :: s) = p ++ '/' :: norm s := by
      have h2 := norm_id hp
      simp only [norm, List.map_append, List.map_cons, norm_sep hc] at h2 ⊢
      rw [h2]
    rw [h1, splitSep_cons (fun c hc e => hp c hc (Or.inl e)), ih]

theorem components_of {s : Str} {cs : List Str} (h : Denotes s cs) : components (norm s) = cs := by
  obtain ⟨ps, hp, rfl⟩ := h
  rw [components, split_names hp]

theorem names_exists (s : Str) : ∃ ps, Names s ps := by
  induction s with
  | nil => exact ⟨[[]], .last [] (by simp)⟩
  | cons c s ih =>
    obtain ⟨ps, h⟩ := ih
    by_cases hc : IsSep c
    · exact ⟨[] :: ps, .cons [] c s ps (by simp) hc h⟩
    · cases h with
      | last p hp => exact ⟨[c :: s], .last _ (by simpa [hc] using hp)⟩
      | cons p d s ps hp hd hs =>
        exact ⟨(c :: p) :: ps, .cons (c :: p) d s ps (by simpa [hc] using hp) hd hs⟩

theorem head_norm {s : Str} : (norm s).head? = some '/' ↔ Rooted s := by
  cases s with
  | nil => simp [norm, Rooted]
  | cons c s =>
    simp only [norm, List.map_cons, List.head?_cons, Option.some.injEq, Rooted, List.cons.injEq]
    constructor
    · intro h
      refine ⟨c, s, ⟨rfl, rfl⟩, ?_⟩
      by_cases hc : c = '\\'
      · exact Or.inr hc
      · rw [if_neg hc] at h; exact Or.inl h
    · rintro ⟨_, _, ⟨rfl, rfl⟩, hc⟩
      exact norm_sep hc

theorem dropWhile_append_all {p : Char → Bool} {w s : Str} (h : ∀ c ∈ w, p c = true) :
    (w ++ s).dropWhile p = s.dropWhile p := by
  induction w with
  | nil => rfl
  | cons c w ih =>
    simp only [List.mem_cons, forall_eq_or_imp] at h
    simp [h.1, ih h.2]

theorem trimEnd_of {v u : Str} (h : Trimmed isWhitespace v u) : trimEnd v = u := by
  obtain ⟨w, rfl, hw, hu⟩ := h
  rw [trimEnd, List.reverse_append, dropWhile_append_all (by simpa using hw)]
  cases hr : u.reverse with
  | nil =>
    rw [List.reverse_eq_nil_iff] at hr
    simp [hr]
  | cons c r =>
    have : u.getLast? = some c := by rw [← List.head?_reverse, hr]; rfl
    rw [List.dropWhile_cons_of_neg (by simp [hu c this]), ← hr, List.reverse_reverse]

theorem join_norm (dir : Path) {s : Str} {cs : List Str} (h : Denotes s cs) :
    join dir (norm s) = if (norm s).head? = some '/' then cs else dir ++ cs := by
  rw [join, components_of h]

theorem resolve {prf : Prf} {v u : Str} (h : Trimmed isWhitespace v u) :
    joinSettingsPath prf v =
      match norm u with
      | '/' :: rel => unwrap (parent prf.path) >>= fun d => .ok (join d rel)
      | n => unwrap prf.cwd >>= fun d => .ok (join d n) := by
  rw [joinSettingsPath, trimEnd_of h]
  change (match norm u with | '/' :: rel => _ | _ => _) = _
  split
  · rfl
  · rfl

theorem parent_append (d : Path) (f : Str) : parent (d ++ [f]) = some d := by
  simp [parent]

theorem resolve_rooted {prf : Prf} {dir : Path} {file v c rel : _} (hp : prf.path = dir ++ [file])
    (hv : Trimmed isWhitespace v (c :: rel)) (hc : IsSep c) :
    joinSettingsPath prf v = .ok (join dir (norm rel)) := by
  rw [resolve hv]
  have : norm (c :: rel) = '/' :: norm rel := by
    simp only [norm, List.map_cons, norm_sep hc]
  rw [this, hp, parent_append]
  rfl

theorem resolve_unrooted {prf : Prf} {cwd : Path} {v u : _} (hp : prf.cwd = some cwd)
    (hv : Trimmed isWhitespace v u) (hu : ¬ Rooted u) :
    joinSettingsPath prf v = .ok (join cwd (norm u)) := by
  rw [resolve hv]
  split
  · next rel h =>
    exact absurd (head_norm.1 (by rw [h]; rfl)) hu
  · rw [hp]; rfl

theorem trim_exists (v : Str) : ∃ u, Trimmed isWhitespace v u := by
  refine ⟨trimEnd v, (v.reverse.takeWhile isWhitespace).reverse, ?_, ?_, ?_⟩
  · rw [trimEnd, ← List.reverse_append, List.takeWhile_append_dropWhile, List.reverse_reverse]
  · intro c hc
    rw [List.mem_reverse] at hc
    have := List.all_takeWhile (p := isWhitespace) (l := v.reverse)
    exact List.all_eq_true.1 this c hc
  · intro c hc
    rw [trimEnd, List.getLast?_reverse] at hc
    have := List.head?_dropWhile_not isWhitespace v.reverse
    rw [hc] at this
    simpa using this

/-- With a profile that lies in a directory and a current directory, every value resolves. -/
theorem resolve_total {prf : Prf} {dir cwd : Path} {file : Str} (hp : prf.path = dir ++ [file])
    (hc : prf.cwd = some cwd) (v : Str) : ∃ p, joinSettingsPath prf v = .ok p := by
  obtain ⟨u, hu⟩ := trim_exists v
  by_cases hr : Rooted u
  · obtain ⟨c, r, rfl, hs⟩ := hr
    exact ⟨_, resolve_rooted hp hu hs⟩
  · exact ⟨_, resolve_unrooted hc hu hr⟩

theorem fileName_iff {p : Path} {n : Str} (hn : n ≠ ['.', '.']) :
    fileName p = some n ↔ ∃ d, p = d ++ [n] := by
  simp only [fileName, Option.filter_eq_some_iff, List.getLast?_eq_some_iff]
  constructor
  · rintro ⟨⟨d, h⟩, _⟩; exact ⟨d, h⟩
  · rintro ⟨d, h⟩; exact ⟨⟨d, h⟩, by simp [hn]⟩

theorem findFile_spec {prf : Prf} {dir cwd : Path} {file name : Str} (hp : prf.path = dir ++ [file])
    (hc : prf.cwd = some cwd) (hn : name ≠ ['.', '.']) (es : List ((Str × Str) × Str)) :
    (findFile prf name es = .ok none ∧
      ∀ k v d, (k, v) ∈ es → joinSettingsPath prf v ≠ .ok (d ++ [name])) ∨
    (∃ d k v, findFile prf name es = .ok (some d) ∧ (k, v) ∈ es ∧
      joinSettingsPath prf v = .ok (d ++ [name])) := by
  induction es with
  | nil => left; simp [findFile]
  | cons e es ih =>
    obtain ⟨k, v⟩ := e
    obtain ⟨p, h⟩ := resolve_total hp hc v
    simp only [findFile, h, run_ok_bind]
    by_cases hf : fileName p = some name
    · right
      obtain ⟨d, rfl⟩ := (fileName_iff hn).1 hf
      refine ⟨d, k, v, ?_, by simp, h⟩
      rw [if_pos hf, hp, parent_append, parent_append]
      rfl
    · rw [if_neg hf]
      rcases ih with ⟨h1, h2⟩ | ⟨d, k', v', h1, h2, h3⟩
      · left
        refine ⟨h1, ?_⟩
        intro k' v' d hm
        rcases List.mem_cons.1 hm with e | hm
        · cases e
          rw [h]
          intro e
          exact hf ((fileName_iff hn).2 ⟨d, Except.ok.inj e⟩)
        · exact h2 k' v' d hm
      · exact Or.inr ⟨d, k', v', h1, by simp [h2], h3⟩

theorem dropWhile_ne {p s : Str} (h : ∀ c ∈ p, c ≠ '.') (b : Str) (hs : s = p ++ '.' :: b) :
    s.dropWhile (· ≠ '.') = '.' :: b := by
  subst hs
  rw [dropWhile_append_all (by simpa using h)]
  rfl

theorem stem_dot {base ext : Str} (hb : base ≠ []) (he : ∀ c ∈ ext, c ≠ '.') :
    stem (base ++ '.' :: ext) = base := by
  have h : (base ++ '.' :: ext).reverse.dropWhile (· ≠ '.') = '.' :: base.reverse :=
    dropWhile_ne (p := ext.reverse) (by simpa using he) _ (by simp)
  simp only [stem, h, List.drop_succ_cons, List.drop_zero, List.reverse_eq_nil_iff, if_neg hb,
    List.reverse_reverse]

theorem stem_plain {n : Str} (h : ∀ c ∈ n, c ≠ '.') : stem n = n := by
  have : n.reverse.dropWhile (· ≠ '.') = [] := by
    have := dropWhile_append_all (p := (· ≠ '.')) (w := n.reverse) (s := []) (by simpa using h)
    simpa using this
  simp only [stem, this, List.drop_nil, if_pos]

theorem fileName_append {d : Path} {n : Str} (hn : n ≠ ['.', '.']) : fileName (d ++ [n]) = some n :=
  (fileName_iff hn).2 ⟨d, rfl⟩

end Verif.PrfPaths
