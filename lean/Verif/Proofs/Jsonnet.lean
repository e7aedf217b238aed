import Verif.Spec.Jsonnet
/-!
# What a document changes
-/

namespace Verif.Proofs.Jsonnet
open Verif.Json Verif.Spec.Jsonnet

theorem get?_jsonFields {fs : List (Str × Bool × Doc)} {k : Str} {j : J} (h : Map.get? (jsonFields fs) k = some j) :
    ∃ b d, (k, b, d) ∈ fs ∧ j = d.json := by
  induction fs with
  | nil => simp [jsonFields] at h
  | cons e fs ih =>
    obtain ⟨k', b, d⟩ := e
    rw [jsonFields] at h
    simp only [Map.get?] at h
    split at h
    · rename_i hk
      subst hk
      exact ⟨b, d, by simp, by simpa using h.symm⟩
    · obtain ⟨b', d', hm, hj⟩ := ih h
      exact ⟨b', d', by simp [hm], hj⟩

mutual
theorem lookup_json : ∀ (d : Doc) (ks : List Str), ¬ Touches d ks → lookup d.json ks = none
  | .value j, ks, h => absurd (.value j ks) h
  | d, [], h => absurd (.all d) h
  | .object fs, k :: ks, h => by
    rw [Doc.json, lookup]
    exact lookup_jsonFields fs k ks (fun d hd => h (.replace ks hd)) fun d hd ht => h (.add hd ht)
theorem lookup_jsonFields : ∀ (fs : List (Str × Bool × Doc)) (k : Str) (ks : List Str), (∀ d, (k, false, d) ∉ fs) →
    (∀ d, (k, true, d) ∈ fs → ¬ Touches d ks) → ((Map.get? (jsonFields fs) k).bind fun j => lookup j ks) = none
  | [], k, ks, _, _ => by simp [jsonFields]
  | (k', b, d) :: fs, k, ks, h1, h2 => by
    rw [jsonFields]
    simp only [Map.get?]
    split
    · rename_i hk
      subst hk
      cases b with
      | false => exact absurd (by simp) (h1 d)
      | true => exact lookup_json d ks (h2 d (by simp))
    · exact lookup_jsonFields fs k ks (fun d hd => h1 d (by simp [hd])) fun d hd => h2 d (by simp [hd])
end

mutual
theorem plus_untouched : ∀ (d : Doc) (j r : J) (ks : List Str), plus j d = some r → ¬ Touches d ks → lookup r ks = lookup j ks
  | .value j, _, _, ks, _, h => absurd (.value j ks) h
  | d, _, _, [], _, h => absurd (.all d) h
  | .object fs, .obj o, r, k :: ks, hr, h => by
    rw [plus] at hr
    obtain ⟨o', ho, rfl⟩ := Option.map_eq_some_iff.1 hr
    rw [lookup, lookup]
    exact plusFields_untouched fs o o' k ks ho (fun d hd => h (.replace ks hd)) fun d hd ht => h (.add hd ht)
  | .object fs, .null, r, k :: ks, hr, h => by simp [plus] at hr
  | .object fs, .bool _, r, k :: ks, hr, h => by simp [plus] at hr
  | .object fs, .num _, r, k :: ks, hr, h => by simp [plus] at hr
  | .object fs, .str _, r, k :: ks, hr, h => by simp [plus] at hr
  | .object fs, .arr _, r, k :: ks, hr, h => by simp [plus] at hr
theorem plusFields_untouched : ∀ (fs : List (Str × Bool × Doc)) (o o' : Obj) (k : Str) (ks : List Str),
    plusFields o fs = some o' → (∀ d, (k, false, d) ∉ fs) → (∀ d, (k, true, d) ∈ fs → ¬ Touches d ks) →
    ((Map.get? o' k).bind fun j => lookup j ks) = (Map.get? o k).bind fun j => lookup j ks
  | [], o, o', k, ks, h, _, _ => by
    rw [plusFields] at h
    simp only [Option.some.injEq] at h
    rw [h]
  | (k', false, d) :: fs, o, o', k, ks, h, h1, h2 => by
    rw [plusFields] at h
    have hk : ¬ k' = k := fun hk => h1 d (by simp [hk])
    rw [plusFields_untouched fs _ o' k ks h (fun d hd => h1 d (by simp [hd])) fun d hd => h2 d (by simp [hd]),
      Map.get?_insert, if_neg hk]
  | (k', true, d) :: fs, o, o', k, ks, h, h1, h2 => by
    rw [plusFields] at h
    split at h
    · rename_i hn
      rw [plusFields_untouched fs _ o' k ks h (fun d hd => h1 d (by simp [hd])) fun d hd => h2 d (by simp [hd]),
        Map.get?_insert]
      by_cases hk : k' = k
      · subst hk
        simp only [if_true, hn]
        exact lookup_json d ks (h2 d (by simp))
      · rw [if_neg hk]
    · rename_i j hj
      obtain ⟨v, hv, h⟩ := Option.bind_eq_some_iff.1 h
      rw [plusFields_untouched fs _ o' k ks h (fun d hd => h1 d (by simp [hd])) fun d hd => h2 d (by simp [hd]),
        Map.get?_insert]
      by_cases hk : k' = k
      · subst hk
        simp only [if_true, hj]
        exact plus_untouched d j v ks hv (h2 d (by simp))
      · rw [if_neg hk]
end

/-- What is not touched by any of the documents is kept. -/
theorem sum_untouched {docs : List Doc} {j r : J} {ks : List Str} (h : docs.foldlM plus j = some r)
    (hd : ∀ d ∈ docs, ¬ Touches d ks) : lookup r ks = lookup j ks := by
  induction docs generalizing j with
  | nil => simp at h; rw [h]
  | cons d docs ih =>
    rw [List.foldlM_cons] at h
    obtain ⟨j', hj, h⟩ := Option.bind_eq_some_iff.1 h
    rw [ih h fun d hd' => hd d (by simp [hd']), plus_untouched d j j' ks hj (hd d (by simp))]

/-! ## Setting -/

theorem properFields_mem {fs : List (Str × Bool × Doc)} (h : ProperFields fs) {e : Str × Bool × Doc} (he : e ∈ fs) :
    e.2.2.Proper := by
  induction fs with
  | nil => cases he
  | cons e' fs ih =>
    obtain ⟨k, b, d⟩ := e'
    rw [ProperFields] at h
    rcases List.mem_cons.1 he with rfl | he
    · exact h.1
    · exact ih h.2 he

theorem get?_jsonFields_of_mem {fs : List (Str × Bool × Doc)} (hn : (fs.map (·.1)).Nodup) {k : Str} {b : Bool} {d : Doc}
    (h : (k, b, d) ∈ fs) : Map.get? (jsonFields fs) k = some d.json := by
  induction fs with
  | nil => cases h
  | cons e fs ih =>
    obtain ⟨k', b', d'⟩ := e
    rw [List.map_cons, List.nodup_cons] at hn
    rw [jsonFields]
    simp only [Map.get?]
    rcases List.mem_cons.1 h with h | h
    · cases h
      rw [if_pos rfl]
    · have : ¬ k' = k := fun hk => hn.1 (List.mem_map.2 ⟨_, h, hk.symm⟩)
      rw [if_neg this, ih hn.2 h]

theorem lookup_sets {d : Doc} {ks : List Str} {v : J} (h : Sets d ks v) (hp : d.Proper) : lookup d.json ks = some v := by
  induction h with
  | replace hm hl =>
    rw [Doc.Proper] at hp
    rw [Doc.json, lookup, get?_jsonFields_of_mem hp.1 hm]
    exact hl
  | add hm _ ih =>
    rw [Doc.Proper] at hp
    rw [Doc.json, lookup, get?_jsonFields_of_mem hp.1 hm]
    exact ih (properFields_mem hp.2 hm)

theorem plusFields_other {fs : List (Str × Bool × Doc)} {o o' : Obj} {k : Str} (h : plusFields o fs = some o')
    (hk : k ∉ fs.map (·.1)) : Map.get? o' k = Map.get? o k := by
  have := plusFields_untouched fs o o' k [] h (fun d hd => hk (List.mem_map.2 ⟨_, hd, rfl⟩))
    fun d hd => absurd (List.mem_map.2 ⟨_, hd, rfl⟩) hk
  simpa [lookup] using this

theorem plus_object {j r : J} {fs : List (Str × Bool × Doc)} (h : plus j (.object fs) = some r) :
    ∃ o o', j = .obj o ∧ r = .obj o' ∧ plusFields o fs = some o' := by
  cases j with
  | obj o =>
    rw [plus] at h
    obtain ⟨o', ho, rfl⟩ := Option.map_eq_some_iff.1 h
    exact ⟨o, o', rfl, rfl, ho⟩
  | _ => simp [plus] at h

/-- The sum of two objects has the field that the second one replaces. -/
theorem plusFields_replace {fs : List (Str × Bool × Doc)} (hn : (fs.map (·.1)).Nodup) {o o' : Obj} {k : Str} {d : Doc}
    (h : plusFields o fs = some o') (hm : (k, false, d) ∈ fs) : Map.get? o' k = some d.json := by
  induction fs generalizing o with
  | nil => cases hm
  | cons e fs ih =>
    obtain ⟨k', b', d'⟩ := e
    rw [List.map_cons, List.nodup_cons] at hn
    rcases List.mem_cons.1 hm with hm1 | hm1
    · cases hm1
      rw [plusFields] at h
      rw [plusFields_other h hn.1, Map.get?_insert, if_pos rfl]
    · cases b' with
      | false => rw [plusFields] at h; exact ih hn.2 h hm1
      | true =>
        rw [plusFields] at h
        split at h
        · exact ih hn.2 h hm1
        · obtain ⟨v, _, h⟩ := Option.bind_eq_some_iff.1 h
          exact ih hn.2 h hm1

/-- The sum of two objects has the sum of the fields that the second one adds to. -/
theorem plusFields_add {fs : List (Str × Bool × Doc)} (hn : (fs.map (·.1)).Nodup) {o o' : Obj} {k : Str} {d : Doc}
    (h : plusFields o fs = some o') (hm : (k, true, d) ∈ fs) :
    Map.get? o' k = some d.json ∨ ∃ j v, plus j d = some v ∧ Map.get? o' k = some v := by
  induction fs generalizing o with
  | nil => cases hm
  | cons e fs ih =>
    obtain ⟨k', b', d'⟩ := e
    rw [List.map_cons, List.nodup_cons] at hn
    rcases List.mem_cons.1 hm with hm1 | hm1
    · cases hm1
      rw [plusFields] at h
      split at h
      · left
        rw [plusFields_other h hn.1, Map.get?_insert, if_pos rfl]
      · rename_i j _
        obtain ⟨v, hv, h⟩ := Option.bind_eq_some_iff.1 h
        right
        exact ⟨j, v, hv, by rw [plusFields_other h hn.1, Map.get?_insert, if_pos rfl]⟩
    · cases b' with
      | false => rw [plusFields] at h; exact ih hn.2 h hm1
      | true =>
        rw [plusFields] at h
        split at h
        · exact ih hn.2 h hm1
        · obtain ⟨v, _, h⟩ := Option.bind_eq_some_iff.1 h
          exact ih hn.2 h hm1

theorem plus_sets {d : Doc} {ks : List Str} {v : J} (h : Sets d ks v) (hp : d.Proper) {j r : J} (hr : plus j d = some r) :
    lookup r ks = some v := by
  induction h generalizing j r with
  | replace hm hl =>
    obtain ⟨o, o', rfl, rfl, ho⟩ := plus_object hr
    rw [Doc.Proper] at hp
    rw [lookup, plusFields_replace hp.1 ho hm]
    exact hl
  | add hm hs ih =>
    obtain ⟨o, o', rfl, rfl, ho⟩ := plus_object hr
    rw [Doc.Proper] at hp
    have hd := properFields_mem hp.2 hm
    rw [lookup]
    rcases plusFields_add hp.1 ho hm with hg | ⟨j, w, hw, hg⟩
    · rw [hg]; exact lookup_sets hs hd
    · rw [hg]; exact ih hd hw

/-- What a document sets is so in the sum, unless a later document touches it. -/
theorem sum_sets {pre post : List Doc} {d : Doc} {j r v : J} {ks : List Str} (h : (pre ++ d :: post).foldlM plus j = some r)
    (hp : d.Proper) (hs : Sets d ks v) (hd : ∀ d ∈ post, ¬ Touches d ks) : lookup r ks = some v := by
  rw [List.foldlM_append] at h
  obtain ⟨j1, _, h⟩ := Option.bind_eq_some_iff.1 h
  rw [List.foldlM_cons] at h
  obtain ⟨j2, h2, h⟩ := Option.bind_eq_some_iff.1 h
  rw [sum_untouched h hd, plus_sets hs hp h2]

/-! ## Places -/

theorem hasField_read {A B : Type} {fs : Fields A} {k : Str} {c : Codec B} {proj : A → B} (h : HasField fs k c proj) {o : Obj} {x : A}
    (hx : fs.of o = some x) : readField o k c = some (proj x) := by
  induction h with
  | here k c fs =>
    obtain ⟨a, ha, hx⟩ := Option.bind_eq_some_iff.1 hx
    obtain ⟨b, _, rfl⟩ := Option.map_eq_some_iff.1 hx
    exact ha
  | there _ _ ih =>
    obtain ⟨a, ha, hx⟩ := Option.bind_eq_some_iff.1 hx
    obtain ⟨b, hb, rfl⟩ := Option.map_eq_some_iff.1 hx
    exact ih hb

theorem hasField_write {A B : Type} {fs : Fields A} {k : Str} {c : Codec B} {proj : A → B} (h : HasField fs k c proj) (x : A) :
    Map.get? (fs.to x) k = some (c.to (proj x)) := by
  induction h with
  | here k c fs => simp [Fields.cons, Map.get?]
  | there hne _ ih => simp [Fields.cons, Map.get?, Ne.symm hne, ih]

theorem lookup_append {j : J} {p : List Str} {k : Str} {v : J} (h : lookup j (p ++ [k]) = some v) :
    ∃ o, lookup j p = some (.obj o) ∧ Map.get? o k = some v := by
  induction p generalizing j with
  | nil =>
    cases j with
    | obj o =>
      simp only [List.nil_append, lookup] at h
      exact ⟨o, rfl, by simpa using h⟩
    | _ => simp [lookup] at h
  | cons k' p ih =>
    cases j with
    | obj o =>
      simp only [List.cons_append, lookup] at h
      obtain ⟨j', hj, h⟩ := Option.bind_eq_some_iff.1 h
      obtain ⟨o', h1, h2⟩ := ih h
      exact ⟨o', by simp [lookup, hj, h1], h2⟩
    | _ => simp [lookup] at h

theorem lookup_append_of {j : J} {p : List Str} {k : Str} {o : Obj} (h : lookup j p = some (.obj o)) :
    lookup j (p ++ [k]) = Map.get? o k := by
  induction p generalizing j with
  | nil => simp [lookup] at h; subst h; simp [lookup]
  | cons k' p ih =>
    cases j with
    | obj o' =>
      simp only [List.cons_append, lookup] at h ⊢
      obtain ⟨j', hj, h⟩ := Option.bind_eq_some_iff.1 h
      simp [hj, ih h]
    | _ => simp [lookup] at h

theorem map_read {A : Type} {c : Codec A} {o : Obj} {m : Map Str A} (h : (Codec.map c).of (.obj o) = some m) {k : Str} {v : J}
    (hk : Map.get? o k = some v) : ∃ x, c.of v = some x ∧ Map.get? m k = some x := by
  change o.mapM _ = _ at h
  induction o generalizing m with
  | nil => cases hk
  | cons e o ih =>
    obtain ⟨k', j⟩ := e
    rw [List.mapM_cons] at h
    obtain ⟨e', he, h⟩ := Option.bind_eq_some_iff.1 h
    obtain ⟨m', hm, h⟩ := Option.bind_eq_some_iff.1 h
    simp only [Option.map_eq_some_iff] at he
    obtain ⟨x, hx, rfl⟩ := he
    cases h
    simp only [Map.get?] at hk ⊢
    split at hk
    · rename_i hkk
      cases hk
      rw [if_pos hkk]
      exact ⟨x, hx, rfl⟩
    · rename_i hkk
      rw [if_neg hkk]
      exact ih hk hm

theorem map_write {A : Type} {c : Codec A} {m : Map Str A} {k : Str} {x : A} (h : Map.get? m k = some x) :
    Map.get? (m.map fun e => (e.1, c.to e.2)) k = some (c.to x) := by
  induction m with
  | nil => cases h
  | cons e m ih =>
    obtain ⟨k', y⟩ := e
    simp only [Map.get?, List.map_cons] at h ⊢
    split at h
    · rename_i hk; rw [if_pos hk]; cases h; rfl
    · rename_i hk; rw [if_neg hk]; exact ih h

variable {R S A : Type} {root : Fields S} {fields : R → S} {back : S → R} {path : List Str} {c : Codec A} {get : R → Option A}

/-- What is at a place depends on the fields of the struct. -/
theorem place_congr (h : Place root fields path c get) {a b : R} (hab : fields a = fields b) : get a = get b := by
  induction h with
  | top _ => simp only [hab]
  | field _ _ _ ih => simp only [ih]
  | entry _ _ ih => simp only [ih]

/-- What is at a place is read from the value at its path. -/
theorem place_read (h : Place root fields path c get) (hf : ∀ x, fields (back x) = x) {j : J} {b : R}
    (hb : (root.struct fields back).of j = some b) {v : J} (hv : lookup j path = some v) :
    ∃ x, c.of v = some x ∧ get b = some x := by
  induction h generalizing v with
  | top hk =>
    obtain ⟨o, ho, hv1⟩ := lookup_append (p := []) hv
    simp only [lookup, Option.some.injEq] at ho
    subst ho
    obtain ⟨x, hx, rfl⟩ := Option.map_eq_some_iff.1 hb
    have := hasField_read hk hx
    simp only [readField, hv1] at this
    exact ⟨_, this, by simp only [hf]⟩
  | field _ hfg hk ih =>
    obtain ⟨o, ho, hv1⟩ := lookup_append hv
    obtain ⟨y, hy, hg⟩ := ih ho
    obtain ⟨x, hx, rfl⟩ := Option.map_eq_some_iff.1 hy
    have := hasField_read hk hx
    simp only [readField, hv1] at this
    exact ⟨_, this, by simp only [hg, Option.map_some, hfg]⟩
  | entry k _ ih =>
    obtain ⟨o, ho, hv1⟩ := lookup_append hv
    obtain ⟨m, hm, hg⟩ := ih ho
    obtain ⟨x, hx, hk⟩ := map_read hm hv1
    exact ⟨x, hx, by simp only [hg]; exact hk⟩

/-- What is at a place is written at its path. -/
theorem place_write (h : Place root fields path c get) {a : R} {x : A} (hx : get a = some x) :
    lookup ((root.struct fields back).to a) path = some (c.to x) := by
  induction h with
  | top hk =>
    cases hx
    show (Map.get? _ _).bind _ = _
    rw [hasField_write hk]
    rfl
  | field _ hfg hk ih =>
    obtain ⟨y, hy, rfl⟩ := Option.map_eq_some_iff.1 hx
    rw [lookup_append_of (ih hy), hasField_write hk]
  | entry k _ ih =>
    obtain ⟨m, hm, hx⟩ := Option.bind_eq_some_iff.1 hx
    rw [lookup_append_of (ih hm), map_write hx]

end Verif.Proofs.Jsonnet
