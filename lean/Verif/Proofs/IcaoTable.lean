import Verif.Peg.Tab
import Verif.Proofs.Isec
/-!
# Tables with tabs: fields and files
-/

namespace Verif.Proofs.Icao
open Verif.Peg Verif.Peg.TabSkip Verif.Spec Verif.Spec.Icao
open Verif.Spec.Isec (IsComment IsBlank IsSpaces)

variable {R : Type} {sk : St → Res R} {K : Str → Str → Prop} {pw : Char → Bool}

theorem commentStart_iff {s : Str} : CommentStart commentMarks s ↔ StartsComment s := by
  simp [CommentStart, commentMarks, StartsComment]

theorem spaces_sp (h : TabSkip sk K pw commentMarks) {b : Str} (hb : Spaces b) : ∀ c ∈ b, pw c = true := fun c hc => by
  rw [hb c hc]; exact h.space

theorem isSpaces_spTab {b : Str} (hb : IsSpaces b) : ∀ c ∈ b, isSpTab c = true := fun c hc => by
  rcases hb c hc with rfl | rfl <;> decide

theorem spaces_isSpaces {b : Str} (hb : Spaces b) : IsSpaces b := fun c hc => Or.inl (hb c hc)

theorem isComment_text {cm : Str} : (cm = [] ∨ IsComment cm) ↔ (cm = [] ∨ CommentText commentMarks cm) := by
  rw [Verif.Parse.Isec.isComment_iff]

theorem lns_blank {b t : Str} {c : Char} (hb : IsBlank b) (hc : IsNewline c) (ht : Lns commentMarks t) : Lns commentMarks (b ++ c :: t) := by
  obtain ⟨sp, cm, rfl, h1, h2⟩ := hb
  exact .cons sp cm c t (isSpaces_spTab h1) (isComment_text.1 h2) hc ht

theorem blank_append {b tr : Str} (hb : IsSpaces b) (ht : IsBlank tr) : IsBlank (b ++ tr) := by
  obtain ⟨sp, cm, rfl, h1, h2⟩ := ht
  refine ⟨b ++ sp, cm, by simp, ?_, h2⟩
  intro c hc
  rcases List.mem_append.1 hc with hc | hc
  · exact hb c hc
  · exact h1 c hc

theorem blank_spaces {tr : Str} (ht : IsSpaces tr) : IsBlank tr := ⟨tr, [], by simp, ht, Or.inl rfl⟩

theorem blank_tab {tr : Str} (ht : IsBlank tr) : IsBlank ('\t' :: tr) := blank_append (b := ['\t']) (fun c hc => Or.inr (by simpa using hc)) ht

/-- A field in front of something that does not continue a comment mark. -/
theorem field_plain (h : TabSkip sk K pw commentMarks) {f r : Str} (hf : IsField f) (hne : f ≠ []) (hr : r.head? ≠ some '/') :
    Plain pw commentMarks (f ++ r) := by
  cases f with
  | nil => exact absurd rfl hne
  | cons c f =>
    refine ⟨headNot_cons.2 ?_, ?_⟩
    · cases hc : pw c with
      | false => rfl
      | true =>
        have h1 := h.sub c hc
        simp only [isSpTab, Bool.or_eq_true, beq_iff_eq] at h1
        rcases h1 with rfl | rfl
        · exact absurd rfl hf.2.1
        · exact absurd rfl (hf.1 '\t' (by simp)).1
    · rw [commentStart_iff]
      rintro (hp | hp)
      · refine hf.2.2 (Or.inl ?_)
        simpa using hp
      · cases f with
        | nil =>
          simp only [List.cons_append, List.nil_append, List.cons_prefix_cons] at hp
          obtain ⟨t, ht⟩ := hp.2
          exact hr (by rw [← ht]; rfl)
        | cons d f =>
          refine hf.2.2 (Or.inr ?_)
          simpa [List.cons_prefix_cons] using hp

/-- The rule of a field. -/
abbrev fieldE (q tq : R) : Expr R := .rule q .atomic (.rule tq .atomic Base.tab_delimited_text)

theorem out_field (h : TabSkip sk K pw commentMarks) {q tq : R} {f r : Str} (hv : ∀ c ∈ f, c ≠ '\t' ∧ ¬ IsNewline c)
    (hl : r ≠ [] → f.getLast? ≠ some ' ') (hr : TabStop r) : Out sk K (fieldE q tq) .nonAtomic f r [.node q f []] :=
  ⟨[], ⟨[], out_tabText h hv hl hr, rfl⟩, rfl⟩

theorem inner_split {f n : Str} (h : Inner f n) : ∃ b b', n = b ++ (f ++ b') ++ ['\t'] ∧ Spaces b ∧ Spaces b' ∧ IsField f ∧ f.getLast? ≠ some ' ' ∧
    (f = [] → b' = []) := by
  obtain ⟨b, b', rfl, h1, h2, h3, h4⟩ := h
  by_cases hf : f = []
  · subst hf
    refine ⟨b ++ b', [], by simp, ?_, by simp [Spaces], h3, h4, fun _ => rfl⟩
    intro c hc
    rcases List.mem_append.1 hc with hc | hc
    · exact h1 c hc
    · exact h2 c hc
  · exact ⟨b, b', by simp, h1, h2, h3, h4, fun e => absurd e hf⟩

theorem head_spaces_tab {b r : Str} (hb : Spaces b) : (b ++ '\t' :: r).head? ≠ some '/' := by
  cases b with
  | nil => simp
  | cons c b =>
    have := hb c (by simp)
    subst this
    simp

/-- A tab, a field and what starts with the next tab. -/
theorem tab_inner (h : TabSkip sk K pw commentMarks) (ht : pw '\t' = false) {q tq : R} {f n t r : Str} {Y : Expr R} {u : List (Tree R)}
    (hn : Inner f n) (hY : Blk sk K Y ('\t' :: t) r u) :
    Blk sk K ((.str ['\t']) ⬝ fieldE q tq ⬝ Y) ('\t' :: n ++ t) r (.node q f [] :: u) := by
  obtain ⟨b, b', rfl, h1, h2, h3, h4, h5⟩ := inner_split hn
  have k1 : K b ((f ++ b') ++ ('\t' :: t) ++ r) := by
    refine h.spaces (spaces_sp h h1) ?_
    by_cases hf : f = []
    · rw [h5 hf, hf]
      exact h.tab_plain ht
    · have := field_plain (r := b' ++ ('\t' :: (t ++ r))) h h3 hf (head_spaces_tab h2)
      simpa using this
  have k2 : K b' (('\t' :: t) ++ r) := h.spaces (spaces_sp h h2) (h.tab_plain ht)
  have e : '\t' :: (b ++ (f ++ b') ++ ['\t']) ++ t = (['\t'] ++ b) ++ ((f ++ b') ++ ('\t' :: t)) := by simp
  rw [e]
  refine blk_seq (u1 := []) (blk_gap out_str0 k1) (blk_seq (u1 := [.node q f []]) (blk_gap (out_field h h3.1 (fun _ => h4) ?_) k2) hY)
  exact Or.inr (Or.inr ⟨b', t ++ r, by simp, h2⟩)

theorem final_head {tr t : Str} {c : Char} (hc : IsNewline c)
    (h : IsSpaces tr ∨ ∃ b' tr', tr = b' ++ '\t' :: tr' ∧ Spaces b' ∧ IsBlank tr') : (tr ++ c :: t).head? ≠ some '/' := by
  rcases h with h | ⟨b', tr', rfl, h, _⟩
  · cases tr with
    | nil => rcases hc with rfl | rfl <;> simp
    | cons d tr => rcases h d (by simp) with rfl | rfl <;> simp
  · rw [List.append_assoc]
    exact head_spaces_tab h

/-- The last field of a line, with the line end and lines without data. -/
theorem tab_final (h : TabSkip sk K pw commentMarks) {q tq : R} {f n t fin r : Str} {c : Char}
    (hn : Final f n) (hc : IsNewline c) (hl : Lns commentMarks t) (hk : K fin r) (hb : HeadNot isSpTab r) (hr : HeadNot isNewlineChar r) :
    Blk sk K ((.str ['\t']) ⬝ fieldE q tq ⬝ (.opt Base.NL)) ('\t' :: n ++ (c :: t ++ fin)) r [.node q f []] := by
  obtain ⟨b, tr, rfl, h1, h2, h3, h4⟩ := hn
  by_cases hf : f = []
  · subst hf
    have hbl : IsBlank (b ++ tr) := by
      refine blank_append (spaces_isSpaces h1) ?_
      rcases h4 with h4 | ⟨b', tr', rfl, h5, h6⟩ | ⟨_, h4⟩
      · exact blank_spaces h4
      · exact blank_append (spaces_isSpaces h5) (blank_tab h6)
      · exact h4
    obtain ⟨m, u, e, k, hu, d, v, rfl, hd⟩ := blk_lines (R := R) h (lns_blank hbl hc hl) (by simp) hk hb hr
    have e' : '\t' :: (b ++ [] ++ tr) ++ (c :: t ++ fin) = (['\t'] ++ m) ++ ([] ++ (d :: v)) := by
      have : b ++ tr ++ (c :: t) ++ fin = m ++ (d :: v) := e
      simp only [List.append_nil, List.cons_append, List.nil_append]
      rw [← this]
      simp
    rw [e']
    refine blk_seq (u1 := []) (blk_gap out_str0 k) (blk_seq (u1 := [.node q [] []]) (blk_of_out (out_field h (by simp) (by simp) ?_) ?_) (blk_opt_some hu))
    · rcases hd with ⟨rfl, _⟩ | hd
      · exact Or.inr (Or.inr ⟨[], v ++ r, rfl, by simp⟩)
      · exact Or.inr (Or.inl ⟨[], d, v ++ r, rfl, by simp, hd⟩)
    · exact h.knil _ _ k
  · have h4 : IsSpaces tr ∨ ∃ b' tr', tr = b' ++ '\t' :: tr' ∧ Spaces b' ∧ IsBlank tr' := by
      rcases h4 with h4 | h4 | ⟨e, _⟩
      · exact Or.inl h4
      · exact Or.inr h4
      · exact absurd e hf
    have hbl : IsBlank tr := by
      rcases h4 with h4 | ⟨b', tr', rfl, h5, h6⟩
      · exact blank_spaces h4
      · exact blank_append (spaces_isSpaces h5) (blank_tab h6)
    obtain ⟨m, u, e, k, hu, _⟩ := blk_lines (R := R) h (lns_blank hbl hc hl) (by simp) hk hb hr
    have e2 : m ++ u ++ r = tr ++ c :: (t ++ fin ++ r) := by rw [← e]; simp
    have k1 : K b ((f ++ m) ++ u ++ r) := by
      have := field_plain (r := tr ++ c :: (t ++ fin ++ r)) h h2 hf (final_head hc h4)
      refine h.spaces (spaces_sp h h1) ?_
      rw [← e2] at this
      simpa using this
    have e' : '\t' :: (b ++ f ++ tr) ++ (c :: t ++ fin) = (['\t'] ++ b) ++ ((f ++ m) ++ u) := by
      have : (f ++ m) ++ u = f ++ (tr ++ c :: t ++ fin) := by rw [e]; simp
      rw [this]
      simp
    rw [e']
    refine blk_seq (u1 := []) (blk_gap out_str0 k1) (blk_seq (u1 := [.node q f []]) (blk_gap (out_field h h2.1 (fun _ => h3) ?_) k) (blk_opt_some hu))
    rw [← List.append_assoc, e2]
    rcases h4 with h4 | ⟨b', tr', rfl, h5, h6⟩
    · exact Or.inr (Or.inl ⟨tr, c, _, rfl, isSpaces_spTab h4, hc⟩)
    · exact Or.inr (Or.inr ⟨b', tr' ++ c :: (t ++ fin ++ r), by simp, h5⟩)

theorem lineEnd_nil : AtLineEnd [] := headNot_nil _

theorem fails_NL_nil (h : TabSkip sk K pw commentMarks) : Fails sk (Base.NL : Expr R) .nonAtomic [] :=
  fails_plus (fails_nlOne h (h.lineEnd lineEnd_nil) (headNot_nil _) (headNot_nil _))

/-- The last field of a file without a line end. -/
theorem tab_end (h : TabSkip sk K pw commentMarks) {q tq : R} {f n : Str} (hn : AtEnd f n) :
    Blk sk K ((.str ['\t']) ⬝ fieldE q tq ⬝ (.opt Base.NL)) ('\t' :: n) [] [.node q f []] := by
  obtain ⟨b, cm, rfl, h1, h2, h3⟩ := hn
  have hno : Blk sk K (.opt (Base.NL : Expr R)) [] [] [] := blk_opt_none (fails_NL_nil h) (h.nil (h.lineEnd lineEnd_nil))
  have hne : ∀ {f : Str}, (∀ c ∈ f, c ≠ '\t' ∧ ¬ IsNewline c) → Blk sk K (fieldE q tq) f ([] ++ []) [.node q f []] := fun hf =>
    blk_of_out (out_field h hf (by simp) (Or.inl rfl)) (h.nil (h.lineEnd lineEnd_nil))
  by_cases hf : f = []
  · subst hf
    have hc : cm = [] ∨ IsComment cm := by
      rcases h3 with h3 | h3
      · exact Or.inl h3
      · exact Or.inr h3.2
    have := blk_seq (u1 := []) (t1 := ['\t'] ++ (b ++ cm)) (blk_gap out_str0 (h.gapEnd (spaces_sp h h1) (isComment_text.1 hc) (by simpa using lineEnd_nil)))
      (blk_seq (u1 := [.node q [] []]) (hne (f := []) (by simp)) hno)
    simpa using this
  · have hc : cm = [] := by
      rcases h3 with h3 | h3
      · exact h3
      · exact absurd h3.1 hf
    subst hc
    have k : K b (f ++ [] ++ []) := by
      refine h.spaces (spaces_sp h h1) ?_
      have := field_plain (r := []) h h2 hf (by simp)
      simpa using this
    have := blk_seq (u1 := []) (t1 := ['\t'] ++ b) (blk_gap out_str0 k) (blk_seq (u1 := [.node q f []]) (hne h2.1) hno)
    simpa using this

/-! ## Files -/

/-- Two lists whose members are related in turn. -/
inductive Each {A B : Type} (p : A → B → Prop) : List A → List B → Prop
  | nil : Each p [] []
  | cons {a b as bs} : p a b → Each p as bs → Each p (a :: as) (b :: bs)


/-- What an item starts with. -/
def Starts (pw : Char → Bool) (s : Str) : Prop := Plain pw commentMarks s ∧ HeadNot isSpTab s ∧ HeadNot isNewlineChar s

theorem rest_gap (h : TabSkip sk K pw commentMarks) {b : Str} (hb : IsRest b) : K b [] := by
  obtain ⟨sp, cm, rfl, h1, h2⟩ := hb
  exact h.gapEnd (spaces_sp h h1) (isComment_text.1 h2) lineEnd_nil

/-- How the lines of a file are read: each as one token. -/
structure Items {D : Type} (sk : St → Res R) (K : Str → Str → Prop) (pw : Char → Bool) (x : Expr R) (line last : D → Str → Prop)
    (good : D → Tree R → Prop) : Prop where
  line : ∀ d s c t fin r, line d s → IsNewline c → Lns commentMarks t → K fin r → HeadNot isSpTab r → HeadNot isNewlineChar r →
    ∃ b core tr, s = b ++ core ∧ (∀ c ∈ b, pw c = true) ∧ (∀ r, Starts pw (core ++ c :: r)) ∧ Blk sk K x (core ++ (c :: t ++ fin)) r [tr] ∧ good d tr
  last : ∀ d s, last d s → ∃ b core tr, s = b ++ core ∧ (∀ c ∈ b, pw c = true) ∧ Starts pw core ∧ Blk sk K x core [] [tr] ∧ good d tr

theorem file_blocks {D : Type} {x : Expr R} {rest : Str → Prop} {line last : D → Str → Prop} {good : D → Tree R → Prop} (h : TabSkip sk K pw commentMarks)
    (hi : Items sk K pw x line last good) (hrest : ∀ b, rest b → K b []) {content : Str} {ds : List D} (hf : IsFile rest line last content ds) :
    ∃ (ls m : Str) (bs : List (Str × List (Tree R))), content = ls ++ (m ++ bs.flatMap (·.1)) ∧ Lns commentMarks ls ∧
      Blks sk K x bs [] ∧ K m (bs.flatMap (·.1)) ∧ HeadNot isSpTab (bs.flatMap (·.1)) ∧ HeadNot isNewlineChar (bs.flatMap (·.1)) ∧
      Each good ds (bs.flatMap (·.2)) ∧ (bs = [] ↔ ds = []) := by
  induction hf with
  | blanks b hb =>
    exact ⟨[], b, [], by simp, .nil, trivial, hrest b hb, headNot_nil _, headNot_nil _, .nil, by simp⟩
  | blank b c t ds hb hc _ ih =>
    obtain ⟨ls, m, bs, rfl, h1, h2⟩ := ih
    exact ⟨b ++ c :: ls, m, bs, by simp, lns_blank hb hc h1, h2⟩
  | line d s c t ds hl hc _ ih =>
    obtain ⟨ls, m, bs, rfl, h1, h2, h3, h4, h5, h6, h7⟩ := ih
    obtain ⟨b, core, tr, rfl, h8, h9, h10, h11⟩ := hi.line d s c ls m _ hl hc h1 h3 h4 h5
    have hs : Starts pw (core ++ (c :: ls ++ m) ++ bs.flatMap (·.1)) := by simpa using h9 (ls ++ m ++ bs.flatMap (·.1))
    refine ⟨[], b, (core ++ (c :: ls ++ m), [tr]) :: bs, by simp, .nil, ⟨by simpa using h10, h2⟩, ?_, ?_, ?_, ?_, by simp⟩
    · rw [List.flatMap_cons]; exact h.spaces h8 hs.1
    · rw [List.flatMap_cons]; exact hs.2.1
    · rw [List.flatMap_cons]; exact hs.2.2
    · rw [List.flatMap_cons]; exact .cons h11 h6
  | last d s hl =>
    obtain ⟨b, core, tr, rfl, h8, h9, h10, h11⟩ := hi.last d s hl
    refine ⟨[], b, [(core, [tr])], by simp, .nil, ⟨by simpa using h10, trivial⟩, ?_, ?_, ?_, ?_, by simp⟩
    · simpa using h.spaces h8 h9.1
    · simpa using h9.2.1
    · simpa using h9.2.2
    · simpa using Each.cons h11 .nil

theorem out_then {x y : Expr R} {t1 t2 : Str} {u1 u2 : List (Tree R)} (h1 : Blk sk K x t1 t2 u1) (h2 : Out sk K y .nonAtomic t2 [] u2) :
    Out sk K (x ⬝ y) .nonAtomic (t1 ++ t2) [] (u1 ++ u2) := by
  obtain ⟨s, m, rfl, o, k⟩ := h1
  exact ⟨s, m, t2, u1, u2, by simp, by simpa using k, by simpa using o, h2, rfl⟩

/-- The whole file. -/
theorem file_out {D : Type} {x rep : Expr R} {rest : Str → Prop} {line last : D → Str → Prop} {good : D → Tree R → Prop} (h : TabSkip sk K pw commentMarks)
    (hi : Items sk K pw x line last good) (hrest : ∀ b, rest b → K b []) {content : Str} {ds : List D} (hf : IsFile rest line last content ds) (q e : R)
    (hrep : ∀ bs : List (Str × List (Tree R)), (bs = [] ↔ ds = []) → Blks sk K x bs [] → Blk sk K rep (bs.flatMap (·.1)) [] (bs.flatMap (·.2))) :
    ∃ trees, Out sk K (.rule q .normal (.soi ⬝ (.opt Base.NL) ⬝ rep ⬝ (.eoi e))) .nonAtomic content []
      [.node q content (trees ++ [.node e [] []])] ∧ Each good ds trees := by
  obtain ⟨ls, m, bs, rfl, h1, h2, h3, h4, h5, h6, h7⟩ := file_blocks h hi hrest hf
  refine ⟨bs.flatMap (·.2), ⟨_, ?_, rfl⟩, h6⟩
  have eoi : Out sk K (.eoi e : Expr R) .nonAtomic [] [] [.node e [] []] := ⟨rfl, rfl, rfl⟩
  have o1 : Out sk K (rep ⬝ (.eoi e)) .nonAtomic (bs.flatMap (·.1)) [] (bs.flatMap (·.2) ++ [.node e [] []]) := by
    have := out_then (hrep bs h7 h2) eoi
    simpa using this
  by_cases hl : ls = []
  · subst hl
    have o2 : Out sk K ((.opt Base.NL) ⬝ rep ⬝ (.eoi e)) .nonAtomic (bs.flatMap (·.1)) [] (bs.flatMap (·.2) ++ [.node e [] []]) :=
      out_then (t1 := []) (u1 := []) (blk_opt_none (fails_plus (fails_nlOne h (h.plain h3) h4 h5)) (h.knil _ _ h3)) o1
    exact ⟨[], m, _, [], _, by simp, by simpa using h3, ⟨rfl, rfl⟩, o2, rfl⟩
  · obtain ⟨g, t, e1, k, hb, _⟩ := blk_lines (R := R) h h1 hl h3 h4 h5
    have o2 := out_then (u1 := []) (blk_opt_some hb) o1
    refine ⟨[], g, _, [], _, ?_, by simpa using k, ⟨rfl, rfl⟩, o2, rfl⟩
    rw [← List.append_assoc, e1]
    simp

end Verif.Proofs.Icao
