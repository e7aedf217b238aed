import Verif.Proofs.IcaoSound
import Verif.Proofs.Isec
import Verif.Proofs.Prf
import Verif.Proofs.AirwayFile
/-!
# Texts that are put together

Files of lines can be cut and put together at line feeds.
-/

namespace Verif.Proofs.Joined
open Verif.Spec
open Verif.Spec.Isec (IsComment IsBlank IsSpaces IsLineEnd)

/-- Where a line feed in a text with a line without one can be. -/
theorem cut {s u t v : Str} {c : Char} (hs : '\n' ∉ s) (e : s ++ c :: t = u ++ '\n' :: v) :
    (s = u ∧ c = '\n' ∧ t = v) ∨ ∃ u', u = s ++ c :: u' ∧ t = u' ++ '\n' :: v := by
  rcases List.append_eq_append_iff.1 e with ⟨w, e1, e2⟩ | ⟨w, e1, e2⟩
  · cases w with
    | nil => exact Or.inl ⟨by simpa using e1.symm, (List.cons.inj e2).1, (List.cons.inj e2).2⟩
    | cons d w =>
      obtain ⟨e3, e4⟩ := List.cons.inj e2
      exact Or.inr ⟨w, by rw [e1, e3], e4⟩
  · cases w with
    | nil => exact Or.inl ⟨by simpa using e1, (List.cons.inj e2).1.symm, (List.cons.inj e2).2.symm⟩
    | cons d w =>
      obtain ⟨e3, _⟩ := List.cons.inj e2
      exact absurd (by rw [e1, ← e3]; simp) hs

theorem no_lf_end {s u v : Str} (hs : '\n' ∉ s) (e : s = u ++ '\n' :: v) : False := hs (by rw [e]; simp)

theorem comment_lf {s : Str} (h : IsComment s) : '\n' ∉ s := by
  obtain ⟨body, h | h, hb⟩ := h <;> subst h <;> intro hm
  · rcases List.mem_cons.1 hm with hm | hm
    · exact absurd hm (by decide)
    · exact (hb _ hm).1 rfl
  · rcases List.mem_cons.1 hm with hm | hm
    · exact absurd hm (by decide)
    · rcases List.mem_cons.1 hm with hm | hm
      · exact absurd hm (by decide)
      · exact (hb _ hm).1 rfl

theorem commentOr_lf {s : Str} (h : s = [] ∨ IsComment s) : '\n' ∉ s := by
  rcases h with rfl | h
  · simp
  · exact comment_lf h

theorem isSpaces_lf {s : Str} (h : IsSpaces s) : '\n' ∉ s := fun hm => by
  rcases h _ hm with e | e <;> exact absurd e (by decide)

theorem blank_lf {s : Str} (h : IsBlank s) : '\n' ∉ s := by
  obtain ⟨sp, cm, rfl, h1, h2⟩ := h
  simp only [List.mem_append, not_or]
  exact ⟨isSpaces_lf h1, commentOr_lf h2⟩

theorem digits_lf {s : Str} (h : ∀ c ∈ s, isAsciiDigit c = true) : '\n' ∉ s := fun hm => absurd (h _ hm) (by decide)

/-! ## The ICAO tables -/

section Icao
open Verif.Spec.Icao
variable {D : Type} {rest : Str → Prop} {line last : D → Str → Prop}

/-- No line has a line feed, and the empty text is one without data. -/
structure Lines (rest : Str → Prop) (line last : D → Str → Prop) : Prop where
  nil : rest []
  rest : ∀ b, rest b → '\n' ∉ b
  line : ∀ d s, line d s → '\n' ∉ s
  last_lf : ∀ d s, last d s → '\n' ∉ s
  ne : ∀ d, ¬ last d []

theorem icao_nil (h : Lines rest line last) {ds : List D} (hf : IsFile rest line last [] ds) : ds = [] := by
  generalize e : ([] : Str) = t at hf
  cases hf with
  | blanks => rfl
  | blank b c t ds => exact absurd e (by simp)
  | line d s c t ds => exact absurd e (by simp)
  | last d s hs =>
    rw [← e] at hs
    exact (h.ne _ hs).elim

theorem icao_iff (h : Lines rest line last) {u v : Str} {ds : List D} :
    IsFile rest line last (u ++ '\n' :: v) ds ↔ ∃ d1 d2, ds = d1 ++ d2 ∧ IsFile rest line last (u ++ ['\n']) d1 ∧ IsFile rest line last v d2 := by
  constructor
  · intro hf
    generalize e : u ++ '\n' :: v = t at hf
    induction hf generalizing u with
    | blanks b hb => exact (no_lf_end (h.rest b hb) e.symm).elim
    | last d s hs => exact (no_lf_end (h.last_lf d s hs) e.symm).elim
    | blank b c t ds hb hc hf ih =>
      rcases cut (blank_lf hb) e.symm with ⟨rfl, rfl, rfl⟩ | ⟨u', rfl, e2⟩
      · exact ⟨[], ds, rfl, .blank b '\n' [] [] hb hc (.blanks [] h.nil), hf⟩
      · obtain ⟨d1, d2, rfl, h1, h2⟩ := ih e2.symm
        refine ⟨d1, d2, rfl, ?_, h2⟩
        rw [List.append_assoc, List.cons_append]
        exact .blank b c _ d1 hb hc h1
    | line d s c t ds hs hc hf ih =>
      rcases cut (h.line d s hs) e.symm with ⟨rfl, rfl, rfl⟩ | ⟨u', rfl, e2⟩
      · exact ⟨[d], ds, rfl, .line d s '\n' [] [] hs hc (.blanks [] h.nil), hf⟩
      · obtain ⟨d1, d2, rfl, h1, h2⟩ := ih e2.symm
        refine ⟨d :: d1, d2, rfl, ?_, h2⟩
        rw [List.append_assoc, List.cons_append]
        exact .line d s c _ d1 hs hc h1
  · rintro ⟨d1, d2, rfl, h1, h2⟩
    generalize e : u ++ ['\n'] = t at h1
    induction h1 generalizing u with
    | blanks b hb => exact (no_lf_end (h.rest b hb) e.symm).elim
    | last d s hs => exact (no_lf_end (h.last_lf d s hs) e.symm).elim
    | blank b c t ds hb hc hf ih =>
      rcases cut (blank_lf hb) e.symm with ⟨rfl, rfl, rfl⟩ | ⟨u', rfl, e2⟩
      · have hds := icao_nil h hf
        subst hds
        exact .blank b '\n' v _ hb hc h2
      · rw [List.append_assoc, List.cons_append]
        exact .blank b c _ _ hb hc (ih e2.symm)
    | line d s c t ds hs hc hf ih =>
      rcases cut (h.line d s hs) e.symm with ⟨rfl, rfl, rfl⟩ | ⟨u', rfl, e2⟩
      · have hds := icao_nil h hf
        subst hds
        exact .line d s '\n' v _ hs hc h2
      · rw [List.append_assoc, List.cons_append]
        exact .line d s c _ _ hs hc (ih e2.symm)

theorem spaces_lf {s : Str} (h : Spaces s) : '\n' ∉ s := fun hm => absurd (h _ hm) (by decide)

theorem field_lf {s : Str} (h : IsField s) : '\n' ∉ s := fun hm => (h.1 _ hm).2 (Or.inl rfl)

theorem inner_lf {f t : Str} (h : Inner f t) : '\n' ∉ t := by
  obtain ⟨b, b', rfl, h1, h2, h3, _⟩ := h
  simp [spaces_lf h1, spaces_lf h2, field_lf h3]

theorem final_lf {f t : Str} (h : Final f t) : '\n' ∉ t := by
  obtain ⟨b, tr, rfl, h1, h3, _, h4⟩ := h
  have : '\n' ∉ tr := by
    rcases h4 with h4 | ⟨b', tr', rfl, h5, h6⟩ | ⟨_, h4⟩
    · exact isSpaces_lf h4
    · simp [spaces_lf h5, blank_lf h6]
    · exact blank_lf h4
  simp [spaces_lf h1, field_lf h3, this]

theorem atEnd_lf {f t : Str} (h : AtEnd f t) : '\n' ∉ t := by
  obtain ⟨b, cm, rfl, h1, h3, h4⟩ := h
  have : '\n' ∉ cm := by
    rcases h4 with rfl | ⟨_, h4⟩
    · simp
    · exact comment_lf h4
  simp [spaces_lf h1, field_lf h3, this]

theorem rest_lf {b : Str} (h : IsRest b) : '\n' ∉ b := blank_lf (Proofs.Icao.rest_isBlank h)

theorem rest_nil : IsRest [] := ⟨[], [], rfl, by simp [Spaces], Or.inl rfl⟩

theorem airlines_lines : Lines IsRest (AirlineText Final) (AirlineText AtEnd) := by
  have key : ∀ {country : Str → Str → Prop}, (∀ f t, country f t → '\n' ∉ t) → ∀ d s, AirlineText country d s → '\n' ∉ s := by
    rintro country hc d s ⟨b0, b1, n, c, k, rfl, h0, h1, ⟨_, h2⟩, h3, h4, h5⟩
    have hd : '\n' ∉ d.designator := fun hm => absurd (h2 _ hm) (by decide)
    simp [spaces_lf h0, spaces_lf h1, hd, inner_lf h3, inner_lf h4, hc _ _ h5]
  refine ⟨rest_nil, fun _ => rest_lf, key fun _ _ => final_lf, key fun _ _ => atEnd_lf, ?_⟩
  rintro d ⟨b0, b1, n, c, k, e, _⟩
  simp at e

variable [UnicodeTables]

theorem designator_lf {s : Str} (h : IsDesignator s) : '\n' ∉ s := fun hm => by
  have := (Proofs.Icao.isDesignator_iff.1 h).2 _ hm
  rw [Proofs.Icao.des_not (by decide)] at this
  cases this

theorem airports_lines : Lines IsRest (AirportText Final) (AirportText AtEnd) := by
  have key : ∀ {country : Str → Str → Prop}, (∀ f t, country f t → '\n' ∉ t) → ∀ d s, AirportText country d s → '\n' ∉ s := by
    rintro country hc d s ⟨b0, b1, n, k, rfl, h0, h1, h2, h3, h5⟩
    simp [spaces_lf h0, spaces_lf h1, designator_lf h2, inner_lf h3, hc _ _ h5]
  refine ⟨rest_nil, fun _ => rest_lf, key fun _ _ => final_lf, key fun _ _ => atEnd_lf, ?_⟩
  rintro d ⟨b0, b1, n, k, e, _⟩
  simp at e

theorem aircraft_lines : Lines IsRest (AircraftLine IsBlank Final) (AircraftLine IsRest AtEnd) := by
  have key : ∀ {rest : Str → Prop} {name : Str → Str → Prop}, (∀ b, rest b → '\n' ∉ b) → (∀ f t, name f t → '\n' ∉ t) →
      ∀ d s, AircraftLine rest name d s → '\n' ∉ s := by
    rintro rest name hr hn (_ | d) s h
    · obtain ⟨b, x, tr, rfl, h0, h1, _, _, h2, _⟩ := h
      simp [spaces_lf h0, field_lf h1, hr _ h2]
    · obtain ⟨b0, b1, b2, b3, b4, b5, b6, m, n, rfl, h0, h1, h2, h3, h4, h5, h6, ⟨hd, _⟩, l1, l2, l3, l4, hm, hn'⟩ := h
      have e1 : '\n' ≠ d.wtc := by rintro e; rw [← e] at l1; exact absurd l1 (by decide)
      have e2 : '\n' ≠ d.kind := by rintro e; rw [← e] at l2; exact absurd l2 (by decide)
      have e3 : '\n' ≠ d.engines := by
        rintro e; rw [← e, UnicodeTables.number_ascii _ (by decide)] at l3; exact absurd l3 (by decide)
      have e4 : '\n' ≠ d.engine := by rintro e; rw [← e] at l4; exact absurd l4 (by decide)
      simp [spaces_lf h0, spaces_lf h1, spaces_lf h2, spaces_lf h3, spaces_lf h4, spaces_lf h5, spaces_lf h6, designator_lf hd, e1, e2, e3, e4,
        inner_lf hm, hn _ _ hn']
  refine ⟨rest_nil, fun _ => rest_lf, key (fun _ => blank_lf) fun _ _ => final_lf, key (fun _ => rest_lf) fun _ _ => atEnd_lf, ?_⟩
  rintro (_ | d) h
  · obtain ⟨b, x, tr, e, _, _, hne, _⟩ := h
    simp [hne] at e
  · obtain ⟨b0, b1, b2, b3, b4, b5, b6, m, n, e, _⟩ := h
    simp at e

theorem decimal_lf {s : Str} (h : IsDecimal s) : '\n' ∉ s := by
  obtain ⟨sg, ds, fs, rfl, h1, h2, h3⟩ := h
  have e1 : '\n' ∉ sg := by rcases h1 with rfl | rfl | rfl <;> decide
  have e2 : '\n' ∉ fs := by
    rcases h3 with ⟨rfl, _⟩ | ⟨d, rfl, _, hd⟩
    · simp
    · have := digits_lf hd
      simpa using this
  have e3 := digits_lf h2
  simp [e1, e2, e3]

theorem navdata_lines : Lines IsBlank NavdataText NavdataText := by
  have key : ∀ d s, NavdataText d s → '\n' ∉ s := by
    rintro d s ⟨b0, b1, b2, b3, rfl, h0, h1, _, h2, _, h3, _, hd, hx, hy, _, hn, _⟩
    have : '\n' ∉ d.name := fun hm => hn _ hm (Or.inl rfl)
    simp [isSpaces_lf h0, isSpaces_lf h1, isSpaces_lf h2, isSpaces_lf h3, designator_lf hd, decimal_lf hx, decimal_lf hy, this]
  refine ⟨⟨[], [], rfl, by simp [IsSpaces], Or.inl rfl⟩, fun _ => blank_lf, key, key, ?_⟩
  rintro d ⟨b0, b1, b2, b3, e, _, _, _, _, _, _, _, _, _, _, hne, _⟩
  simp [hne] at e

end Icao

/-! ## isec.txt and airway.txt -/

section Ended
variable {D : Type}

/-- Files in which every line with data has a line end. -/
inductive Ended (blank : Str → Prop) (line : D → Str → Prop) : Str → List D → Prop
  | last (b : Str) : blank b → Ended blank line b []
  | blank (b nl rest : Str) (ws : List D) : blank b → IsLineEnd nl rest → Ended blank line rest ws → Ended blank line (b ++ nl ++ rest) ws
  | line (w : D) (t nl rest : Str) (ws : List D) : line w t → IsLineEnd nl rest → Ended blank line rest ws →
      Ended blank line (t ++ nl ++ rest) (w :: ws)

theorem isec_ended {t : Str} {ws : List Spec.Isec.Wpt} : Spec.Isec.IsFile t ws ↔ Ended IsBlank Spec.Isec.IsLine t ws := by
  constructor <;> intro h
  · induction h with
    | last b h => exact .last b h
    | blank b nl rest ws h1 h2 _ ih => exact .blank b nl rest ws h1 h2 ih
    | line w t nl rest ws h1 h2 _ ih => exact .line w t nl rest ws h1 h2 ih
  · induction h with
    | last b h => exact .last b h
    | blank b nl rest ws h1 h2 _ ih => exact .blank b nl rest ws h1 h2 ih
    | line w t nl rest ws h1 h2 _ ih => exact .line w t nl rest ws h1 h2 ih

theorem airway_ended {t : Str} {ws : List Spec.Airway.Line} :
    Spec.Airway.IsFile t ws ↔ Ended (fun b => b = [] ∨ IsComment b) Spec.Airway.IsLine t ws := by
  constructor <;> intro h
  · induction h with
    | last b h => exact .last b h
    | blank b nl rest ws h1 h2 _ ih => exact .blank b nl rest ws h1 h2 ih
    | line w t nl rest ws h1 h2 _ ih => exact .line w t nl rest ws h1 h2 ih
  · induction h with
    | last b h => exact .last b h
    | blank b nl rest ws h1 h2 _ ih => exact .blank b nl rest ws h1 h2 ih
    | line w t nl rest ws h1 h2 _ ih => exact .line w t nl rest ws h1 h2 ih

/-- A line feed behind a line: it ends this line, or it is further on. -/
theorem cut_end {s nl rest u v : Str} (hs : '\n' ∉ s) (hl : IsLineEnd nl rest) (e : s ++ nl ++ rest = u ++ '\n' :: v) :
    (u ++ ['\n'] = s ++ nl ++ [] ∧ rest = v ∧ ∀ v', IsLineEnd nl v') ∨
    ∃ u', u ++ ['\n'] = s ++ nl ++ (u' ++ ['\n']) ∧ u ++ '\n' :: v = s ++ nl ++ (u' ++ '\n' :: v) ∧ rest = u' ++ '\n' :: v ∧ ∀ v', IsLineEnd nl (u' ++ '\n' :: v') := by
  rcases hl with rfl | rfl | ⟨rfl, hr⟩
  · rcases cut (c := '\n') (t := rest) hs (by simpa using e) with ⟨rfl, _, rfl⟩ | ⟨u', rfl, e2⟩
    · exact Or.inl ⟨by simp, rfl, fun _ => Or.inl rfl⟩
    · exact Or.inr ⟨u', by simp, by simp, e2, fun _ => Or.inl rfl⟩
  · rcases cut (c := '\r') (t := '\n' :: rest) hs (by simpa using e) with ⟨_, h, _⟩ | ⟨u', rfl, e2⟩
    · exact absurd h (by decide)
    · cases u' with
      | nil => exact Or.inl ⟨by simp, (List.cons.inj e2).2, fun _ => Or.inr (Or.inl rfl)⟩
      | cons c u' =>
        obtain ⟨rfl, e3⟩ := List.cons.inj e2
        exact Or.inr ⟨u', by simp, by simp, e3, fun _ => Or.inr (Or.inl rfl)⟩
  · rcases cut (c := '\r') (t := rest) hs (by simpa using e) with ⟨_, h, _⟩ | ⟨u', rfl, e2⟩
    · exact absurd h (by decide)
    · refine Or.inr ⟨u', by simp, by simp, e2, fun v' => Or.inr (Or.inr ⟨rfl, ?_⟩)⟩
      cases u' with
      | nil => rw [e2] at hr; exact absurd rfl hr
      | cons c u' => rw [e2] at hr; exact hr

theorem ended_iff {blank : Str → Prop} {line : D → Str → Prop} (h0 : blank []) (hb : ∀ b, blank b → '\n' ∉ b) (hl : ∀ d s, line d s → '\n' ∉ s)
    {u v : Str} {ds : List D} :
    Ended blank line (u ++ '\n' :: v) ds ↔ ∃ d1 d2, ds = d1 ++ d2 ∧ Ended blank line (u ++ ['\n']) d1 ∧ Ended blank line v d2 := by
  have nil : ∀ {ds : List D}, Ended blank line [] ds → ds = [] := by
    intro ds hf
    generalize e : ([] : Str) = t at hf
    cases hf with
    | last => rfl
    | blank b nl rest ws _ h => rcases h with rfl | rfl | ⟨rfl, _⟩ <;> simp at e
    | line w t nl rest ws _ h => rcases h with rfl | rfl | ⟨rfl, _⟩ <;> simp at e
  constructor
  · intro hf
    generalize e : u ++ '\n' :: v = t at hf
    induction hf generalizing u with
    | last b h => exact (no_lf_end (hb b h) e.symm).elim
    | blank b nl rest ws h1 h2 hf ih =>
      rcases cut_end (hb b h1) h2 e.symm with ⟨e1, rfl, h3⟩ | ⟨u', e1, _, e2, h3⟩
      · exact ⟨[], ws, rfl, by rw [e1]; exact .blank b nl [] [] h1 (h3 _) (.last [] h0), hf⟩
      · obtain ⟨d1, d2, rfl, h4, h5⟩ := ih e2.symm
        exact ⟨d1, d2, rfl, by rw [e1]; exact .blank b nl _ _ h1 (h3 _) h4, h5⟩
    | line w t nl rest ws h1 h2 hf ih =>
      rcases cut_end (hl w t h1) h2 e.symm with ⟨e1, rfl, h3⟩ | ⟨u', e1, _, e2, h3⟩
      · exact ⟨[w], ws, rfl, by rw [e1]; exact .line w t nl [] [] h1 (h3 _) (.last [] h0), hf⟩
      · obtain ⟨d1, d2, rfl, h4, h5⟩ := ih e2.symm
        exact ⟨w :: d1, d2, rfl, by rw [e1]; exact .line w t nl _ _ h1 (h3 _) h4, h5⟩
  · rintro ⟨d1, d2, rfl, h1, hv⟩
    generalize e : u ++ ['\n'] = t at h1
    induction h1 generalizing u with
    | last b h => exact (no_lf_end (hb b h) e.symm).elim
    | blank b nl rest ws h1 h2 hf ih =>
      rcases cut_end (hb b h1) h2 e.symm with ⟨e1, rfl, h3⟩ | ⟨u', e1, _, e2, h3⟩
      · have hds := nil hf
        subst hds
        have e1 : u ++ ['\n'] = b ++ nl := by simpa using e1
        rw [show u ++ '\n' :: v = (u ++ ['\n']) ++ v by simp, e1]
        exact .blank b nl v _ h1 (h3 _) hv
      · have e1 : u ++ ['\n'] = b ++ nl ++ u' ++ ['\n'] := by simpa using e1
        rw [List.append_cancel_right e1, List.append_assoc]
        exact .blank b nl _ _ h1 (h3 _) (ih e2.symm)
    | line w t nl rest ws h1 h2 hf ih =>
      rcases cut_end (hl w t h1) h2 e.symm with ⟨e1, rfl, h3⟩ | ⟨u', e1, _, e2, h3⟩
      · have hds := nil hf
        subst hds
        have e1 : u ++ ['\n'] = t ++ nl := by simpa using e1
        rw [show u ++ '\n' :: v = (u ++ ['\n']) ++ v by simp, e1]
        exact .line w t nl v _ h1 (h3 _) hv
      · have e1 : u ++ ['\n'] = t ++ nl ++ u' ++ ['\n'] := by simpa using e1
        rw [List.append_cancel_right e1, List.append_assoc]
        exact .line w t nl _ _ h1 (h3 _) (ih e2.symm)

theorem coord_lf {s : Str} (h : Spec.Isec.IsCoord s) : '\n' ∉ s := by
  obtain ⟨sg, ds, fs, rfl, h1, h2, h3⟩ := h
  have e1 : '\n' ∉ sg := by rcases h1 with rfl | rfl <;> decide
  have e2 := digits_lf h2.2
  have e3 := digits_lf h3.2
  simp [e1, e2, e3]

theorem isec_designator_lf {s : Str} (h : Spec.Isec.IsDesignator s) : '\n' ∉ s := fun hm => by
  rcases h.2 _ hm with h | h <;> exact absurd h (by decide)

theorem isec_iff {u v : Str} {ws : List Spec.Isec.Wpt} : Spec.Isec.IsFile (u ++ '\n' :: v) ws ↔
    ∃ w1 w2, ws = w1 ++ w2 ∧ Spec.Isec.IsFile (u ++ ['\n']) w1 ∧ Spec.Isec.IsFile v w2 := by
  simp only [isec_ended]
  refine ended_iff ⟨[], [], rfl, by simp [IsSpaces], Or.inl rfl⟩ (fun _ => blank_lf) ?_
  rintro d s ⟨b0, b1, b2, b3, b4, rfl, hd, hx, hy, h0, h1, h2, h3, h4, _⟩
  simp [isec_designator_lf hd, coord_lf hx, coord_lf hy, isSpaces_lf h0, isSpaces_lf h1, isSpaces_lf h2, isSpaces_lf h3, blank_lf h4]

theorem nb_lf {n : Option Spec.Airway.Nb} {t : Str} (h : Spec.Airway.IsNb n t) : '\n' ∉ t := by
  cases n with
  | none =>
    obtain ⟨z1, z2, z3, z4, z5, hz, rfl⟩ := h
    have k : ∀ z ∈ [z1, z2, z3, z4, z5], '\n' ∉ z := by
      intro z hm
      rcases hz z hm with rfl | rfl <;> decide
    simp [k z1, k z2, k z3, k z4, k z5]
  | some n =>
    obtain ⟨h1, h2, h3, h4, h5, rfl⟩ := h
    have e4 : '\n' ∉ n.level := by
      rcases h4 with h4 | h4 | h4
      · exact digits_lf h4.2
      · rw [h4]; decide
      · rw [h4]; decide
    have e5 : '\n' ∉ n.valid := by rcases h5 with h5 | h5 <;> rw [h5] <;> decide
    simp [isec_designator_lf h1, coord_lf h2, coord_lf h3, e4, e5]

theorem airway_iff {u v : Str} {ws : List Spec.Airway.Line} : Spec.Airway.IsFile (u ++ '\n' :: v) ws ↔
    ∃ w1 w2, ws = w1 ++ w2 ∧ Spec.Airway.IsFile (u ++ ['\n']) w1 ∧ Spec.Airway.IsFile v w2 := by
  simp only [airway_ended]
  refine ended_iff (Or.inl rfl) (fun _ => commentOr_lf) ?_
  rintro d s ⟨n1, n2, cm, h1, h2, h3, h4, h5, h6, h7, h8, rfl⟩
  have e5 : '\n' ∉ d.type := by rcases h5 with h5 | h5 | h5 | h5 <;> rw [h5] <;> decide
  simp [isec_designator_lf h1, coord_lf h2, coord_lf h3, isec_designator_lf h4, e5, nb_lf h6, nb_lf h7, commentOr_lf h8]

end Ended

/-! ## Profiles -/

section Prf
open Verif.Spec.Prf
variable [UnicodeTables]

theorem void_lf {b : Str} (h : ∀ c ∈ b, isVoidChar c = true) : '\n' ∉ b := fun hm => absurd (h _ hm) (by decide)

theorem gap_lf {b : Str} (h : ∀ c ∈ b, isGapChar c = true) : '\n' ∉ b := fun hm => absurd (h _ hm) (by decide)

theorem line_lf {w : Setting} {t : Str} (h : IsLine w t) : '\n' ∉ t := by
  obtain ⟨b0, b1, b2, rfl, h0, h1, h2, _, h3, _, h4, _, h5, _⟩ := h
  have e3 : '\n' ∉ w.category := fun hm => by
    have := h3 _ hm
    rw [UnicodeTables.letter_ascii _ (by decide)] at this
    exact absurd this (by decide)
  have e4 : '\n' ∉ w.key := fun hm => by
    have := h4 _ hm
    rw [isKeyChar, UnicodeTables.letter_ascii _ (by decide)] at this
    exact absurd this (by decide)
  have e5 : '\n' ∉ w.value := fun hm => h5 _ hm rfl
  simp [void_lf h0, gap_lf h1, gap_lf h2, e3, e4, e5]

theorem prf_nil {ws : List Setting} (hf : IsFile [] ws) : ws = [] := by
  generalize e : ([] : Str) = t at hf
  cases hf with
  | last => rfl
  | lastLine w t h =>
    obtain ⟨b0, b1, b2, e2, _, _, _, hne, _⟩ := h
    rw [← e] at e2
    simp [hne] at e2
  | blank b rest ws => simp at e
  | line w t rest ws => simp at e

theorem prf_iff {u v : Str} {ws : List Setting} : IsFile (u ++ '\n' :: v) ws ↔
    ∃ w1 w2, ws = w1 ++ w2 ∧ IsFile (u ++ ['\n']) w1 ∧ IsFile v w2 := by
  constructor
  · intro hf
    generalize e : u ++ '\n' :: v = t at hf
    induction hf generalizing u with
    | last b hb => exact (no_lf_end (void_lf hb) e.symm).elim
    | lastLine w t h => exact (no_lf_end (line_lf h) e.symm).elim
    | blank b rest ws hb hf ih =>
      rcases cut (void_lf hb) e.symm with ⟨rfl, _, rfl⟩ | ⟨u', rfl, e2⟩
      · exact ⟨[], ws, rfl, .blank b [] [] hb (.last [] (by simp)), hf⟩
      · obtain ⟨d1, d2, rfl, h1, h2⟩ := ih e2.symm
        refine ⟨d1, d2, rfl, ?_, h2⟩
        rw [List.append_assoc, List.cons_append]
        exact .blank b _ d1 hb h1
    | line w t rest ws h hf ih =>
      rcases cut (line_lf h) e.symm with ⟨rfl, _, rfl⟩ | ⟨u', rfl, e2⟩
      · exact ⟨[w], ws, rfl, .line w t [] [] h (.last [] (by simp)), hf⟩
      · obtain ⟨d1, d2, rfl, h1, h2⟩ := ih e2.symm
        refine ⟨w :: d1, d2, rfl, ?_, h2⟩
        rw [List.append_assoc, List.cons_append]
        exact .line w t _ d1 h h1
  · rintro ⟨d1, d2, rfl, h1, h2⟩
    generalize e : u ++ ['\n'] = t at h1
    induction h1 generalizing u with
    | last b hb => exact (no_lf_end (void_lf hb) e.symm).elim
    | lastLine w t h => exact (no_lf_end (line_lf h) e.symm).elim
    | blank b rest ws hb hf ih =>
      rcases cut (void_lf hb) e.symm with ⟨rfl, _, rfl⟩ | ⟨u', rfl, e2⟩
      · have hds := prf_nil hf
        subst hds
        exact .blank b v _ hb h2
      · rw [List.append_assoc, List.cons_append]
        exact .blank b _ _ hb (ih e2.symm)
    | line w t rest ws h hf ih =>
      rcases cut (line_lf h) e.symm with ⟨rfl, _, rfl⟩ | ⟨u', rfl, e2⟩
      · have hds := prf_nil hf
        subst hds
        exact .line w t v _ h h2
      · rw [List.append_assoc, List.cons_append]
        exact .line w t _ _ h (ih e2.symm)

end Prf

end Verif.Proofs.Joined
