import Verif.Proofs.SctWriteEntries
import Verif.Props.Colours
/-!
# The written file as a text of the format
-/

namespace Verif.Proofs.SctWrite
open Verif.Dms Verif.Parse Verif.Spec Verif.Spec.Sct Verif.Spec.SctWrite Verif.Model.SctWrite
open Verif.Spec.Ese (DmsText)
open Verif.Colours (Colour toEuroscope)
open Verif.Parse.Sct (Loc Airport Airway Fix Navaid Runway Region Label Drawing Info)

/-- Texts of the format for entries of a section. -/
structure Rep {X B : Type} (txt : X → Str) (valid fits : X → Prop) (val : X → B) (texts : List Str) (vals : List B) (ts : List X) : Prop where
  text : ts.map txt = texts
  valid : ∀ x ∈ ts, valid x
  fits : ∀ x ∈ ts, fits x
  value : ts.map val = vals

theorem rep_of {X A B : Type} {txt : X → Str} {valid fits : X → Prop} {val : X → B} {w : A → Str} {v : A → B} (l : List A)
    (h : ∀ a ∈ l, ∃ x, txt x = w a ∧ valid x ∧ fits x ∧ val x = v a) : ∃ ts, Rep txt valid fits val (l.map w) (l.map v) ts := by
  induction l with
  | nil => exact ⟨[], rfl, by simp, by simp, rfl⟩
  | cons a l ih =>
    obtain ⟨ts, h1, h2, h3, h4⟩ := ih fun b hb => h b (List.mem_cons_of_mem _ hb)
    obtain ⟨x, e1, e2, e3, e4⟩ := h a List.mem_cons_self
    refine ⟨x :: ts, by rw [List.map_cons, List.map_cons, e1, h1], ?_, ?_, by rw [List.map_cons, List.map_cons, e4, h4]⟩
    · intro y hy
      rcases List.mem_cons.1 hy with rfl | hy
      · exact e2
      · exact h2 y hy
    · intro y hy
      rcases List.mem_cons.1 hy with rfl | hy
      · exact e3
      · exact h3 y hy

/-- The entries sorted by a key. -/
theorem rep_sorted {X A B : Type} {txt : X → Str} {valid fits : X → Prop} {val : X → B} {w : A → Str} {v : A → B} (key : A → Str) (l : List A)
    (h : ∀ a ∈ l, ∃ x, txt x = w a ∧ valid x ∧ fits x ∧ val x = v a) :
    ∃ ts, Rep txt valid fits val ((sortBy key l).map w) ((sortBy key l).map v) ts :=
  rep_of _ fun a ha => h a ((sortBy_perm key l).mem_iff.1 ha)

/-- The entries on lines of their own. -/
def blockOf {X : Type} (sep : Str) : List X → Block X
  | [] => ⟨[], []⟩
  | x :: ts => ⟨[], .entry c!"\n" x :: ts.map (.entry sep ·)⟩

/-- What follows a section: one line end more if there is no entry. -/
def after {X : Type} (e : Str) (ts : List X) : Str := if ts.isEmpty then '\n' :: e else e

section
variable {X : Type}

theorem join_cons (sep a : Str) (l : List Str) : join sep (a :: l) = a ++ l.flatMap (sep ++ ·) := by
  induction l generalizing a with
  | nil => simp [join]
  | cons b l ih =>
    show a ++ (sep ++ join sep (b :: l)) = _
    rw [ih]
    simp

theorem block_text {sep e : Str} (txt : X → Str) (ts : List X) :
    (blockOf sep ts).text txt ++ after e ts = c!"\n" ++ (join sep (ts.map txt) ++ e) := by
  cases ts with
  | nil => rfl
  | cons x ts =>
    rw [List.map_cons, join_cons]
    show ([] ++ (c!"\n" ++ txt x ++ ((ts.map (Line.entry sep ·)).flatMap (Line.text txt)))) ++ e = _
    rw [List.flatMap_map, List.flatMap_map]
    have : (fun a => (Line.entry sep a).text txt) = fun a : X => sep ++ txt a := rfl
    rw [this]
    simp

theorem block_valid {sep : Str} {valid : X → Prop} {broken : Str → Prop} {ts : List X} (hs : Sct.IsBreak sep) (h : ∀ x ∈ ts, valid x) :
    (blockOf sep ts).Valid valid broken := by
  cases ts with
  | nil => exact ⟨⟨tail_nil, by simp [blockOf], by simp [blockOf]⟩, by simp [blockOf]⟩
  | cons x ts =>
    refine ⟨⟨tail_nil, by simp [blockOf], by simp [blockOf]⟩, fun l hl => ?_⟩
    rcases List.mem_cons.1 hl with rfl | hl
    · exact ⟨break_blanks (s := []) (by simp), h x List.mem_cons_self⟩
    · obtain ⟨y, hy, rfl⟩ := List.mem_map.1 hl
      exact ⟨hs, h y (List.mem_cons_of_mem _ hy)⟩

theorem block_fits {sep : Str} {fits : X → Prop} {ts : List X} (h : ∀ x ∈ ts, fits x) : (blockOf sep ts).Fits fits := by
  cases ts with
  | nil => intro l hl; cases hl
  | cons x ts =>
    intro l hl
    rcases List.mem_cons.1 hl with rfl | hl
    · exact h x List.mem_cons_self
    · obtain ⟨y, hy, rfl⟩ := List.mem_map.1 hl
      exact h y (List.mem_cons_of_mem _ hy)

theorem block_entries (sep : Str) (ts : List X) : (blockOf sep ts).entries = ts := by
  cases ts with
  | nil => rfl
  | cons x ts =>
    unfold Block.entries blockOf
    rw [List.filterMap_cons]
    simp only [Line.entry?]
    rw [List.filterMap_map]
    have : (Line.entry? ∘ fun x => Line.entry sep x) = (some : X → _) := rfl
    rw [this]
    simp

theorem block_colours (sep : Str) (ts : List X) : (blockOf sep ts).colours = [] := by
  cases ts with
  | nil => rfl
  | cons x ts =>
    unfold Block.colours blockOf
    rw [List.filterMap_cons]
    simp only [Line.colour?]
    rw [List.filterMap_map]
    have : (Line.colour? ∘ fun x : X => Line.entry sep x) = fun _ => none := rfl
    rw [this]
    simp
end

/-! ## Sections -/

/-- Sections with what follows them as sections with what stands in front of them. -/
def chain : Str → List (Sect × Str) → List (Str × Sect) × Str
  | b, [] => ([], b)
  | b, (s, e) :: l => ((b, s) :: (chain e l).1, (chain e l).2)

theorem chain_text (b : Str) (l : List (Sect × Str)) :
    (chain b l).1.flatMap (fun s => s.1 ++ s.2.text) ++ (chain b l).2 = b ++ l.flatMap fun s => s.1.text ++ s.2 := by
  induction l generalizing b with
  | nil => simp [chain]
  | cons s l ih =>
    obtain ⟨s, e⟩ := s
    show (b ++ s.text) ++ (chain e l).1.flatMap (fun s => s.1 ++ s.2.text) ++ (chain e l).2 = _
    rw [List.append_assoc, ih]
    simp

theorem chain_snd (b : Str) (l : List (Sect × Str)) : (chain b l).1.map (·.2) = l.map (·.1) := by
  induction l generalizing b with
  | nil => rfl
  | cons s l ih =>
    obtain ⟨s, e⟩ := s
    simp [chain, ih]

theorem chain_mem {b : Str} {l : List (Sect × Str)} {P : Str → Prop} (hl : ∀ s ∈ l, P s.2) (hb : P b) :
    (∀ s ∈ (chain b l).1, P s.1) ∧ P (chain b l).2 := by
  induction l generalizing b with
  | nil => exact ⟨by simp [chain], hb⟩
  | cons s l ih =>
    obtain ⟨s, e⟩ := s
    obtain ⟨h1, h2⟩ := ih (fun s hs => hl s (List.mem_cons_of_mem _ hs)) (hl _ List.mem_cons_self)
    refine ⟨fun t ht => ?_, h2⟩
    rcases List.mem_cons.1 ht with rfl | ht
    · exact hb
    · exact h1 t ht

/-- A file that starts with a section. -/
def fileOf (s : Sect) (e : Str) (l : List (Sect × Str)) : File := ⟨[], [], ([], s) :: (chain e l).1, (chain e l).2⟩

theorem file_text (s : Sect) (e : Str) (l : List (Sect × Str)) :
    (fileOf s e l).text = s.text ++ (e ++ l.flatMap fun s => s.1.text ++ s.2) := by
  show [] ++ ([] ++ (([] ++ s.text) ++ (chain e l).1.flatMap (fun s => s.1 ++ s.2.text) ++ (chain e l).2)) = _
  rw [List.append_assoc, chain_text]
  simp

theorem file_sections (s : Sect) (e : Str) (l : List (Sect × Str)) : (fileOf s e l).sections.map (·.2) = s :: l.map (·.1) := by
  show s :: (chain e l).1.map (·.2) = _
  rw [chain_snd]

theorem file_valid [UnicodeTables] {s : Sect} {e : Str} {l : List (Sect × Str)} (hs : s.Valid) (he : Sct.IsBreak e) (hl : ∀ t ∈ l, t.1.Valid)
    (hl' : ∀ t ∈ l, Sct.IsBreak t.2) : (fileOf s e l).Valid := by
  obtain ⟨h1, h2⟩ := chain_mem hl' he
  constructor
  · exact tail_nil
  · intro b hb
    cases hb
    exact Or.inr ⟨rfl, by simp [fileOf, AreBlanks]⟩
  · intro b hb
    obtain ⟨t, ht, rfl⟩ := List.mem_map.1 (show b ∈ (chain e l).1.map (·.1) from hb)
    exact h1 t ht
  · intro x hx; cases hx
  · intro t ht
    have : t.2 ∈ (fileOf s e l).sections.map (·.2) := List.mem_map_of_mem ht
    rw [file_sections] at this
    rcases List.mem_cons.1 this with e | h
    · rw [e]; exact hs
    · obtain ⟨u, hu, e⟩ := List.mem_map.1 h
      rw [← e]
      exact hl u hu
  · exact Or.inr h2
  · intro h
    obtain ⟨c, t, h3, _⟩ := h2
    have : (chain e l).2 = [] := h
    rw [this] at h3
    cases h3

theorem file_fits {s : Sect} {e : Str} {l : List (Sect × Str)} (hs : s.Fits) (hl : ∀ t ∈ l, t.1.Fits) : (fileOf s e l).Fits := by
  refine ⟨fun x hx => (by cases hx), fun t ht => ?_⟩
  have : t.2 ∈ (fileOf s e l).sections.map (·.2) := List.mem_map_of_mem ht
  rw [file_sections] at this
  rcases List.mem_cons.1 this with e | h
  · rw [e]; exact hs
  · obtain ⟨u, hu, e⟩ := List.mem_map.1 h
    rw [← e]
    exact hl u hu

theorem file_lastOf {A : Type} (s : Sect) (e : Str) (l : List (Sect × Str)) (p : Sect → Option A) :
    (fileOf s e l).lastOf p = ((s :: l.map (·.1)).filterMap p).getLast? := by
  unfold File.lastOf
  rw [← file_sections s e l, List.filterMap_map]
  rfl

theorem file_colours (s : Sect) (e : Str) (l : List (Sect × Str)) (hl : ∀ t ∈ l, t.1.colours = []) : (fileOf s e l).colours = s.colours := by
  have : (fileOf s e l).colours = (s :: l.map (·.1)).flatMap Sect.colours := by
    unfold File.colours
    rw [← file_sections s e l, List.flatMap_map]
    rfl
  rw [this, List.flatMap_cons]
  have : (l.map (·.1)).flatMap Sect.colours = [] := by
    rw [List.flatMap_eq_nil_iff]
    intro t ht
    obtain ⟨u, hu, rfl⟩ := List.mem_map.1 ht
    exact hl u hu
  rw [this, List.append_nil]

/-! ## Colours -/

/-- The text of a colour. -/
def colourDef (e : Str × Colour) : ColourDef := ⟨c!" ", e.1, c!"\t", showNat (toEuroscope e.2).toNat⟩

theorem colourDef_text (e : Str × Colour) : (colourDef e).text = colour e := rfl

theorem colour_digits (c : Colour) : IsDigits (showNat (toEuroscope c).toNat) := ⟨showNat_ne_nil _, showNat_digits _⟩

theorem toEuroscope_lt (c : Colour) : (toEuroscope c).toNat < 2 ^ 24 := by
  obtain ⟨r, g, b, a⟩ := c
  have := r.isLt
  have := g.isLt
  have := b.isLt
  unfold toEuroscope
  simp only
  omega

theorem colourDef_valid {e : Str × Colour} (h : IsColourName e.1) : (colourDef e).Valid :=
  ⟨gap_one, h, (by decide : IsGap c!"\t"), posInteger_digits (colour_digits e.2)⟩

theorem colourDef_fits (e : Str × Colour) : (colourDef e).Fits :=
  fits_digits (colour_digits e.2) (by show digitsValue (showNat _) < _; rw [digitsValue_showNat]; exact Nat.lt_trans (toEuroscope_lt e.2) (by decide))

theorem colourDef_colour (e : Str × Colour) : (colourDef e).colour = some { e.2 with a := 255 } := by
  have hn : Ese.number (colourDef e).number = (toEuroscope e.2).toNat := by
    show Ese.number (showNat (toEuroscope e.2).toNat) = _
    rw [number_digits (colour_digits e.2), digitsValue_showNat]
  unfold ColourDef.colour
  simp only [hn, if_pos (toEuroscope_lt e.2)]
  obtain ⟨n, r, g, b, a⟩ := e
  have h1 := r.isLt
  have h2 := g.isLt
  have h3 := b.isLt
  have : (toEuroscope ⟨r, g, b, a⟩).toNat = r.val + g.val * 256 + b.val * 65536 := by
    unfold toEuroscope
    simp only
    omega
  rw [this]
  congr 2
  · exact Fin.ext (by simp only [Fin.ofNat]; omega)
  · exact Fin.ext (by simp only [Fin.ofNat]; omega)
  · exact Fin.ext (by simp only [Fin.ofNat]; omega)

/-- The colour of a name. -/
theorem colour_get {m : Map Str Colour} (hm : m.keys.Nodup) {l : List (Str × Colour)} (hl : l.Perm m) (n : Str) :
    ((l.map colourDef).filterMap fun d => if d.name = n then d.colour else none).getLast? = (m.get? n).map fun c => { c with a := 255 } := by
  have hnd : (l.map (·.1)).Nodup := (hl.map (fun e : Str × Colour => e.1)).nodup_iff.2 hm
  have key : ∀ l : List (Str × Colour), (l.map (·.1)).Nodup → (l.map colourDef).filterMap (fun d => if d.name = n then d.colour else none) =
      ((Map.get? l n).map fun c : Colour => { c with a := 255 }).toList := by
    intro l hl
    induction l with
    | nil => rfl
    | cons e l ih =>
      obtain ⟨h1, h2⟩ := List.nodup_cons.1 hl
      rw [List.map_cons, List.filterMap_cons, ih h2, colourDef_colour]
      obtain ⟨k, c⟩ := e
      by_cases e : k = n
      · subst e
        have h0 : Map.get? l k = none := Map.get?_eq_none_iff.2 h1
        have h3 : Map.get? ((k, c) :: l) k = some c := Map.get?_of_mem (m := (k, c) :: l) hl List.mem_cons_self
        rw [h0, h3]
        simp [colourDef]
      · have h3 : Map.get? ((k, c) :: l) n = Map.get? l n := by
          cases hg : Map.get? l n with
          | none =>
            refine Map.get?_eq_none_iff.2 fun hk => ?_
            rcases List.mem_cons.1 hk with h | h
            · exact e h.symm
            · exact Map.get?_eq_none_iff.1 hg h
          | some v => exact Map.get?_of_mem (m := (k, c) :: l) hl (List.mem_cons_of_mem _ (Map.mem_of_get? hg))
        rw [h3]
        simp [colourDef, e]
  have hget : Map.get? l n = m.get? n := by
    cases hg : m.get? n with
    | none =>
      refine Map.get?_eq_none_iff.2 fun hk => Map.get?_eq_none_iff.1 hg ((hl.map (fun e : Str × Colour => e.1)).mem_iff.1 hk)
    | some v => exact Map.get?_of_mem hnd (hl.mem_iff.2 (Map.mem_of_get? hg))
  rw [key l hnd, hget]
  cases m.get? n <;> rfl

/-- Colours on lines of their own; an empty line is in front of the first one. -/
def colourLines : List (Str × Colour) → List (Ln ColourDef)
  | [] => []
  | e :: l => ⟨c!"\n\n", colourDef e, []⟩ :: l.map fun e => ⟨c!"\n", colourDef e, []⟩

theorem colourLines_text (l : List (Str × Colour)) (e : Str) :
    (colourLines l).flatMap (Ln.text ColourDef.text) ++ (if l.isEmpty then '\n' :: '\n' :: e else e) =
      c!"\n" ++ (c!"\n" ++ (join c!"\n" (l.map colour) ++ e)) := by
  cases l with
  | nil => rfl
  | cons x l =>
    rw [List.map_cons, join_cons]
    show (Ln.text ColourDef.text ⟨c!"\n\n", colourDef x, []⟩ ++ ((l.map fun e => (⟨c!"\n", colourDef e, []⟩ : Ln ColourDef)).flatMap (Ln.text ColourDef.text))) ++ e = _
    rw [List.flatMap_map, List.flatMap_map]
    have : (fun a => Ln.text ColourDef.text (⟨c!"\n", colourDef a, []⟩ : Ln ColourDef)) = fun a : Str × Colour => c!"\n" ++ colour a := by
      funext a
      simp [Ln.text, colourDef_text]
    rw [this]
    simp [Ln.text, colourDef_text]

theorem colourLines_body (l : List (Str × Colour)) : (colourLines l).map (·.body) = l.map colourDef := by
  cases l with
  | nil => rfl
  | cons x l => simp [colourLines]

theorem colourLines_valid {l : List (Str × Colour)} (h : ∀ e ∈ l, IsColourName e.1) : ∀ x ∈ colourLines l, x.Valid ColourDef.Valid := by
  cases l with
  | nil => intro x hx; cases hx
  | cons e l =>
    intro x hx
    rcases List.mem_cons.1 hx with rfl | hx
    · exact ⟨⟨'\n', c!"\n", rfl, Or.inl rfl, .newline _ _ (Or.inl rfl) .nil⟩, colourDef_valid (h e List.mem_cons_self), tail_nil⟩
    · obtain ⟨y, hy, rfl⟩ := List.mem_map.1 hx
      exact ⟨break_blanks (s := []) (by simp), colourDef_valid (h y (List.mem_cons_of_mem _ hy)), tail_nil⟩

/-! ## The file -/

section
variable {F : Type} {P : Printer F} {T : Bool → F → DmsText}

def lineOf {A : Type} (a : A) : Ln A := ⟨c!"\n", a, []⟩

def infoText (P : Printer F) (T : Bool → F → DmsText) (i : Info F) (l : List (Str × Colour)) : InfoText where
  tail := []
  before := []
  brk := c!"\n"
  name := i.name
  callsign := lineOf i.defaultCallsign
  airport := lineOf i.defaultAirport
  lat := lineOf (T true i.centrePoint.y)
  lng := lineOf (T false i.centrePoint.x)
  milesLat := lineOf (P.display i.milesPerDegLat)
  milesLng := lineOf (P.display i.milesPerDegLng)
  variation := lineOf (P.display i.magneticVariation)
  scale := some (lineOf (P.display i.scaleFactor))
  after := colourLines l

theorem line_valid {A : Type} {valid : A → Prop} {a : A} (h : valid a) : (lineOf a).Valid valid := ⟨break_blanks (s := []) (by simp), h, tail_nil⟩

variable (hT : Texts P T)
include hT

theorem info_text (i : Info F) (l : List (Str × Colour)) (e : Str) :
    (Sect.info (infoText P T i l)).text ++ (if l.isEmpty then '\n' :: '\n' :: e else e) = info P i ++ (c!"\n" ++ (join c!"\n" (l.map colour) ++ e)) := by
  unfold Sect.text
  show (c!"[INFO]" ++ (infoText P T i l).text) ++ _ = _
  unfold InfoText.text
  simp only [infoText, lineOf, Ln.text, scaleText, List.append_assoc, List.append_nil, id, List.flatMap_nil, hT.text, List.nil_append]
  rw [colourLines_text]
  simp [info]

theorem info_valid [UnicodeTables] {i : Info F} {l : List (Str × Colour)} (h1 : IsSectorName i.name) (h2 : IsCallsign i.defaultCallsign)
    (h3 : IsDesignator i.defaultAirport) (h4 : IsDecimal (P.display i.milesPerDegLat)) (h5 : IsDecimal (P.display i.milesPerDegLng))
    (h6 : IsDecimal (P.display i.magneticVariation)) (h7 : IsDecimal (P.display i.scaleFactor)) (h8 : ∀ e ∈ l, IsColourName e.1) :
    (infoText P T i l).Valid where
  tail := ⟨tail_nil, by simp [infoText], by simp [infoText]⟩
  before := by simp [infoText]
  brk := break_blanks (s := []) (by simp)
  name := h1
  callsign := line_valid h2
  airport := line_valid h3
  lat := line_valid (hT.valid _ _)
  lng := line_valid (hT.valid _ _)
  milesLat := line_valid h4
  milesLng := line_valid h5
  variation := line_valid h6
  scale := by
    intro l h
    cases h
    exact line_valid h7
  after := colourLines_valid h8

omit hT in
theorem info_colours (i : Info F) (l : List (Str × Colour)) : (infoText P T i l).colours = l.map colourDef := by
  unfold InfoText.colours
  show [] ++ (colourLines l).map (·.body) = _
  rw [colourLines_body]
  rfl

theorem info_fits (i : Info F) (l : List (Str × Colour)) : (infoText P T i l).Fits := by
  refine ⟨hT.fits _ _, hT.fits _ _, fun d hd => ?_⟩
  rw [info_colours] at hd
  obtain ⟨e, _, rfl⟩ := List.mem_map.1 hd
  exact colourDef_fits e

omit hT in
theorem break_after {X : Type} (ts : List X) {e : Str} (he : Sct.IsBreak e) : Sct.IsBreak (after e ts) := by
  unfold after
  split
  · obtain ⟨c, t, rfl, h1, h2⟩ := he
    exact ⟨'\n', _, rfl, Or.inl rfl, .newline c t h1 h2⟩
  · exact he

omit hT in
theorem break_two : Sct.IsBreak c!"\n\n" := ⟨'\n', c!"\n", rfl, Or.inl rfl, .newline _ _ (Or.inl rfl) .nil⟩

/-- What is read from a written file. -/
def result [DecidableEq F] (P : Printer F) (re : Bool → F → F) (s : Parse.Sct.Sct F) (colours : Map Str Colour) : Parse.Sct.Sct F where
  info := reInfo re s.info
  colours := colours
  airports := (sortBy (airport P) s.airports).map (reAirport re)
  fixes := (sortBy (fix P) s.fixes).map (reFix re)
  ndbs := (sortBy (navaid P) s.ndbs).map (reNavaid re)
  vors := (sortBy (navaid P) s.vors).map (reNavaid re)
  runways := (sortBy (·.aerodrome) s.runways).map (reRunway re)
  sids := (sortBy (·.name) s.sids).map (reDrawing re)
  stars := (sortBy (·.name) s.stars).map (reDrawing re)
  artccsHigh := (sortBy (·.name) s.artccsHigh).map (reDrawing re)
  artccs := (sortBy (·.name) s.artccs).map (reDrawing re)
  artccsLow := (sortBy (·.name) s.artccsLow).map (reDrawing re)
  highAirways := (sortBy (·.designator) s.highAirways).map (reAirway re)
  lowAirways := (sortBy (·.designator) s.lowAirways).map (reAirway re)
  regions := (sortBy (·.name) s.regions).map (reRegion re)
  labels := (sortBy (·.name) s.labels).map (reLabel re)
  geo := (sortBy (·.name) s.geo).map (reDrawing re)

set_option maxRecDepth 8000 in
/-- The written file is a text of the format, with this meaning. -/
theorem written [UnicodeTables] [DmsArith F] [DecidableEq F] (num : Str → F) {s : Parse.Sct.Sct F} (h : Writable s)
    (hn : ∀ x ∈ numbers s, IsDecimal (P.display x) ∧ num (P.display x) = x) :
    ∃ f : File, f.Valid ∧ f.Fits ∧ f.text = write P s ∧ (∀ colours, f.value num colours = result P (back T num) s colours) ∧
      ∀ n, f.colourOf n = (s.colours.get? n).map fun c => { c with a := 255 } := by
  obtain ⟨n1, e1⟩ := hn s.info.milesPerDegLat (by simp [numbers])
  obtain ⟨n2, e2⟩ := hn s.info.milesPerDegLng (by simp [numbers])
  obtain ⟨n3, e3⟩ := hn s.info.magneticVariation (by simp [numbers])
  obtain ⟨n4, e4⟩ := hn s.info.scaleFactor (by simp [numbers])
  obtain ⟨vs, hvs⟩ := rep_sorted (navaid P) s.vors fun n hn => navaid_text hT num (h.vors n hn)
  obtain ⟨ns, hns⟩ := rep_sorted (navaid P) s.ndbs fun n hn => navaid_text hT num (h.ndbs n hn)
  obtain ⟨fs, hfs⟩ := rep_sorted (fix P) s.fixes fun n hn => fix_text hT num (h.fixes n hn)
  obtain ⟨as, has⟩ := rep_sorted (airport P) s.airports fun n hn => airport_text hT num (h.airports n hn)
  obtain ⟨rs, hrs⟩ := rep_sorted (·.aerodrome) s.runways fun n hn => runway_text hT num (h.runways n hn)
  obtain ⟨d1, hd1⟩ := rep_sorted (·.name) s.sids fun n hn => drawing_text hT num (h.sids n hn)
  obtain ⟨d2, hd2⟩ := rep_sorted (·.name) s.stars fun n hn => drawing_text hT num (h.stars n hn)
  obtain ⟨d3, hd3⟩ := rep_sorted (·.name) s.artccsHigh fun n hn => drawing_text hT num (h.artccsHigh n hn)
  obtain ⟨d4, hd4⟩ := rep_sorted (·.name) s.artccs fun n hn => drawing_text hT num (h.artccs n hn)
  obtain ⟨d5, hd5⟩ := rep_sorted (·.name) s.artccsLow fun n hn => drawing_text hT num (h.artccsLow n hn)
  obtain ⟨d6, hd6⟩ := rep_sorted (·.name) s.geo fun n hn => drawing_text hT num (h.geo n hn)
  obtain ⟨gs, hgs⟩ := rep_sorted (·.name) s.regions fun n hn => region_text hT num (h.regions n hn)
  obtain ⟨ls, hls⟩ := rep_sorted (·.name) s.labels fun n hn => label_text hT num (h.labels n hn)
  obtain ⟨w1, hw1⟩ := rep_sorted (·.designator) s.highAirways fun n hn => airway_text hT num (h.highAirways n hn)
  obtain ⟨w2, hw2⟩ := rep_sorted (·.designator) s.lowAirways fun n hn => airway_text hT num (h.lowAirways n hn)
  have hone : Sct.IsBreak c!"\n" := break_blanks (s := []) (by simp)
  have htwo := break_two
  let cs := sortBy colour s.colours
  have hcs : cs.Perm s.colours := sortBy_perm _ _
  let f := fileOf (.info (infoText P T s.info cs)) (if cs.isEmpty then c!"\n\n\n\n" else c!"\n\n")
    [(.vors (blockOf c!"\n" vs), after c!"\n\n" vs), (.ndbs (blockOf c!"\n" ns), after c!"\n\n" ns),
     (.fixes (blockOf c!"\n" fs), after c!"\n\n" fs), (.airports (blockOf c!"\n" as), after c!"\n\n" as),
     (.runways (blockOf c!"\n" rs), after c!"\n\n" rs),
     (.drawings .sid (blockOf c!"\n\n" d1), after c!"\n\n" d1), (.drawings .star (blockOf c!"\n\n" d2), after c!"\n\n" d2),
     (.drawings .artccHigh (blockOf c!"\n\n" d3), after c!"\n\n" d3), (.drawings .artcc (blockOf c!"\n\n" d4), after c!"\n\n" d4),
     (.drawings .artccLow (blockOf c!"\n\n" d5), after c!"\n\n" d5), (.drawings .geo (blockOf c!"\n\n" d6), after c!"\n\n" d6),
     (.regions true (blockOf c!"\n" gs), after c!"\n\n" gs), (.labels (blockOf c!"\n" ls), after c!"\n\n" ls),
     (.highAirways (blockOf c!"\n" w1), after c!"\n\n" w1), (.lowAirways (blockOf c!"\n" w2), after c!"\n" w2)]
  refine ⟨f, ?_, ?_, ?_, ?_, ?_⟩
  · refine file_valid ?_ ?_ ?_ ?_
    · exact info_valid hT h.name h.callsign h.airport n1 n2 n3 n4 fun e he => h.colours e (hcs.mem_iff.1 he)
    · split
      · exact ⟨'\n', _, rfl, Or.inl rfl, .newline _ _ (Or.inl rfl) (.newline _ _ (Or.inl rfl) (.newline _ _ (Or.inl rfl) .nil))⟩
      · exact htwo
    · simp only [List.forall_mem_cons]
      exact ⟨block_valid hone hvs.valid, block_valid hone hns.valid, block_valid hone hfs.valid, block_valid hone has.valid,
        block_valid hone hrs.valid, block_valid htwo hd1.valid, block_valid htwo hd2.valid, block_valid htwo hd3.valid,
        block_valid htwo hd4.valid, block_valid htwo hd5.valid, block_valid htwo hd6.valid, block_valid hone hgs.valid,
        block_valid hone hls.valid, block_valid hone hw1.valid, block_valid hone hw2.valid, by simp⟩
    · simp only [List.forall_mem_cons]
      exact ⟨break_after _ htwo, break_after _ htwo, break_after _ htwo, break_after _ htwo, break_after _ htwo, break_after _ htwo,
        break_after _ htwo, break_after _ htwo, break_after _ htwo, break_after _ htwo, break_after _ htwo, break_after _ htwo,
        break_after _ htwo, break_after _ htwo, break_after _ hone, by simp⟩
  · refine file_fits (info_fits hT _ _) ?_
    simp only [List.forall_mem_cons]
    exact ⟨block_fits hvs.fits, block_fits hns.fits, block_fits hfs.fits, block_fits has.fits, block_fits hrs.fits, block_fits hd1.fits,
      block_fits hd2.fits, block_fits hd3.fits, block_fits hd4.fits, block_fits hd5.fits, block_fits hd6.fits, block_fits hgs.fits,
      block_fits hls.fits, block_fits hw1.fits, block_fits hw2.fits, by simp⟩
  · have sv : sortBy id (s.vors.map (navaid P)) = (sortBy (navaid P) s.vors).map (navaid P) := (map_sortBy _ id _).symm
    have sn : sortBy id (s.ndbs.map (navaid P)) = (sortBy (navaid P) s.ndbs).map (navaid P) := (map_sortBy _ id _).symm
    have sf : sortBy id (s.fixes.map (fix P)) = (sortBy (fix P) s.fixes).map (fix P) := (map_sortBy _ id _).symm
    have sa : sortBy id (s.airports.map (airport P)) = (sortBy (airport P) s.airports).map (airport P) := (map_sortBy _ id _).symm
    have sc : sortBy id (s.colours.map colour) = cs.map colour := (map_sortBy _ id _).symm
    rw [file_text, ← List.append_assoc, info_text hT]
    simp only [List.flatMap_cons, List.flatMap_nil, Sect.text, Sect.header, Sect.body, Kind.header, List.append_assoc, block_text, if_true]
    rw [hvs.text, hns.text, hfs.text, has.text, hrs.text, hd1.text, hd2.text, hd3.text, hd4.text, hd5.text, hd6.text, hgs.text, hls.text,
      hw1.text, hw2.text]
    unfold write vors ndbs fixes airports runways regions labels
    rw [sv, sn, sf, sa, sc]
    simp only [Model.SctWrite.drawings, airways, List.append_assoc, List.cons_append, List.nil_append, List.append_nil]
  · intro colours
    have last : ∀ {A : Type} (p : Sect → Option A), f.lastOf p = _ := fun p => file_lastOf _ _ _ p
    unfold File.value File.entriesOf
    simp only [last, List.map_cons, List.map_nil, List.filterMap_cons, List.filterMap_nil, List.getLast?_singleton, Option.map_some,
      Option.getD_some, block_entries]
    unfold result
    rw [hvs.value, hns.value, hfs.value, has.value, hrs.value, hd1.value, hd2.value, hd3.value, hd4.value, hd5.value, hd6.value, hgs.value,
      hls.value, hw1.value, hw2.value]
    have : (infoText P T s.info cs).value num = reInfo (back T num) s.info := by
      unfold InfoText.value reInfo
      simp only [infoText, lineOf, Option.map_some, Option.getD_some, e1, e2, e3, e4]
      rfl
    rw [this]
  · intro n
    unfold File.colourOf
    rw [file_colours]
    · show (((infoText P T s.info cs).colours).filterMap _).getLast? = _
      rw [info_colours, colour_get h.distinct hcs]
    · simp only [List.forall_mem_cons, Sect.colours, block_colours]
      simp
end

end Verif.Proofs.SctWrite
