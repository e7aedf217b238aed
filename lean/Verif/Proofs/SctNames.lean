import Verif.Proofs.Post
import Verif.Proofs.SctTokens
import Verif.Spec.SctItems
import Verif.Spec.Locations
/-!
# The fixes that a sector file refers to
-/

namespace Verif.Proofs.Sct
open Verif.Proofs Verif.Peg Verif.Spec Verif.Parse.Sct Verif.Parse
open Verif.Peg.Sct (Rule skip)
open Verif.Locations.Spec (OnlyAsciiDigits)
open Verif.Colours (Colour)
open Verif.Dms (DmsArith)

set_option linter.unusedSectionVars false

variable [UnicodeTables] {F : Type} [F64 F] [DmsArith F] [DecidableEq F]

/-- The names inside of a pair of equal names -/
def FixName (t : Tree Rule) : Prop := t.asRule = .airway_fix → ∀ k ∈ t.inner, OnlyAsciiDigits k.asStr

theorem ascii_digits_of_upper_digit {s : Str} (h : ∀ c ∈ s, isAsciiUpper c = true ∨ isAsciiDigit c = true) : OnlyAsciiDigits s := by
  intro c hc hd
  rcases h c hc with h | h
  · have : c.toNat < 128 := by
      simp [isAsciiUpper] at h
      omega
    rw [UnicodeTables.decimal_ascii c this] at hd
    exact hd
  · exact h

theorem airway_fix_name (a : Atom) (s r : Str) (kids : List (Tree Rule))
    (h : Out skip K (.dup Peg.Sct.designator (.plus Peg.Sct.WHITESPACE)) (inside .compound a) s r kids) :
    FixName (.node .airway_fix s kids) := by
  intro _ k hk
  obtain ⟨w, u, t1, t2, rfl, ⟨k1, h1, rfl⟩, h2, rfl⟩ := h
  have h2 := kids_mute _ _ _ (by cases a <;> rfl) (out_kids _ _ _ _ _ h2)
  subst h2
  have := out_plus_of (P := fun c => isAsciiUpper c = true ∨ isAsciiDigit c = true) (by cases a <;> simp [inside]) (fun s r ts h => by
    rcases h with h | ⟨h, _⟩ <;> obtain ⟨c, rfl, hc, rfl⟩ := h <;> simp [hc]) h1
  rcases List.mem_append.1 hk with hk | hk
  · split at hk
    · rw [List.mem_singleton.1 hk]
      exact ascii_digits_of_upper_digit this.2.2
    · rw [this.1] at hk; cases hk
  · cases hk

theorem fixName_of_ne {e : Rule} {s : Str} {kids : List (Tree Rule)} (h : e ≠ .airway_fix) : FixName (.node e s kids) :=
  fun h' => absurd h' h

theorem makes_rule {e : Rule} {ty : Ty} {x : Expr Rule} {a : Atom} (h : e ≠ .airway_fix) (hx : Makes skip K FixName x (inside ty a)) :
    Makes skip K FixName (.rule e ty x) a := ⟨fun _ _ _ _ => fixName_of_ne h, hx⟩

theorem makes_airway_fix (a : Atom) : Makes skip K FixName Peg.Sct.airway_fix a := by
  refine ⟨airway_fix_name a, ?_⟩
  simp [Makes, Peg.Sct.designator, Peg.Sct.WHITESPACE, Expr.plus, fixName_of_ne]

set_option linter.unusedSimpArgs false in
theorem makes_sct : Makes skip K FixName Peg.Sct.sct .nonAtomic := by
  simp [Makes, fixName_of_ne, Expr.plus, makes_airway_fix, Expr.any, Expr.newline, Peg.Base.NL, Peg.Base.decimal, Peg.Base.integer, Peg.Base.pos_integer, Peg.Base.deg, Peg.Base.min, Peg.Base.hemi, Peg.Base.direction, Peg.Base.runway_designator, Peg.Base.colon_delimited_text, Peg.Base.comma_delimited_text, Peg.Base.backslash_delimited_text, Peg.Base.quote_delimited_text, Peg.Base.tab_delimited_text,
    Peg.Sct.WHITESPACE, Peg.Sct.COMMENT, Peg.Sct.NL, Peg.Sct.decimal, Peg.Sct.deg, Peg.Sct.min, Peg.Sct.sec, Peg.Sct.hemi, Peg.Sct.sct_coord_part, Peg.Sct.sector_name, Peg.Sct.sector_callsign, Peg.Sct.pos_integer, Peg.Sct.colour_name, Peg.Sct.colour_definition, Peg.Sct.designator, Peg.Sct.info_section, Peg.Sct.sct_coordinate, Peg.Sct.frequency, Peg.Sct.location, Peg.Sct.vor_section, Peg.Sct.broken, Peg.Sct.ndb_section, Peg.Sct.fix_designator, Peg.Sct.fix, Peg.Sct.fixes_section, Peg.Sct.ctr_airspace, Peg.Sct.aerodrome, Peg.Sct.airport_section, Peg.Sct.runway_designator, Peg.Sct.runway, Peg.Sct.runway_section, Peg.Sct.coloured_line, Peg.Sct.non_coordinate_or_double_fix_name, Peg.Sct.coloured_lines, Peg.Sct.sid_section, Peg.Sct.star_section, Peg.Sct.artcc_high_section, Peg.Sct.artcc_section, Peg.Sct.artcc_low_section, Peg.Sct.airway, Peg.Sct.high_airway_section, Peg.Sct.low_airway_section, Peg.Sct.name, Peg.Sct.region, Peg.Sct.region_section, Peg.Sct.quote_delimited_text, Peg.Sct.quoted_string, Peg.Sct.label, Peg.Sct.labels_section, Peg.Sct.geo_section, Peg.Sct.section_, Peg.Sct.sct]

/-! ## The locations that are read -/

/-- The name of a fix has ASCII digits only. -/
def Named (l : Loc F) : Prop := ∀ d, l = .fix d → OnlyAsciiDigits d

theorem location_named {t : Tree Rule} (h : All FixName t) : Post (Named (F := F)) (parseLocation t) := by
  unfold parseLocation
  split
  · exact Post.bind Post.any fun p _ => Post.pure (by intro d hd; cases hd)
  · next he =>
    have h1 := h.here he
    refine Post.bind (P := fun p => OnlyAsciiDigits p.1) ?_ fun p hp => Post.pure (by intro d hd; cases hd; exact hp)
    unfold nextStr
    cases hi : t.inner with
    | nil => exact Post.error
    | cons k ks => exact Post.pure (h1 k (by rw [hi]; exact List.mem_cons_self))
  · exact Post.error

theorem nextLocation_named {ts : List (Tree Rule)} (h : ∀ t ∈ ts, All FixName t) :
    Post (fun p => Named (F := F) p.1 ∧ ∀ t ∈ p.2, All FixName t) (nextLocation ts) :=
  Post.bind (Post.next h) fun _ hp => Post.bind (location_named hp.1) fun _ hl => Post.pure ⟨hl, hp.2⟩

theorem nextStr_kids {ts : List (Tree Rule)} (h : ∀ t ∈ ts, All FixName t) :
    Post (fun p => ∀ t ∈ p.2, All FixName t) (nextStr ts) :=
  Post.bind (Post.next h) fun _ hp => Post.pure hp.2

theorem airway_named {t : Tree Rule} (h : All FixName t) :
    Post (fun a : Option (Airway F) => ∀ x ∈ a, Named x.start ∧ Named x.stop) (parseAirway t) := by
  refine Post.bind (nextStr_kids h.inner) fun p hp => ?_
  obtain ⟨d, ts⟩ := p
  match ts with
  | a :: b :: ts =>
    refine Post.bind (location_named (hp a (by simp))) fun x hx => Post.bind (location_named (hp b (by simp))) fun y hy =>
      Post.pure ?_
    intro z hz
    cases hz
    exact ⟨hx, hy⟩
  | [] => exact Post.pure (by simp)
  | [a] => exact Post.pure (by simp)

theorem drawing_named {t : Tree Rule} (h : All FixName t) :
    Post (fun a : Drawing F => ∀ g ∈ a.lineGroups, ∀ l ∈ g.lines.flatten, Named l) (parseDrawing t) := by
  refine Post.bind (nextStr_kids h.inner) fun p hp => ?_
  refine Post.bind (P := fun gs => ∀ g ∈ gs, ∀ l ∈ g.lines.flatten, Named l) ?_ fun g hg => Post.pure hg
  refine Post.bind (P := fun ls => ∀ l ∈ ls, Named l.start ∧ Named l.stop) ?_ fun g hg => Post.pure ?_
  · refine Post.mapM fun t ht => ?_
    refine Post.bind (nextLocation_named (hp t ht).inner) fun a ha => Post.bind (nextLocation_named ha.2) fun b hb => Post.pure ⟨ha.1, hb.1⟩
  · intro g' hg' l hl
    obtain ⟨x, hx, rfl | rfl⟩ := mem_lineGroups hg' hl
    · exact (hg x hx).1
    · exact (hg x hx).2

theorem entries_post {A : Type} {P : A → Prop} {f : Tree Rule → Run (Option A)} {ts : List (Tree Rule)}
    (h : ∀ t ∈ ts, Post (fun a => ∀ x ∈ a, P x) (f t)) : ∀ m, Post (fun r => ∀ x ∈ r.1, P x) (entries f m ts) := by
  induction ts with
  | nil => intro m; exact Post.pure (by simp)
  | cons t ts ih =>
    intro m
    have ih := ih fun t ht => h t (List.mem_cons_of_mem _ ht)
    unfold entries
    split
    · exact Post.bind Post.any fun m _ => ih m
    · refine Post.bind (h t List.mem_cons_self) fun a ha => Post.bind (ih m) fun b hb => Post.pure ?_
      intro x hx
      rcases List.mem_append.1 hx with hx | hx
      · exact ha x (by simpa using hx)
      · exact hb x hx

/-- The locations of a section -/
def drawn : Section F → List (Loc F)
  | .sid l | .star l | .artccHigh l | .artcc l | .artccLow l | .geo l => l.flatMap fun d => d.lineGroups.flatMap fun g => g.lines.flatten
  | .highAirways l | .lowAirways l => l.map (·.start)
  | _ => []

theorem drawings_post {t : Tree Rule} (h : All FixName t) (m : Map Str Colour) (name : SectionName) (mk : List (Drawing F) → Section F)
    (hmk : ∀ l, drawn (mk l) = l.flatMap fun d => d.lineGroups.flatMap fun g => g.lines.flatten) :
    Post (fun r : (SectionName × Section F) × Map Str Colour => ∀ l ∈ drawn r.1.2, Named l)
      (do let (l, colours) ← entries (fun t => some <$> parseDrawing t) m t.inner
          return ((name, mk l), colours)) := by
  refine Post.bind (entries_post (P := fun a : Drawing F => ∀ g ∈ a.lineGroups, ∀ l ∈ g.lines.flatten, Named l)
    (fun t ht => Post.map ?_) m) fun r hr => Post.pure ?_
  · exact (drawing_named (h.inner t ht)).mono fun a ha x hx => by cases hx; exact ha
  · intro l hl
    rw [hmk] at hl
    obtain ⟨d, hd, hl⟩ := List.mem_flatMap.1 hl
    obtain ⟨g, hg, hl⟩ := List.mem_flatMap.1 hl
    exact hr d hd g hg l hl

theorem airways_post {t : Tree Rule} (h : All FixName t) (m : Map Str Colour) (name : SectionName) (mk : List (Airway F) → Section F)
    (hmk : ∀ l, drawn (mk l) = l.map (·.start)) :
    Post (fun r : (SectionName × Section F) × Map Str Colour => ∀ l ∈ drawn r.1.2, Named l)
      (do let (l, colours) ← entries parseAirway m t.inner
          return ((name, mk l), colours)) := by
  refine Post.bind (entries_post (P := fun a : Airway F => Named a.start ∧ Named a.stop)
    (fun t ht => airway_named (h.inner t ht)) m) fun r hr => Post.pure ?_
  intro l hl
  rw [hmk] at hl
  obtain ⟨d, hd, rfl⟩ := List.mem_map.1 hl
  exact (hr d hd).1

theorem others_post {A : Type} (f : Tree Rule → Run (Option A)) (ts : List (Tree Rule)) (m : Map Str Colour) (name : SectionName)
    (mk : List A → Section F) (hmk : ∀ l, drawn (mk l) = []) :
    Post (fun r : (SectionName × Section F) × Map Str Colour => ∀ l ∈ drawn r.1.2, Named l)
      (do let (l, colours) ← entries f m ts
          return ((name, mk l), colours)) := by
  refine Post.bind Post.any fun r _ => Post.pure ?_
  intro l hl
  rw [hmk] at hl
  cases hl

theorem section_named {t : Tree Rule} (h : All FixName t) (m : Map Str Colour) :
    Post (fun r : (SectionName × Section F) × Map Str Colour => ∀ l ∈ drawn r.1.2, Named l) (parseSection t m) := by
  unfold parseSection
  split
  · exact Post.bind Post.any fun _ _ => Post.pure (by simp [drawn])
  all_goals first
    | exact drawings_post h m _ _ fun _ => rfl
    | exact airways_post h m _ _ fun _ => rfl
    | exact others_post _ _ m _ _ fun _ => rfl
    | exact Post.pure (by simp [drawn])

theorem sections_named {ts : List (Tree Rule)} (h : ∀ t ∈ ts, All FixName t) : ∀ m : Map Str Colour,
    Post (fun r : List (SectionName × Section F) × Map Str Colour => ∀ s ∈ r.1, ∀ l ∈ drawn s.2, Named l) (parseSections m ts) := by
  induction ts with
  | nil => intro m; exact Post.pure (by simp)
  | cons t ts ih =>
    intro m
    have ih := ih fun t ht => h t (List.mem_cons_of_mem _ ht)
    unfold parseSections
    split
    · exact Post.bind Post.any fun m _ => ih m
    · refine Post.bind (section_named (h t List.mem_cons_self) m) fun a ha => Post.bind (ih _) fun b hb => Post.pure ?_
      intro s hs
      rcases List.mem_cons.1 hs with rfl | hs
      · exact ha
      · exact hb s hs

/-- All fixes that lines and airways of a sector file refer to have names with ASCII digits only. -/
theorem parse_named (content : Str) (sct : Parse.Sct.Sct F) (h : Parse.Sct.parse content = .ok sct) :
    ∀ d, Loc.fix d ∈ Spec.SctItems.locations sct → OnlyAsciiDigits d := by
  have key : Post (fun sct : Parse.Sct.Sct F => ∀ l ∈ Spec.SctItems.locations sct, Named l) (Parse.Sct.parse content) := by
    rcases run_tok Peg.Sct.sct rfl (sk := skip) (skipBoth_ok rfl rfl) rfl rfl content with h | ⟨kids, h, ho⟩
    · unfold Parse.Sct.parse
      rw [h]
      exact Post.error
    · unfold Parse.Sct.parse
      rw [h]
      show Post _ (parseSections [] kids >>= fun r => .ok (assemble (Map.ofList r.1) r.2))
      refine Post.bind (sections_named (out_all _ _ _ _ _ makes_sct.2 ho) []) fun r hr => Post.pure ?_
      intro l hl
      unfold Spec.SctItems.locations at hl
      have hm : ∀ {k s}, (Map.ofList r.1).get? k = some s → ∀ l ∈ drawn s, Named l :=
        fun hk => hr _ (Adaptation.mem_of_get?_ofList hk)
      simp only [List.flatMap_append, List.map_append, List.mem_append, assemble] at hl
      rcases hl with (((((hl | hl) | hl) | hl) | hl) | hl) | (hl | hl) <;>
      · split at hl
        · next hk => exact hm hk l hl
        · simp at hl
  intro d hd
  exact key sct h _ hd d rfl

end Verif.Proofs.Sct
