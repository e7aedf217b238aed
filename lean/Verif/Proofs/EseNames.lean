import Verif.Proofs.Post
import Verif.Proofs.EsePanic
import Verif.Spec.Locations
/-!
# The waypoints of the procedures of an extended sector file
-/

namespace Verif.Proofs.Ese
open Verif.Proofs Verif.Peg Verif.Spec Verif.Parse.Ese Verif.Parse
open Verif.Peg.Ese (Rule skip)
open Verif.Locations.Spec (OnlyAsciiDigits)
open Verif.Dms (DmsArith)
open Verif.Locations (SidStar)

set_option linter.unusedSectionVars false

variable [UnicodeTables]

/-- The tokens inside the parts of a procedure have ASCII digits only. -/
def Waypoints (t : Tree Rule) : Prop := t.asRule = .sid ∨ t.asRule = .star → ∀ k ∈ t.inner, ∀ d ∈ k.inner, OnlyAsciiDigits d.asStr

theorem ascii_only {s : Str} (h : ∀ c ∈ s, c.toNat < 128) : OnlyAsciiDigits s := by
  intro c hc hd
  rw [UnicodeTables.decimal_ascii c (h c hc)] at hd
  exact hd

theorem designator_ascii {t : Tree Rule} (h : Tok skip K Peg.Ese.designator .nonAtomic t) : OnlyAsciiDigits t.asStr ∧ t.inner = [] := by
  obtain ⟨s, r, kids, rfl, ho⟩ := tok_rule rfl h
  have := out_plus_of (P := fun c => c.toNat < 128) (by simp [inside]) (fun s r ts h => by
    rcases h with ⟨c, rfl, hc, rfl⟩ | ⟨⟨c, rfl, hc, rfl⟩ | ⟨⟨rfl, rfl⟩, _⟩, _⟩
    · simp [isAsciiUpper] at hc ⊢; omega
    · simp [isAsciiDigit] at hc ⊢; omega
    · simp) ho
  exact ⟨ascii_only this.2.2, this.1⟩

theorem leaf {e : Rule} {x : Expr Rule} {t : Tree Rule} {ty : Ty} (ha : emits ty .nonAtomic = true) (hm : mute x (inside ty .nonAtomic) = true)
    (h : Tok skip K (.rule e ty x) .nonAtomic t) : t.inner = [] := by
  obtain ⟨s, kids, rfl, hk⟩ := tok_kids ha h
  exact kids_mute _ _ _ hm hk

theorem route_ascii {t : Tree Rule} (h : Tok skip K Peg.Ese.route .nonAtomic t) : ∀ d ∈ t.inner, OnlyAsciiDigits d.asStr := by
  obtain ⟨s, kids, rfl, hk⟩ := tok_kids rfl h
  refine kids_star_all hk ?_
  rintro k ⟨t, ht, rfl⟩ d hd
  rw [List.mem_singleton.1 hd]
  exact (designator_ascii ht).1

theorem procedure_ascii {w : Str} {kids : List (Tree Rule)} (h : Kids skip K ((.str w) ⬝ Peg.Ese.designator ⬝ (.str c!":") ⬝
      (Peg.Ese.runway_designator ∥ Peg.Ese.none) ⬝ (.str c!":") ⬝ Peg.Ese.colon_delimited_text ⬝ (.str c!":") ⬝ Peg.Ese.route) .nonAtomic kids) :
    ∀ k ∈ kids, ∀ d ∈ k.inner, OnlyAsciiDigits d.asStr := by
  obtain ⟨_, rfl, _, ⟨_, ⟨t1, h1, rfl⟩, _, ⟨_, rfl, _, ⟨k2, h2, _, ⟨_, rfl, _, ⟨_, ⟨t3, h3, rfl⟩, _, ⟨_, rfl, _, ⟨t4, h4, rfl⟩, rfl⟩, rfl⟩, rfl⟩, rfl⟩, rfl⟩, rfl⟩, rfl⟩ := h
  have h1 := (designator_ascii h1).2
  have h3 := leaf rfl rfl h3
  have h4 := route_ascii h4
  have h2 : ∀ k ∈ k2, k.inner = [] := by
    rcases h2 with ⟨t, h, rfl⟩ | ⟨t, h, rfl⟩ <;>
    · intro k hk
      rw [List.mem_singleton.1 hk]
      exact leaf rfl rfl h
  intro k hk d hd
  simp only [List.nil_append, List.mem_append, List.mem_singleton, List.mem_cons, List.not_mem_nil, or_false] at hk
  rcases hk with rfl | hk | rfl | rfl
  · rw [h1] at hd; cases hd
  · rw [h2 k hk] at hd; cases hd
  · rw [h3] at hd; cases hd
  · exact h4 d hd

theorem named_of_ne {e : Rule} {s : Str} {kids : List (Tree Rule)} (h1 : e ≠ .sid) (h2 : e ≠ .star) : Waypoints (.node e s kids) :=
  fun h' => by rcases h' with h' | h' <;> first | exact absurd h' h1 | exact absurd h' h2

set_option linter.unusedSimpArgs false in
theorem makes_sid : Makes skip K Waypoints Peg.Ese.sid .nonAtomic := by
  refine ⟨fun s r kids h _ => procedure_ascii (out_kids _ _ _ _ _ h), ?_⟩
  simp [Makes, named_of_ne, Expr.plus, Expr.any, Expr.newline, Peg.Ese.designator, Peg.Ese.runway_designator, Peg.Base.runway_designator,
    Peg.Ese.none, Peg.Ese.colon_delimited_text, Peg.Base.colon_delimited_text, Peg.Ese.route, Peg.Ese.NL, Peg.Base.NL]

set_option linter.unusedSimpArgs false in
theorem makes_star : Makes skip K Waypoints Peg.Ese.star .nonAtomic := by
  refine ⟨fun s r kids h _ => procedure_ascii (out_kids _ _ _ _ _ h), ?_⟩
  simp [Makes, named_of_ne, Expr.plus, Expr.any, Expr.newline, Peg.Ese.designator, Peg.Ese.runway_designator, Peg.Base.runway_designator,
    Peg.Ese.none, Peg.Ese.colon_delimited_text, Peg.Base.colon_delimited_text, Peg.Ese.route, Peg.Ese.NL, Peg.Base.NL]

set_option linter.unusedSimpArgs false in
theorem makes_ese : Makes skip K Waypoints Peg.Ese.ese .nonAtomic := by
  simp [Makes, named_of_ne, makes_sid, makes_star, Expr.plus, Expr.any, Expr.newline, Peg.Base.NL,
    Peg.Base.decimal, Peg.Base.integer, Peg.Base.pos_integer, Peg.Base.deg, Peg.Base.min, Peg.Base.hemi,
    Peg.Base.direction, Peg.Base.runway_designator, Peg.Base.colon_delimited_text,
    Peg.Base.comma_delimited_text, Peg.Base.backslash_delimited_text, Peg.Base.quote_delimited_text,
    Peg.Base.tab_delimited_text, Peg.Ese.WHITESPACE, Peg.Ese.COMMENT, Peg.Ese.NL, Peg.Ese.decimal,
    Peg.Ese.deg, Peg.Ese.min, Peg.Ese.sec, Peg.Ese.hemi, Peg.Ese.sct_coord_part, Peg.Ese.coord_part,
    Peg.Ese.coordinate, Peg.Ese.colon_delimited_text, Peg.Ese.integer, Peg.Ese.squawk_range,
    Peg.Ese.frequency, Peg.Ese.position, Peg.Ese.position_section, Peg.Ese.wildcard, Peg.Ese.prev,
    Peg.Ese.designator, Peg.Ese.dep_rwy, Peg.Ese.after, Peg.Ese.arr_rwy, Peg.Ese.cop_def, Peg.Ese.sctx,
    Peg.Ese.sctn, Peg.Ese.alt_clb, Peg.Ese.alt_des, Peg.Ese.cop_description, Peg.Ese.cop, Peg.Ese.fir_cop,
    Peg.Ese.display, Peg.Ese.coord, Peg.Ese.sectorline, Peg.Ese.fix_designator, Peg.Ese.circle_sectorline,
    Peg.Ese.display_sectorline, Peg.Ese.owner, Peg.Ese.altowner, Peg.Ese.border, Peg.Ese.sct, Peg.Ese.adep,
    Peg.Ese.ades, Peg.Ese.guest, Peg.Ese.active, Peg.Ese.depapt, Peg.Ese.arrapt, Peg.Ese.sector_subsettings,
    Peg.Ese.sector, Peg.Ese.msaw, Peg.Ese.airspace_section, Peg.Ese.runway_designator, Peg.Ese.route,
    Peg.Ese.none, Peg.Ese.sidsstars_section, Peg.Ese.broken, Peg.Ese.line, Peg.Ese.header_name,
    Peg.Ese.section_header, Peg.Ese.unparsed_section, Peg.Ese.section_, Peg.Ese.ese]

/-! ## The procedures that are read -/

/-- The waypoints have ASCII digits only. -/
def Ascii : SidStar → Prop
  | .sid s | .star s => ∀ w ∈ s.waypoints, OnlyAsciiDigits w

theorem nextStr_sub {ts : List (Tree Rule)} : Post (fun p => ∀ t ∈ p.2, t ∈ ts) (nextStr ts) := by
  cases ts with
  | nil => exact Post.error
  | cons t ts => exact Post.pure fun u hu => List.mem_cons_of_mem _ hu

theorem next_sub {ts : List (Tree Rule)} : Post (fun p => p.1 ∈ ts ∧ ∀ t ∈ p.2, t ∈ ts) (Peg.next ts) := by
  cases ts with
  | nil => exact Post.error
  | cons t ts => exact Post.pure ⟨List.mem_cons_self, fun u hu => List.mem_cons_of_mem _ hu⟩

theorem sidStar_ascii {t : Tree Rule} (h : Waypoints t) : Post Ascii (parseSidStar t) := by
  unfold parseSidStar
  refine Post.bind nextStr_sub fun a ha => ?_
  refine Post.bind next_sub fun b hb => ?_
  have key : ∀ rw : Option Str, Post Ascii (do
      let (name, sidStar) ← nextStr b.2
      let (route, _) ← next sidStar
      let waypoints := route.inner.map Tree.asStr
      match t.asRule with
      | .sid => return SidStar.sid { name, airport := a.1, runway := rw, waypoints }
      | .star => return SidStar.star { name, airport := a.1, runway := rw, waypoints }
      | _ => .error .panic) := by
    intro rw
    refine Post.bind nextStr_sub ?_
    rintro ⟨name, ts⟩ hc
    refine Post.bind next_sub ?_
    rintro ⟨route, rest⟩ hd
    have hin : route ∈ t.inner := ha _ (hb.2 _ (hc _ hd.1))
    dsimp only
    split
    · next he =>
      refine Post.pure ?_
      intro w hw
      obtain ⟨k, hk, rfl⟩ := List.mem_map.1 hw
      exact h (Or.inl he) _ hin k hk
    · next he =>
      refine Post.pure ?_
      intro w hw
      obtain ⟨k, hk, rfl⟩ := List.mem_map.1 hw
      exact h (Or.inr he) _ hin k hk
    · exact Post.error
  obtain ⟨runwayPair, ts⟩ := b
  dsimp only
  split
  · exact key _
  · exact key _
  · exact Post.error

variable {F : Type} [F64 F] [DmsArith F] {G : Type} [F64 G]

/-- All waypoints of procedures have names with ASCII digits only. -/
theorem parse_ascii (content : Str) : Post (fun e : Ese F => ∀ s ∈ e.sidsStars, Ascii s) (Parse.Ese.parse (F := F) G content) := by
  rcases run_tok Peg.Ese.ese rfl (sk := skip) (skipBoth_ok rfl rfl) rfl rfl content with h | ⟨kids, h, ho⟩
  · unfold Parse.Ese.parse
    rw [h]
    exact Post.error
  · unfold Parse.Ese.parse
    rw [h]
    show Post _ (kids.mapM (parseSection (F := F) G) >>= fun r => .ok (assemble (Map.ofList r)))
    refine Post.bind (P := fun l => ∀ s ∈ l, ∀ x, s.2 = Section.sidsStars x → ∀ y ∈ x, Ascii y) ?_ fun r hr => Post.pure ?_
    · refine Post.mapM fun t ht => ?_
      have ht := out_all _ _ _ _ _ makes_ese.2 ho t ht
      unfold parseSection
      split
      · exact Post.bind Post.any fun _ _ => Post.pure (by intro x hx; cases hx)
      · exact Post.bind Post.any fun _ _ => Post.pure (by intro x hx; cases hx)
      · refine Post.bind (Post.mapM fun k hk => sidStar_ascii (ht.inner k hk).here) fun l hl => Post.pure ?_
        intro x hx
        cases hx
        exact hl
      · exact Post.pure (by intro x hx; cases hx)
    · intro s hs
      simp only [assemble] at hs
      split at hs
      · next hk => exact hr _ (Adaptation.mem_of_get?_ofList hk) _ rfl s hs
      · cases hs

end Verif.Proofs.Ese
