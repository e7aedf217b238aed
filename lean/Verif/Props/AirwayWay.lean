import Verif.Proofs.AirwayWay
import Verif.Props.AirwayGraph
/-!
# Property theorems: exactly when, and over which fixes, expansion of an airway succeeds (C108)

`allFixes`, `neighbours`, `firstOn`, `startOf` and `Way` are defined in `Verif/Spec/AirwayWay.lean` from the inserted segments alone.
-/

namespace Verif.AirwayGraph
set_option linter.unusedSectionVars false
open Spec
variable {P : Type} [Quantize P]

/-- C108: the vocabulary: `neighbours` lists exactly the adjacent fixes, each once, and `allFixes` the known ones. -/
theorem C108_neighbours (segs : List (Segment P)) (w : Str) (a : Key) :
    (neighbours segs w a).Nodup ∧ (∀ b, b ∈ neighbours segs w a ↔ Adjacent segs w a b) ∧
    (allFixes segs).Nodup ∧ (∀ k, k ∈ allFixes segs ↔ Known segs k) := by
  refine ⟨nodup_firsts _, fun b => mem_neighbours .., nodup_firsts _, fun k => ?_⟩
  rw [mem_allFixes]
  constructor
  · rintro ⟨s, hs, h | h⟩
    · exact ⟨s.airway, dst s, s, hs, Or.inl ⟨rfl, h, rfl⟩⟩
    · exact ⟨s.airway, src s, s, hs, Or.inr ⟨rfl, rfl, h⟩⟩
  · rintro ⟨w, b, s, hs, h | h⟩
    · exact ⟨s, hs, Or.inl h.2.1⟩
    · exact ⟨s, hs, Or.inr h.2.2⟩

/-- C108: there is at most one way on. -/
theorem C108_way_unique (segs : List (Segment P)) (w : Str) (z a b : Key) (p q : List Key) (h : Way segs w z a b p)
    (h' : Way segs w z a b q) : p = q := way_unique h h'

/-- C108: expansion returns the fixes `p` if and only if: the start and the end are found on the airway (as `startOf` and
`firstOn` say), the start has at most two neighbours there, and `p` is the way from the start to the end over the first of
these neighbours from which there is one that is no longer than the number of all fixes. -/
theorem C108_expand_iff (segs : List (Segment P)) (g : Graph P) (h : build segs = .ok g) (start : Fix P) (endName w : Str)
    (isInternal : Str → P → Bool) (p : List Key) :
    (∃ out, g.expand start endName w isInternal = .ok (some out) ∧ out.map (fun x => keyOf x.1) = p) ↔
    ∃ a z l₁ b l₂, startOf segs w start = some a ∧ firstOn segs w endName = some z ∧
      neighbours segs w a = l₁ ++ b :: l₂ ∧ (neighbours segs w a).length ≤ 2 ∧
      Way segs w z a b p ∧ p.length ≤ (allFixes segs).length ∧
      ∀ y ∈ l₁, ∀ q, Way segs w z a y q → (allFixes segs).length < q.length := by
  have R := build_rel h
  have o := build_ord h
  rw [allFixes_length o R]
  unfold Graph.expand
  cases haw : g.airwayIdByName.get? w with
  | none =>
    simp only
    have hno : ∀ k, neighbours segs w k = [] := fun k => by rw [← nbs_eq]; exact nbs_of_no_airway R haw k
    constructor
    · rintro ⟨out, h1, _⟩; cases h1
    · rintro ⟨a, z, l₁, b, l₂, _, _, h3, _⟩
      rw [hno] at h3
      cases l₁ <;> cases h3
  | some awy =>
    have hw := (Inv.awy R w awy).1 haw
    simp only
    rcases resolveStart_startOf R o hw start with ⟨i, a, h1, h2, h3, h4⟩ | ⟨i, a, h1, h2, h3, h4⟩ | ⟨h1, h4⟩
    · rw [h1, h4]
      simp only [run_ok_bind]
      obtain ⟨f, hf, _, _⟩ := id h2
      have hon : g.isFixIdOnAirway i awy = .ok (f.edges.contains awy) := by
        simp [Graph.isFixIdOnAirway, Graph.fixAt, hf]
      have hc : f.edges.contains awy = true := (contains_iff R hf).2 ((onAirway_iff R hw h2).1 h3)
      rw [hon]
      simp only [run_ok_bind, hc, Bool.not_true, Bool.false_eq_true, if_false]
      rcases findFixOnAirway_firstOn R o hw endName with ⟨j, z, h5, h6, h7, h8⟩ | ⟨h5, h6⟩
      · rw [h5, h7]
        simp only [run_ok_bind, Graph.fixAt, hf, unwrap_some]
        have hall := o.edges i f awy w a hf hw h2
        rw [nbs_eq] at hall
        cases hes : f.edges.get? awy with
        | none => simp [Map.contains, hes] at hc
        | some es =>
          rw [hes] at hall
          simp only [Option.getD_some] at hall
          have hlen : es.length = (neighbours segs w a).length := by
            have : ∀ (is : List Nat) (ks : List Key), AllNodes g is ks → is.length = ks.length := by
              intro is
              induction is with
              | nil => intro ks hk; cases ks with
                | nil => rfl
                | cons => exact hk.elim
              | cons x is ihs => intro ks hk; cases ks with
                | nil => exact hk.elim
                | cons y ks => simp [ihs ks hk.2]
            simpa using this _ _ hall
          have hT := tryEdges_way R isInternal hw h2 h6 p es _ (fun e he => ⟨f, es, hf, hes, he⟩) hall
          simp only
          by_cases hl : es.length > 2
          · simp only [hl, if_true]
            constructor
            · rintro ⟨out, h9, _⟩; cases h9
            · rintro ⟨a', z', l₁, b, l₂, h9, _, _, h10, _⟩
              cases h9; omega
          · simp only [hl, if_false]
            rw [hT]
            constructor
            · rintro ⟨l₁, b, l₂, h9, h10, h11, h12⟩
              exact ⟨a, z, l₁, b, l₂, rfl, rfl, h9, by omega, h10, h11, h12⟩
            · rintro ⟨a', z', l₁, b, l₂, h9, h9', h9'', _, h10, h11, h12⟩
              cases h9; cases h9'
              exact ⟨l₁, b, l₂, h9'', h10, h11, h12⟩
      · rw [h5, h6]
        constructor
        · rintro ⟨out, h9, _⟩; cases h9
        · rintro ⟨a', z', l₁, b, l₂, _, h9, _⟩; cases h9
    · rw [h1, h4]
      simp only [run_ok_bind]
      obtain ⟨f, hf, _, _⟩ := id h2
      have hon : g.isFixIdOnAirway i awy = .ok (f.edges.contains awy) := by
        simp [Graph.isFixIdOnAirway, Graph.fixAt, hf]
      have hc : f.edges.contains awy = false := by
        cases hb : f.edges.contains awy with
        | false => rfl
        | true => exact absurd ((onAirway_iff R hw h2).2 ((contains_iff R hf).1 hb)) h3
      rw [hon]
      simp only [run_ok_bind, hc, Bool.not_false, if_true]
      constructor
      · rintro ⟨out, h9, _⟩; cases h9
      · rintro ⟨a', z', l₁, b, l₂, h9, _⟩; cases h9
    · rw [h1, h4]
      constructor
      · rintro ⟨out, h9, _⟩; cases h9
      · rintro ⟨a', z', l₁, b, l₂, h9, _⟩; cases h9

/-- C108: if no segment of the airway leads from a fix to itself, a way visits no fix twice, and is always short enough. -/
theorem C108_way_nodup (segs : List (Segment P)) (w : Str) (irr : ∀ s ∈ segs, s.airway = w → src s ≠ dst s) (z a b : Key)
    (p : List Key) (h : Way segs w z a b p) : p.Nodup ∧ (Adjacent segs w a b → p.length ≤ (allFixes segs).length) := by
  have irr' : ∀ x, ¬ Adjacent segs w x x := by
    rintro x ⟨s, hs, h1 | h1⟩ <;> exact irr s hs h1.1 (h1.2.1.trans h1.2.2.symm)
  exact ⟨way_nodup irr' h, way_length irr' h⟩

/-- C108: so, if no segment of the airway leads from a fix to itself, expansion returns `p` if and only if `p` is the way to
the end over the first neighbour of the start from which there is one. -/
theorem C108_expand_iff_way (segs : List (Segment P)) (g : Graph P) (h : build segs = .ok g) (start : Fix P) (endName w : Str)
    (isInternal : Str → P → Bool) (irr : ∀ s ∈ segs, s.airway = w → src s ≠ dst s) (p : List Key) :
    (∃ out, g.expand start endName w isInternal = .ok (some out) ∧ out.map (fun x => keyOf x.1) = p) ↔
    ∃ a z l₁ b l₂, startOf segs w start = some a ∧ firstOn segs w endName = some z ∧
      neighbours segs w a = l₁ ++ b :: l₂ ∧ (neighbours segs w a).length ≤ 2 ∧
      Way segs w z a b p ∧ ∀ y ∈ l₁, ¬ ∃ q, Way segs w z a y q := by
  rw [C108_expand_iff segs g h]
  constructor
  · rintro ⟨a, z, l₁, b, l₂, h1, h2, h3, h4, h5, h6, h7⟩
    refine ⟨a, z, l₁, b, l₂, h1, h2, h3, h4, h5, ?_⟩
    rintro y hy ⟨q, hq⟩
    have h8 := h7 y hy q hq
    have h9 := (C108_way_nodup segs w irr z a y q hq).2 ((mem_neighbours ..).1 (by rw [h3]; simp [hy]))
    omega
  · rintro ⟨a, z, l₁, b, l₂, h1, h2, h3, h4, h5, h7⟩
    refine ⟨a, z, l₁, b, l₂, h1, h2, h3, h4, h5, ?_, fun y hy q hq => absurd ⟨q, hq⟩ (h7 y hy)⟩
    exact (C108_way_nodup segs w irr z a b p h5).2 ((mem_neighbours ..).1 (by rw [h3]; simp))

/-- C108: a route is always found if there is a way from the start to the end over any neighbour of the start. -/
theorem C108_found_of_way (segs : List (Segment P)) (g : Graph P) (h : build segs = .ok g) (start : Fix P) (endName w : Str)
    (isInternal : Str → P → Bool) (irr : ∀ s ∈ segs, s.airway = w → src s ≠ dst s) (a z b : Key) (p : List Key)
    (ha : startOf segs w start = some a) (hz : firstOn segs w endName = some z) (hb : Adjacent segs w a b)
    (hn : (neighbours segs w a).length ≤ 2) (hw : Way segs w z a b p) :
    ∃ out, g.expand start endName w isInternal = .ok (some out) := by
  obtain ⟨l₁, l₂, hl⟩ := List.append_of_mem ((mem_neighbours segs w a b).2 hb)
  by_cases hq : ∃ y ∈ l₁, ∃ q, Way segs w z a y q
  · -- at most one neighbour comes before `b`
    obtain ⟨y, hy, q, hq⟩ := hq
    have : l₁ = [y] := by
      rw [hl] at hn
      match l₁, hy with
      | [x], hy => simp at hy; rw [hy]
      | _ :: _ :: _, _ => simp at hn
    subst this
    obtain ⟨out, h1, _⟩ := (C108_expand_iff_way segs g h start endName w isInternal irr q).2
      ⟨a, z, [], y, b :: l₂, ha, hz, by simpa using hl, hn, hq, by simp⟩
    exact ⟨out, h1⟩
  · obtain ⟨out, h1, _⟩ := (C108_expand_iff_way segs g h start endName w isInternal irr p).2
      ⟨a, z, l₁, b, l₂, ha, hz, hl, hn, hw, fun y hy hq' => hq ⟨y, hy, hq'⟩⟩
    exact ⟨out, h1⟩

/-! ### Concrete cases -/

section Examples

local instance : Quantize (Int × Int) := ⟨id⟩

private def seg (w a b : Str) : Segment (Int × Int) := ⟨w, a, (0, 0), ⟨⟨b, (0, 0)⟩, true, none⟩, .both⟩
private def key (a : Str) : Key := (a, (0, 0))

/-- `A - B - C` with `C` joined to `D` and `E`: a fork. -/
private def fork : List (Segment (Int × Int)) :=
  [seg c!"L1" c!"B" c!"C", seg c!"L1" c!"A" c!"B", seg c!"L1" c!"C" c!"D", seg c!"L1" c!"C" c!"E"]

private def names (segs : List (Segment (Int × Int))) (start stop : Str) : Run (Option (List Str)) := do
  let g ← build segs
  let r ← g.expand ⟨start, (0, 0)⟩ stop c!"L1" (fun _ _ => false)
  Except.ok (r.map (·.map fun x => (keyOf x.1).1))

/-- The hypotheses are met: a way from `A` over `B` to the fork. -/
example : startOf fork c!"L1" ⟨c!"A", (0, 0)⟩ = some (key c!"A") ∧ firstOn fork c!"L1" c!"C" = some (key c!"C") ∧
    neighbours fork c!"L1" (key c!"A") = [key c!"B"] ∧ neighbours fork c!"L1" (key c!"C") = [key c!"B", key c!"D", key c!"E"] := by
  decide
example : Way fork c!"L1" (key c!"C") (key c!"A") (key c!"B") [key c!"B", key c!"C"] := by
  refine .go (c := key c!"C") (by decide) (by decide) ?_ (.arrive _)
  intro x
  rw [← mem_neighbours]
  have : neighbours fork c!"L1" (key c!"B") = [key c!"C", key c!"A"] := by decide
  rw [this]
  simp [or_comm]
example : ∀ s ∈ fork, s.airway = c!"L1" → src s ≠ dst s := by decide

/-- C108: expansion is not symmetric: it goes to a fork, but neither from nor past it. -/
theorem C108_not_symmetric : names fork c!"A" c!"C" = .ok (some [c!"B", c!"C"]) ∧ names fork c!"C" c!"A" = .ok none ∧
    names fork c!"A" c!"D" = .ok none := by decide +kernel

/-- On a ring, the direction is that of the segment that was inserted first. -/
private def ring (first second : Segment (Int × Int)) : List (Segment (Int × Int)) :=
  [first, second, seg c!"L1" c!"B" c!"C", seg c!"L1" c!"C" c!"D"]

/-- C108: on a ring there are two ways, and the order in which segments were inserted decides between them. -/
theorem C108_order_matters :
    names (ring (seg c!"L1" c!"A" c!"B") (seg c!"L1" c!"A" c!"D")) c!"A" c!"D" = .ok (some [c!"B", c!"C", c!"D"]) ∧
    names (ring (seg c!"L1" c!"A" c!"D") (seg c!"L1" c!"A" c!"B")) c!"A" c!"D" = .ok (some [c!"D"]) := by decide +kernel

/-- `C` is joined to itself. -/
private def loop : List (Segment (Int × Int)) :=
  [seg c!"L1" c!"A" c!"B", seg c!"L1" c!"B" c!"C", seg c!"L1" c!"C" c!"C", seg c!"L1" c!"A" c!"D"]

/-- C108: without the hypothesis on segments from a fix to itself, a route can turn round at such a fix, and then the segments
of other airways decide which route is returned. -/
theorem C108_loop_turns_round :
    names loop c!"A" c!"D" = .ok (some [c!"D"]) ∧
    names (loop ++ [seg c!"L2" c!"E" c!"F"]) c!"A" c!"D" = .ok (some [c!"B", c!"C", c!"C", c!"B", c!"A", c!"D"]) := by decide +kernel

end Examples

end Verif.AirwayGraph
