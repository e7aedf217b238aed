import Verif.Proofs.InOrder
import Verif.Props.Joined
/-!
# C114 for airway files
-/

namespace Verif.Props
open Verif.Parse (Point)
open Verif.Spec (InOrder)
open Verif.Parse.Airway Verif.AirwayGraph Verif.AirwayGraph.Spec Verif.Spec.Airway
variable {F : Type} [F64 F] [Quantize (Point F)]

theorem airway_line_text {content : Str} {ws : List Line} (h : IsFile content ws) : ∀ w ∈ ws, ∃ s, s <:+: content ∧ IsLine w s := by
  induction h with
  | last => intro w hw; cases hw
  | blank b nl t ws _ _ _ ih =>
    intro d hd
    obtain ⟨s, hs, hl⟩ := ih d hd
    exact ⟨s, hs.trans ⟨b ++ nl, [], by simp⟩, hl⟩
  | line w t nl rest ws h _ _ ih =>
    intro d hd
    rcases List.mem_cons.1 hd with rfl | hd
    · exact ⟨t, ⟨[], nl ++ rest, by simp⟩, h⟩
    · obtain ⟨s, hs, hl⟩ := ih d hd
      exact ⟨s, hs.trans ⟨t ++ nl, [], by simp⟩, hl⟩

theorem airway_nb_inOrder {n : Nb} {t : Str} (h : IsNb (some n) t) : InOrder [n.designator, n.lat, n.lng] t := by
  obtain ⟨_, _, _, _, _, rfl⟩ := h
  exact .cons ['\t'] _ _ _ (.cons ['\t'] _ _ _ (.cons ['\t'] _ _ _ (.nil _)))

/-- The quantised position for two numbers as they are written -/
def WrittenAt (lat lng : Str) (k : Key) : Prop :=
  ∃ x y : F, F64.ofText lat = some y ∧ F64.ofText lng = some x ∧ k.2 = quantize (⟨x, y⟩ : Point F)

/-- **C114, airway files.** Whatever leg the airways have: the designator of one of its ends, the name of the airway and the designator
of the other end stand in the file, in this order, each end with the two numbers of its position behind it. -/
theorem C114_airway (num : Str → F) (hnum : ∀ s, Verif.Spec.Isec.IsCoord s → F64.ofText s = some (num s)) {content : Str}
    {g : Graph (Point F)} (h : parseAirwayTxt content = .ok g) {w : Str} {a b : Key} {e : AirwayEdge} (he : HasEdge g w a b e) :
    ∃ c d lat lng lat' lng', ((c, d) = (a, b) ∨ (c, d) = (b, a)) ∧ InOrder [c.1, lat, lng, w, d.1, lat', lng'] content ∧
      WrittenAt (F := F) lat lng c ∧ WrittenAt (F := F) lat' lng' d := by
  obtain ⟨ws, _, hf, _, hb⟩ := airway_lines num hnum h
  obtain ⟨x, hx, hj⟩ := (C10_edge_iff _ g hb w a b).1 ⟨e, he⟩
  obtain ⟨l, hl, hx⟩ := List.mem_flatMap.1 hx
  obtain ⟨s, hs, n1, n2, cm, _, c1, c2, _, _, h1, h2, _, rfl⟩ := airway_line_text hf l hl
  have line : ∀ {n : Nb} {t : Str}, InOrder [n.designator, n.lat, n.lng] t →
      InOrder [l.fix, l.lat, l.lng, l.airway, n.designator, n.lat, n.lng] (l.fix ++ '\t' :: (l.lat ++ '\t' :: (l.lng ++ '\t' :: '1' :: '4' ::
        '\t' :: (l.airway ++ '\t' :: (l.type ++ t))))) := fun ho =>
    .cons [] _ _ _ (.cons ['\t'] _ _ _ (.cons ['\t'] _ _ _ (.cons ['\t', '1', '4', '\t'] _ _ _ ((ho.pad l.type).pad ['\t']))))
  have key : ∃ n : Nb, x = segment (point num) l n ∧ Verif.Spec.Isec.IsCoord n.lat ∧ Verif.Spec.Isec.IsCoord n.lng ∧
      InOrder [l.fix, l.lat, l.lng, l.airway, n.designator, n.lat, n.lng] content := by
    rcases List.mem_append.1 hx with hx | hx
    · cases hn : l.nb1 with
      | none => simp [hn] at hx
      | some n =>
        rw [hn] at h1 hx
        exact ⟨n, by simpa using hx, h1.2.1, h1.2.2.1, (line ((airway_nb_inOrder h1).left _)).of_infix hs⟩
    · cases hn : l.nb2 with
      | none => simp [hn] at hx
      | some n =>
        rw [hn] at h2 hx
        exact ⟨n, by simpa using hx, h2.2.1, h2.2.2.1, (line (((airway_nb_inOrder h2).left _).pad _)).of_infix hs⟩
  obtain ⟨n, rfl, d1, d2, ho⟩ := key
  have k1 : WrittenAt (F := F) l.lat l.lng (src (segment (point num) l n)) := ⟨_, _, hnum _ c1, hnum _ c2, rfl⟩
  have k2 : WrittenAt (F := F) n.lat n.lng (dst (segment (point num) l n)) := ⟨_, _, hnum _ d1, hnum _ d2, rfl⟩
  rcases hj with ⟨rfl, rfl, rfl⟩ | ⟨rfl, rfl, rfl⟩
  · exact ⟨_, _, _, _, _, _, Or.inl rfl, ho, k1, k2⟩
  · exact ⟨_, _, _, _, _, _, Or.inr rfl, ho, k1, k2⟩

section Examples
attribute [local instance] textF64a
local instance originQuantize : Quantize (Point Str) := ⟨fun p => (p.x.length, p.y.length)⟩

/-- An accepted file with a leg -/
example : ∃ (g : Graph (Point Str)) (e : AirwayEdge), parseAirwayTxt (airwayExample c!"100") = .ok g ∧
    HasEdge g c!"L603" (c!"RODIX", (5, 4)) (c!"ASPAT", (4, 4)) e := by
  obtain ⟨g, h, hb⟩ := C08_airway_ok (F := Str) id (fun _ _ => rfl) _ _ (airwayExample_isFile (level := c!"100") (by decide)) (by simp) (by
    intro w hw n hn l hl
    rw [List.mem_singleton.1 hw] at hn
    rcases hn with hn | hn
    · cases hn
      revert hl
      decide +revert
    · cases hn)
  obtain ⟨e, he⟩ := (C10_edge_iff _ g hb c!"L603" (c!"RODIX", (5, 4)) (c!"ASPAT", (4, 4))).2
    ⟨_, List.mem_flatMap.2 ⟨_, List.mem_singleton.2 rfl, List.mem_append_left _ (List.mem_singleton.2 rfl)⟩, Or.inr ⟨rfl, rfl, rfl⟩⟩
  exact ⟨g, e, h, he⟩
end Examples
end Verif.Props
