import Verif.Proofs.InOrder
import Verif.Props.Isec
import Verif.Props.Prf
/-!
# C114 for profiles and waypoint files
-/

namespace Verif.Props
open Verif.Spec (InOrder)

section Prf
open Verif.Parse.Prf Verif.Spec.Prf
variable [UnicodeTables]

theorem prf_on_line {content : Str} {ws : List Setting} (h : IsFile content ws) : ∀ w ∈ ws, ∃ s, s <:+: content ∧ IsLine w s := by
  induction h with
  | last => intro w hw; cases hw
  | lastLine w t h =>
    intro d hd
    rw [List.mem_singleton] at hd
    subst hd
    exact ⟨t, List.infix_refl _, h⟩
  | blank b t ws _ _ ih =>
    intro d hd
    obtain ⟨s, hs, hl⟩ := ih d hd
    exact ⟨s, hs.trans ⟨b ++ ['\n'], [], by simp⟩, hl⟩
  | line w t rest ws h _ ih =>
    intro d hd
    rcases List.mem_cons.1 hd with rfl | hd
    · exact ⟨t, ⟨[], '\n' :: rest, by simp⟩, h⟩
    · obtain ⟨s, hs, hl⟩ := ih d hd
      exact ⟨s, hs.trans ⟨t ++ ['\n'], [], by simp⟩, hl⟩

/-- **C114, profiles.** Category, key and value of a setting stand in the profile, in this order and on one line. -/
theorem C114_prf {content : Str} {m : Settings} (h : parsePrf content = .ok m) {c k v : Str} (hv : Map.get? m (c, k) = some v) :
    ∃ l, l <:+: content ∧ '\n' ∉ l ∧ InOrder [c, k, v] l := by
  obtain ⟨ws, hne, hf⟩ := (C07_prf_no_panic _).2.1 ⟨_, h⟩
  obtain ⟨_, e, hm⟩ := C07_prf_last_wins _ _ hf hne
  cases h.symm.trans e
  rw [hm] at hv
  obtain ⟨w, hw, rfl⟩ := Option.map_eq_some_iff.1 hv
  obtain ⟨hwm, hk⟩ := List.mem_filter.1 (List.mem_of_getLast? hw)
  obtain ⟨rfl, rfl⟩ := of_decide_eq_true hk
  obtain ⟨s, hs, b0, b1, b2, rfl, h0, h1, h2, _, hc, _, hk, _, hv, _⟩ := prf_on_line hf w hwm
  refine ⟨_, hs, ?_, ?_⟩
  · have hl : UnicodeTables.letter '\n' = false := by rw [UnicodeTables.letter_ascii _ (by decide)]; decide
    have hn : isKeyChar '\n' = false := by simp [isKeyChar, hl]; decide
    simp only [List.mem_append, not_or]
    exact ⟨⟨⟨⟨⟨fun h => absurd (h0 _ h) (by decide), fun h => by simpa [hl] using hc _ h⟩,
      fun h => absurd (h1 _ h) (by decide)⟩, fun h => by simpa [hn] using hk _ h⟩, fun h => absurd (h2 _ h) (by decide)⟩, fun h => hv _ h rfl⟩
  · exact ((((((InOrder.one _).pad b0).left b1).append (InOrder.one _)).left b2).append (InOrder.one _))
end Prf

section Isec
open Verif.Parse (Point)
open Verif.Parse.Isec Verif.Spec.Isec
variable {F : Type} [F64 F]

theorem isec_on_line {content : Str} {ws : List Wpt} (h : IsFile content ws) : ∀ w ∈ ws, ∃ s, s <:+: content ∧ IsLine w s := by
  induction h with
  | last => intro w hw; cases hw
  | blank b nl t ws _ _ _ ih =>
    intro d hd
    obtain ⟨s, hs, hl⟩ := ih d hd
    exact ⟨s, hs.trans ⟨b ++ nl, [], by simp⟩, hl⟩
  | line w t nl rest ws h _ _ ih =>
    intro d hd
    rcases List.mem_cons.1 hd with rfl | hd
    · exact ⟨t, ⟨[], nl ++ rest, by simp⟩, h⟩
    · obtain ⟨s, hs, hl⟩ := ih d hd
      exact ⟨s, hs.trans ⟨t ++ nl, [], by simp⟩, hl⟩

/-- **C114, waypoint files.** The designator of a fix and the two numbers of which its coordinate consists stand in the file, in this
order. -/
theorem C114_isec {content : Str} {m : IsecMap F} (h : parseIsecTxt content = .ok m) {d : Str} {f : AirwayGraph.Fix (Point F)}
    (hf : f ∈ MultiMap.getVec m d) :
    f.designator = d ∧ ∃ lat lng, InOrder [d, lat, lng] content ∧ F64.ofText lat = some f.coordinate.y ∧
      F64.ofText lng = some f.coordinate.x := by
  obtain ⟨ws, hne, hw⟩ := (C02_isec_no_panic (F := F) _).2.1 ⟨_, h⟩
  obtain ⟨fs, k, e⟩ := parse_complete (F := F) hw hne
  cases h.symm.trans e
  rw [lookup_collect] at hf
  obtain ⟨hm, hd⟩ := List.mem_filter.1 hf
  have hd : f.designator = d := of_decide_eq_true hd
  subst hd
  refine ⟨rfl, ?_⟩
  have : some f ∈ ws.map fixOf := k ▸ List.mem_map_of_mem hm
  obtain ⟨w, hwm, hwf⟩ := List.mem_map.1 this
  obtain ⟨s, hs, b0, b1, b2, b3, b4, rfl, _⟩ := isec_on_line hw w hwm
  have key : InOrder [w.designator, w.lat, w.lng] content := by
    refine InOrder.of_infix ?_ hs
    exact (((((((((InOrder.one _).pad b0).left b1).append (InOrder.one _)).left b2).append (InOrder.one _)).left b3).left _).left b4)
  unfold fixOf at hwf
  obtain ⟨y, hy, hwf⟩ := Option.bind_eq_some_iff.1 hwf
  obtain ⟨x, hx, rfl⟩ := Option.map_eq_some_iff.1 hwf
  exact ⟨_, _, key, hy, hx⟩
end Isec

/-! ## Examples -/

section Examples
open Verif.Parse.Prf Verif.Parse.Isec
attribute [local instance] asciiTables textF64

example : (parsePrf (c!"Settings" ++ ['\t'] ++ c!"sector" ++ ['\t'] ++ c!"\\A.sct" ++ ['\n'])).map
    (fun m => Map.get? m (c!"Settings", c!"sector")) = .ok (some c!"\\A.sct") := by decide +kernel

example : (parseIsecTxt (F := Str) (c!"ASPAT 49.196175 10.725828 15" ++ ['\n'])).map
    (fun m => (MultiMap.getVec m c!"ASPAT").map fun f => (f.coordinate.y, f.coordinate.x)) = .ok [(c!"49.196175", c!"10.725828")] := by
  decide +kernel
end Examples
end Verif.Props
