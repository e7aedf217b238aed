import Verif.Spec.Setup
import Verif.Proofs.Moved
/-!
# Lemmas on `adaptation.toml`
-/

namespace Verif.Proofs.Setup
open Verif.Adaptation Verif.PrfPaths Verif.Spec.PrfPaths Verif.Spec.Setup
open Verif.Display (F32Ops)
open Verif.Json (JsonFloat)
open Verif.Dms (DmsArith)
open Verif.Parse.SymbolRule (Close)
open Verif.Locations (FloatOps)

theorem split_rest {n : Str} (hn : '/' ∉ n) (ns : Path) (hs : ∀ m ∈ ns, '/' ∉ m) :
    splitSep '/' (n ++ ns.flatMap fun n => '/' :: n) = n :: ns := by
  induction ns generalizing n with
  | nil => simpa using splitSep_none (sep := '/') (s := n) fun c hc h => hn (h ▸ hc)
  | cons m ns ih =>
    rw [List.flatMap_cons, List.cons_append]
    rw [splitSep_cons (sep := '/') fun c hc h => hn (h ▸ hc), ih (hs m (by simp)) fun x hx => hs x (by simp [hx])]

theorem components_rest {n : Str} {ns : Path} (h : ∀ m ∈ n :: ns, Proper m) :
    components (n ++ ns.flatMap fun n => '/' :: n) = n :: ns := by
  unfold components
  rw [split_rest (h n (by simp)).2.2 ns fun m hm => (h m (by simp [hm])).2.2]
  refine List.filter_eq_self.2 fun a ha => ?_
  have := h a ha
  simp [this.1, this.2.1]

theorem join_named {dir : Path} {s : Str} {p : Path} (h : Named dir s p) : join dir s = p := by
  cases h with
  | absolute h1 h =>
    cases p with
    | nil => exact absurd rfl h1
    | cons n ns =>
      rw [List.flatMap_cons]
      show components ('/' :: (n ++ _)) = _
      unfold components
      have : splitSep '/' ('/' :: (n ++ ns.flatMap fun n => '/' :: n)) = [] :: n :: ns := by
        have := splitSep_cons (sep := '/') (p := []) (s := n ++ ns.flatMap fun n => '/' :: n) (by simp)
        rw [List.nil_append] at this
        rw [this, split_rest (h n (by simp)).2.2 ns fun m hm => (h m (by simp [hm])).2.2]
      rw [this, List.filter_cons_of_neg (by simp)]
      refine List.filter_eq_self.2 fun a ha => ?_
      have := h a ha
      simp [this.1, this.2.1]
  | relative h =>
    rename_i n ns
    have hn := h n (by simp)
    unfold join
    rw [if_neg, components_rest h]
    cases n with
    | nil => exact absurd rfl hn.1
    | cons c n =>
      intro hc
      simp at hc
      exact hn.2.2 (by simp [hc])

variable {F G : Type} [F64 F] [DmsArith F] [DecidableEq F] [FloatOps F] [Close F] [F64 G] [F32Ops G] [UnicodeTables]
  [LE F] [DecidableLE F] [JsonFloat F] [JsonFloat G]

theorem normalise_found {env : SetupEnv F G} {dir : Path} {s : Str} {q : Path} (h : Found env dir s q) :
    normalisePath env dir s = .ok q := by
  obtain ⟨p, hp, hq⟩ := h
  unfold normalisePath
  rw [join_named hp, hq]

theorem normalise_missing {env : SetupEnv F G} {dir : Path} {s : Str} (h : Missing env dir s) :
    ∃ p, Named dir s p ∧ normalisePath env dir s = .error (.unreadable p) := by
  obtain ⟨p, hp, hq⟩ := h
  refine ⟨p, hp, ?_⟩
  unfold normalisePath
  rw [join_named hp, hq]

theorem mapM_found {env : SetupEnv F G} {dir : Path} {ss : List Str} {qs : List Path} (hl : ss.length = qs.length)
    (h : ∀ e ∈ ss.zip qs, Found env dir e.1 e.2) : ss.mapM (normalisePath env dir) = .ok qs := by
  induction ss generalizing qs with
  | nil => cases qs with
    | nil => rfl
    | cons => cases hl
  | cons s ss ih => cases qs with
    | nil => cases hl
    | cons q qs =>
      rw [List.mapM_cons, normalise_found (h (s, q) (by simp)), ih (by simpa using hl) fun e he => h e (by simp [he])]
      rfl

theorem mapM_error {A B E : Type} {f : A → Except E B} {l : List A} {bs : List B} (h : l.mapM f = .ok bs) : ∀ a ∈ l, ∃ b, f a = .ok b := by
  induction l generalizing bs with
  | nil => simp
  | cons a l ih =>
    rw [List.mapM_cons] at h
    cases ha : f a with
    | error e => rw [ha] at h; cases h
    | ok b =>
      rw [ha] at h
      cases hl : l.mapM f with
      | error e => rw [hl] at h; cases h
      | ok bs' =>
        intro x hx
        rcases List.mem_cons.1 hx with rfl | hx
        · exact ⟨b, ha⟩
        · exact ih hl x hx

end Verif.Proofs.Setup
