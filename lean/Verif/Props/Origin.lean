import Verif.Proofs.OriginSct
import Verif.Props.Sct
/-!
# C114: where the texts of a parsed file come from

For every text that is accepted, well-formed or not: the names, designators and frequencies of the result are parts of
the text.  The texts of an entry stand in the file in the order of the format, and the entries of a list in the order of
the list, without overlap.
-/

namespace Verif.Props
open Verif.Spec Verif.Spec.Origin
open Verif.Dms (DmsArith)

section
variable [UnicodeTables] {F : Type} [F64 F] [DmsArith F] {G : Type} [F64 G]

/-- C114, .ese files: procedures and agreements. -/
theorem C114_ese_lists (content : Str) (e : Parse.Ese.Ese F) (h : Parse.Ese.parse G content = .ok e) :
    InOrder (e.sidsStars.flatMap procedure) content ∧ InOrder (e.constraints.flatMap constraint) content :=
  have := Proofs.OriginEse.origin_file G h
  ⟨this.2.2, this.2.1.2⟩

/-- C114, .ese files: positions, by identifier. -/
theorem C114_ese_positions (content : Str) (e : Parse.Ese.Ese F) (h : Parse.Ese.parse G content = .ok e) :
    ∀ x ∈ e.positions, x.1 = x.2.identifier ∧ InOrder (position x.2) content := (Proofs.OriginEse.origin_file G h).1

/-- C114, .ese files: sectors, by name.  Owners, airports and runways stand behind the name of the sector. -/
theorem C114_ese_sectors (content : Str) (e : Parse.Ese.Ese F) (h : Parse.Ese.parse G content = .ok e) :
    ∀ x ∈ e.sectors, x.1 = x.2.id ∧ InOrder (x.2.id :: x.2.ownerPriority) content ∧ InOrder (x.2.id :: x.2.departureAirports) content ∧
      InOrder (x.2.id :: x.2.arrivalAirports) content ∧ InOrder (x.2.id :: x.2.runwayFilter.flatMap fun r => [r.1, r.2]) content :=
  (Proofs.OriginEse.origin_file G h).2.1.1

variable [DecidableEq F]

/-- C114, .sct files: the description, and the lists of places and airways. -/
theorem C114_sct_lists (content : Str) (e : Parse.Sct.Sct F) (h : Parse.Sct.parse content = .ok e) :
    InOrder [e.info.name, e.info.defaultCallsign, e.info.defaultAirport] content ∧
    InOrder (e.airports.flatMap airport) content ∧ InOrder (e.fixes.flatMap fix) content ∧
    InOrder (e.ndbs.flatMap navaid) content ∧ InOrder (e.vors.flatMap navaid) content ∧
    InOrder (e.runways.flatMap runway) content ∧ InOrder (e.highAirways.flatMap airway) content ∧
    InOrder (e.lowAirways.flatMap airway) content ∧ InOrder (e.regions.flatMap region) content ∧
    InOrder (e.labels.flatMap label) content := by
  obtain ⟨secs, cols, hg, _, rfl⟩ := Proofs.OriginSct.origin_file h
  refine ⟨?_, ?_, ?_, ?_, ?_, ?_, ?_, ?_, ?_, ?_⟩
  · show InOrder (Proofs.OriginSct.infoTexts (match (Map.ofList secs).get? .info with
      | some (.info i) => i
      | _ => Parse.Sct.Info.default F)) content
    split
    · rename_i e; exact hg _ _ e
    · exact Proofs.OriginSct.inOrder_empty (.nil _) 3
  all_goals
    unfold Parse.Sct.assemble
    dsimp only
    split
    · rename_i e; exact hg _ _ e
    · exact .nil _

/-- C114, .sct files: the drawings, with the fixes and with the colours of their lines. -/
theorem C114_sct_drawings (content : Str) (e : Parse.Sct.Sct F) (h : Parse.Sct.parse content = .ok e) :
    ∀ l ∈ [e.sids, e.stars, e.artccsHigh, e.artccs, e.artccsLow, e.geo],
      InOrder (l.flatMap drawing) content ∧ InOrder (l.flatMap colours) content := by
  obtain ⟨secs, cols, hg, _, rfl⟩ := Proofs.OriginSct.origin_file h
  intro l hl
  simp only [List.mem_cons, List.not_mem_nil, or_false] at hl
  rcases hl with rfl | rfl | rfl | rfl | rfl | rfl
  all_goals
    unfold Parse.Sct.assemble
    dsimp only
    split
    · rename_i e; exact hg _ _ e
    · exact ⟨.nil _, .nil _⟩

/-- C114, .sct files: the names of colours. -/
theorem C114_sct_colours (content : Str) (e : Parse.Sct.Sct F) (h : Parse.Sct.parse content = .ok e) :
    ∀ x ∈ e.colours, x.1 <:+: content := by
  obtain ⟨secs, cols, _, hc, rfl⟩ := Proofs.OriginSct.origin_file h
  exact hc
end

/-! ## Examples -/

section Examples
attribute [local instance] asciiTables
local instance originF64 : F64 Str := ⟨some, fun _ _ => rfl⟩
local instance originDms : DmsArith Str := ⟨fun d => d.sec⟩

/-- The order matters. -/
example : InOrder [c!"b", c!"c"] c!"abcd" ∧ ¬ InOrder [c!"c", c!"b"] c!"abcd" ∧ ¬ InOrder [c!"ab", c!"bc"] c!"abc" :=
  ⟨.cons c!"a" c!"b" c!"cd" _ (.cons [] c!"c" c!"d" _ (.nil _)), fun h => absurd h.sublist (by decide), fun h => absurd h.sublist (by decide)⟩

/-- A text that is accepted although it is no well-formed file: there are blanks around the fields. -/
def originEse : Str := c!"[SIDSSTARS]\nSID: EDDM :26L: ABAMI1Q :ABAMI DM060\n[AIRSPACE]\nCOPX:*:*: ABAMI:*:26L:A:B:*:9000:text\n"

def originEseCheck : Bool :=
  match Parse.Ese.parse (F := Str) Str originEse with
  | .ok e => decide (e.sidsStars.flatMap procedure = [c!"EDDM", c!"26L", c!"ABAMI1Q ", c!"ABAMI", c!"DM060"] ∧
      e.constraints.flatMap constraint = [c!"ABAMI", c!"26L", c!"A", c!"B", c!"text"])
  | .error _ => false

example : originEseCheck = true := by decide +kernel

/-- The hypotheses are met. -/
example : ∃ e, Parse.Ese.parse (F := Str) Str eseFile.text = .ok e ∧ e.sidsStars.flatMap procedure = [c!"EDDM", c!"26L", c!"ABAMI1Q", c!"ABAMI", c!"DM060"] := by
  have : (match Parse.Ese.parse (F := Str) Str eseFile.text with
    | .ok e => decide (e.sidsStars.flatMap procedure = [c!"EDDM", c!"26L", c!"ABAMI1Q", c!"ABAMI", c!"DM060"])
    | .error _ => false) = true := by decide +kernel
  revert this
  generalize Parse.Ese.parse (F := Str) Str eseFile.text = r
  cases r with
  | error f => intro h; cases h
  | ok e => intro h; exact ⟨e, rfl, of_decide_eq_true h⟩

example : ∃ e : Parse.Sct.Sct Str, Parse.Sct.parse sctFile.text = .ok e ∧ e.vors.flatMap navaid ≠ [] := by
  have : (match Parse.Sct.parse (F := Str) sctFile.text with
    | .ok e => decide (e.vors.flatMap navaid ≠ [])
    | .error _ => false) = true := by decide +kernel
  revert this
  generalize Parse.Sct.parse (F := Str) sctFile.text = r
  cases r with
  | error f => intro h; cases h
  | ok e => intro h; exact ⟨e, rfl, of_decide_eq_true h⟩
end Examples

end Verif.Props
