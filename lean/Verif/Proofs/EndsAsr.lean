import Verif.Parse.Asr
import Verif.Proofs.EndsCore
/-!
# Parsers end

The part of each parser behind the grammar has no outcome `diverge`.
-/

namespace Verif.Proofs
open Verif.Peg Verif.Parse

namespace EndsAsr
open Verif.Parse.Asr
section
open Verif.Peg.Asr (Rule)
variable {F : Type} [F64 F] 
theorem nextStr (ts : List (Tree Rule)) : Ends (Parse.Asr.nextStr ts) := by unfold Parse.Asr.nextStr; ends
macro_rules | `(tactic| ends1) => `(tactic| with_reducible apply Verif.Proofs.EndsAsr.nextStr)
theorem nextF64 (ts : List (Tree Rule)) : Ends (Parse.Asr.nextF64 (F := F) ts) := by unfold Parse.Asr.nextF64; ends
macro_rules | `(tactic| ends1) => `(tactic| with_reducible apply Verif.Proofs.EndsAsr.nextF64)
theorem parseSetting (pair : Tree Rule) : Ends (Parse.Asr.parseSetting (F := F) pair) := by
  unfold Parse.Asr.parseSetting
  dsimp only
  generalize pair.asRule = r
  cases r <;> dsimp only <;> ends
macro_rules | `(tactic| ends1) => `(tactic| with_reducible apply Verif.Proofs.EndsAsr.parseSetting)
theorem collect (ts : List (Tree Rule)) : Ends (Parse.Asr.collect (F := F) ts) := by
  induction ts with
  | nil => exact ends_ok _
  | cons t ts ih => exact ends_bind (parseSetting t) fun _ => ends_bind ih fun _ => ends_pure _
macro_rules | `(tactic| ends1) => `(tactic| with_reducible apply Verif.Proofs.EndsAsr.collect)
theorem parse (content : Str) : Ends (Parse.Asr.parse (F := F) content) := by
  exact ends_bind (ends_run (Verif.Props.C01_asr _)) fun _ => by ends
macro_rules | `(tactic| ends1) => `(tactic| with_reducible apply Verif.Proofs.EndsAsr.parse)
end
end EndsAsr

end Verif.Proofs
