import Verif.Peg.Text
import Verif.Grammar.Isec
import Verif.Grammar.Prf
import Verif.Grammar.Airway
import Verif.Grammar.Asr
import Verif.Grammar.IcaoAircraft
import Verif.Grammar.IcaoAirlines
import Verif.Grammar.IcaoAirports
import Verif.Grammar.NavdataAirports
import Verif.Grammar.TopskySettings
import Verif.Grammar.Symbology
import Verif.Grammar.Topsky
import Verif.Grammar.Sct
import Verif.Grammar.Ese
/-!
# C01: every text parser terminates on every input

For each grammar: the generated parser, run on any input, returns a parse tree or an error; it never
gets into a repetition that succeeds for ever without consuming input.  (`Run`'s `diverge` outcome is
what such a repetition would produce in the model.)
-/

namespace Verif.Props
open Verif.Peg

/-- A run that returns: either a list of pairs or a parse error. -/
def Returns {R : Type} (r : Run (List (Tree R))) : Prop := (∃ ts, r = .ok ts) ∨ r = .error .parseError

theorem returns_of {R : Type} {K : Str → Str → Prop} {sk : St → Res R} (hs : SkipOK K sk) {e : Expr R}
    (hw : wf e = true) (input : Str) : Returns (run sk e input) := by
  rcases run_cases hs hw input with h | ⟨ts, _, _, h, _⟩
  · exact Or.inr h
  · exact Or.inl ⟨ts, h⟩

theorem C01_isec (input : Str) : Returns (run Isec.skip Isec.wpts input) :=
  returns_of (skipBoth_ok rfl rfl) rfl input

theorem C01_airway (input : Str) : Returns (run Airway.skip Airway.airways input) :=
  returns_of (skipOne_ok rfl) rfl input

theorem C01_asr (input : Str) : Returns (run Asr.skip Asr.asr input) :=
  returns_of (skipOne_ok rfl) rfl input

theorem C01_icao_airlines (input : Str) : Returns (run IcaoAirlines.skip IcaoAirlines.airlines input) :=
  returns_of (skipBoth_ok rfl rfl) rfl input

theorem C01_topsky_settings (input : Str) :
    Returns (run TopskySettings.skip TopskySettings.settings input) :=
  returns_of (skipBoth_ok rfl rfl) rfl input

theorem C01_symbology (input : Str) : Returns (run Symbology.skip Symbology.symbology input) :=
  returns_of (skipOne_ok rfl) rfl input

theorem C01_topsky_symbols (input : Str) : Returns (run Topsky.skip Topsky.symbols input) :=
  returns_of (skipOne_ok rfl) rfl input

theorem C01_topsky_maps (input : Str) : Returns (run Topsky.skip Topsky.maps input) :=
  returns_of (skipOne_ok rfl) rfl input

section
variable [UnicodeTables]

theorem C01_prf (input : Str) : Returns (run Prf.skip Prf.prf input) :=
  returns_of (skipOne_ok rfl) rfl input

theorem C01_icao_aircraft (input : Str) : Returns (run IcaoAircraft.skip IcaoAircraft.aircraft input) :=
  returns_of (skipBoth_ok rfl rfl) rfl input

theorem C01_icao_airports (input : Str) : Returns (run IcaoAirports.skip IcaoAirports.aircraft input) :=
  returns_of (skipBoth_ok rfl rfl) rfl input

theorem C01_navdata_airports (input : Str) :
    Returns (run NavdataAirports.skip NavdataAirports.airports input) :=
  returns_of (skipBoth_ok rfl rfl) rfl input

theorem C01_sct (input : Str) : Returns (run Sct.skip Sct.sct input) :=
  returns_of (skipBoth_ok rfl rfl) rfl input

theorem C01_ese (input : Str) : Returns (run Ese.skip Ese.ese input) :=
  returns_of (skipBoth_ok rfl rfl) rfl input

end

/-! The outcome `diverge` is really there: a grammar with a repetition that consumes nothing produces
it, so the theorems above exclude something. -/

example : run (R := Unit) noSkip (.star (.opt (.str ['a']))) [] = .error .diverge := rfl
example : run (R := Unit) noSkip (.star (.opt (.str ['a']))) ['b'] = .error .diverge := rfl

/-- Both outcomes occur. -/
example : (run Isec.skip Isec.wpts c!"ABC").isOk = false := by decide +kernel
example : (run Isec.skip Isec.wpts
    (c!"ASPAT" ++ ['\t'] ++ c!" 49.196175" ++ ['\t'] ++ c!"  10.725828" ++ ['\t'] ++ c!"15" ++ ['\n'])).isOk
      = true := by decide +kernel

end Verif.Props
