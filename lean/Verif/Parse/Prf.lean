import Verif.Grammar.Prf
import Verif.Base.Map
/-!
# `/repo/src/prf.rs`: parsing
-/

namespace Verif.Parse.Prf
open Verif.Peg Verif.Peg.Prf

/-- `settings: TwoKeyMap<String, String, String>`, prf.rs 30. -/
abbrev Settings := Map (Str × Str) Str

/-- `parse_setting`, prf.rs 145-158. -/
def parseSetting (pair : Tree Rule) : Run (Option ((Str × Str) × Str)) :=
  match pair.asRule with
  | .setting => do
    let (category, setting) ← next pair.inner
    let (key, setting) ← next setting
    let (value, _) ← next setting
    return some ((category.asStr, key.asStr), value.asStr)
  | .EOI => .ok none
  | _ => .error .panic

/-- `Prf::parse`, prf.rs 127-143, from the decoded text on and without `path.canonicalize()`, whose
failure is an `Err`. -/
def parsePrf [UnicodeTables] (content : Str) : Run Settings := do
  let pairs ← run skip prf content
  let (p, _) ← next pairs
  let entries ← p.inner.mapM parseSetting
  return Map.ofList (entries.filterMap id)

end Verif.Parse.Prf
