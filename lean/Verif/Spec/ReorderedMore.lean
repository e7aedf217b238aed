import Verif.Spec.Reordered
import Verif.Spec.AsrExact
import Verif.Spec.TopskySettings
import Verif.Spec.Topsky
/-!
# What a line or definition is about, in .asr files and files of the TopSky plugin
-/

namespace Verif.Spec

/-- What a setting of an .asr file is about: its key, and of a setting of a plugin also the plugin and the key in it. -/
def Asr.Line.subject : Asr.Line → List Str
  | .flag k _ => [k.key]
  | .int k _ => [k.key]
  | .text k _ => [k.key]
  | .displayRotation _ => [c!"DISPLAYROTATION:"]
  | .windowArea .. => [c!"WINDOWAREA:"]
  | .plugin p k _ => [c!"PLUGIN:", p, k]
  | .named k _ => [k.key]
  | .airport .. => [c!"Airports:"]
  | .fix .. => [c!"Fixes:"]
  | .ndb .. => [c!"NDBs:"]
  | .vor .. => [c!"VORs:"]
  | .lowAirway .. => [c!"Low airways:"]
  | .highAirway .. => [c!"High airways:"]
  | .ground .. => [c!"Ground network:"]
  | .freeText .. => [c!"Free Text:"]
  | .runway .. => [c!"Runways:"]

/-- The name on a line of a TopSky settings file. -/
def TopskySettings.Entry.name : TopskySettings.Entry → Str
  | .setting name _ => name
  | .colour name .. => name
  | .bare name => name

/-- What a definition of a TopSky map file is about: its keyword, and of symbols, colours and line styles also the name. -/
def Topsky.Def.subject : Topsky.Def → List Str
  | .map .. => [c!"MAP"]
  | .symbol s => [c!"SYMBOLDEF", s.name]
  | .colour name .. => [c!"COLORDEF", name]
  | .lineStyle name .. => [c!"LINESTYLEDEF", name]
  | .override .. => [c!"OVERRIDE_SCT_MAP"]
  | .sctFilePath .. => [c!"SCTFILEPATH"]

end Verif.Spec
