import Verif.Spec.Asr
/-!
# Specification for .asr files: exactly which texts are .asr files

A setting is a sequence of parts.  Between two parts there may be comments, each up to its line end.  A semicolon without
a line end behind it is not the start of a comment.  Settings need not be on lines of their own: only a free text value
reaches up to the end of the line.
-/

namespace Verif.Spec.Asr

/-- Comments `m` between two parts of a setting, in front of the text `r`: as many as there are, and the line ends of the
last one too. -/
def Skipped (m r : Str) : Prop :=
  IsFiller m ∧ (m = [] ∨ (m.head? = some ';' ∧ ¬ StartsLine r)) ∧ (r.head? = some ';' → ∀ c ∈ r, c ≠ '\n' ∧ c ≠ '\r')

/-- The text `t`, in front of `r`, consists of the given parts, with comments in between. -/
def Joined : List Str → Str → Str → Prop
  | [], t, _ => t = []
  | [p], t, _ => t = p
  | p :: q :: ps, t, r => ∃ m t', t = p ++ (m ++ t') ∧ Skipped m (t' ++ r) ∧ Joined (q :: ps) t' r

/-- The parts of a setting between which comments may stand. -/
def Line.parts : Line → List Str
  | .flag k b => [k.key, if b then c!"1" else c!"0"]
  | .int k n => [k.key, n]
  | .text k v => [k.key, v]
  | .displayRotation x => [c!"DisplayRotation:", x]
  | .windowArea lat1 lng1 lat2 lng2 => [c!"WINDOWAREA:", lat1, c!":", lng1, c!":", lat2, c!":", lng2]
  | .plugin p k v => [c!"PLUGIN:", p ++ c!":", k ++ c!":", v]
  | .named k n => [k.key, n ++ k.tail]
  | .airport n t => [c!"Airports:", n ++ c!":", fixText t]
  | .fix n t => [c!"Fixes:", n ++ c!":", fixText t]
  | .ndb n t => [c!"NDBs:", n ++ c!":", navaidText t]
  | .vor n t => [c!"VORs:", n ++ c!":", navaidText t]
  | .lowAirway n t => [c!"Low airways:", n ++ c!":", airwayText t]
  | .highAirway n t => [c!"High airways:", n ++ c!":", airwayText t]
  | .ground n t => [c!"Ground Network:", n ++ c!":", groundText t]
  | .freeText g n => [c!"Free Text:", g ++ ['\\'], n ++ c!":freetext"]
  | .runway ap a b t => [c!"Runways:", ap ++ (c!" " ++ a), c!"-", b, c!":", t.text]

/-- No line end. -/
def OneLine (v : Str) : Prop := ∀ c ∈ v, c ≠ '\n' ∧ c ≠ '\r'

instance (v : Str) : Decidable (OneLine v) := inferInstanceAs (Decidable (∀ c ∈ v, _))

/-- No line end and no colon. -/
def InField (v : Str) : Prop := OneLine v ∧ ∀ c ∈ v, c ≠ ':'

instance (v : Str) : Decidable (InField v) := inferInstanceAs (Decidable (_ ∧ _))

/-- A coordinate of the window area. -/
def IsCoord (s : Str) : Prop := IsNumber s ∨ IsDms s

/-- The fields of the setting, in front of the text `r`. -/
def Line.At (r : Str) : Line → Prop
  | .flag _ _ => True
  | .int _ n => IsInt n
  | .text _ v => OneLine v ∧ (r = [] ∨ StartsLine r)
  | .displayRotation x => IsNumber x
  | .windowArea a b c d => IsCoord a ∧ IsCoord b ∧ IsCoord c ∧ IsCoord d
  | .plugin p k v => InField p ∧ InField k ∧ OneLine v ∧ (r = [] ∨ StartsLine r)
  | .named _ n => InField n
  | .airport n _ => InField n
  | .fix n _ => InField n
  | .ndb n _ => InField n
  | .vor n _ => InField n
  | .lowAirway n _ => InField n
  | .highAirway n _ => InField n
  | .ground n _ => InField n
  | .freeText g n => (∀ c ∈ g, c ≠ '\\') ∧ InField n
  | .runway ap a b t => NoRunwayIn ap ∧ IsRunway a ∧ IsRunway b ∧ ∀ e, t = .extended e → e ∈ extendedNames

/-- The text `t`, in front of `r`, is the setting `w`. -/
def Written (w : Line) (t r : Str) : Prop := Joined w.parts t r ∧ w.At r

/-- One or more settings, with empty lines and comments in between and behind. -/
inductive IsSettings : Str → List Line → Prop
  | last (w : Line) (t f : Str) : Written w t f → IsFiller f → IsSettings (t ++ f) [w]
  | cons (w : Line) (t f s : Str) (ws : List Line) : Written w t (f ++ s) → IsFiller f → IsSettings s ws →
      IsSettings (t ++ (f ++ s)) (w :: ws)

/-- The text is an .asr file with the settings `ws`. -/
def IsAsr (content : Str) (ws : List Line) : Prop :=
  ∃ f s, content = f ++ s ∧ IsFiller f ∧ IsSettings s ws

/-- The numbers of the setting fit, and the coordinates of a window area are numbers. -/
def Line.Readable (w : Line) : Prop :=
  w.Fits ∧ ∀ a b c d, w = .windowArea a b c d → IsNumber a ∧ IsNumber b ∧ IsNumber c ∧ IsNumber d

end Verif.Spec.Asr
