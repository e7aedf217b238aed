import Verif.Parse.Sct
import Verif.Parse.Ese
import Verif.Parse.Topsky
import Verif.Parse.TopskySettings
import Verif.Parse.Symbology
import Verif.Proofs.EndsCore
/-!
# Parsers end

The part of each parser behind the grammar has no outcome `diverge`.
-/

namespace Verif.Proofs
open Verif.Peg Verif.Parse
open Verif.Colours (Colour)

set_option linter.unusedSectionVars false

theorem ends_ofHemi (s : Str) : Ends (Dms.Sign.ofHemi s) := by unfold Dms.Sign.ofHemi; ends
macro_rules | `(tactic| ends1) => `(tactic| with_reducible apply ends_ofHemi)

namespace EndsSct
open Verif.Parse.Sct
section
open Verif.Peg.Sct (Rule)
variable {F G : Type} [F64 F] [F64 G] [Dms.DmsArith F] [DecidableEq F] [SymbolRule.Close F] [UnicodeTables]
theorem nextStr (ts : List (Tree Rule)) : Ends (Parse.Sct.nextStr ts) := by unfold Parse.Sct.nextStr; ends
macro_rules | `(tactic| ends1) => `(tactic| with_reducible apply Verif.Proofs.EndsSct.nextStr)
theorem nextUnsigned (n : Nat) (ts : List (Tree Rule)) : Ends (Parse.Sct.nextUnsigned n ts) := by unfold Parse.Sct.nextUnsigned; ends
macro_rules | `(tactic| ends1) => `(tactic| with_reducible apply Verif.Proofs.EndsSct.nextUnsigned)
theorem parseCoordinatePart (pair : Tree Rule) : Ends (Parse.Sct.parseCoordinatePart (F := F) pair) := by unfold Parse.Sct.parseCoordinatePart; ends
macro_rules | `(tactic| ends1) => `(tactic| with_reducible apply Verif.Proofs.EndsSct.parseCoordinatePart)
theorem parseCoordinate (pair : Tree Rule) : Ends (Parse.Sct.parseCoordinate (F := F) pair) := by unfold Parse.Sct.parseCoordinate; ends
macro_rules | `(tactic| ends1) => `(tactic| with_reducible apply Verif.Proofs.EndsSct.parseCoordinate)
theorem nextCoordinate (ts : List (Tree Rule)) : Ends (Parse.Sct.nextCoordinate (F := F) ts) := by unfold Parse.Sct.nextCoordinate; ends
macro_rules | `(tactic| ends1) => `(tactic| with_reducible apply Verif.Proofs.EndsSct.nextCoordinate)
theorem findCoordinate (ts : List (Tree Rule)) : Ends (Parse.Sct.findCoordinate ts) := by
  induction ts with
  | nil => exact ends_panic
  | cons t ts ih => unfold Parse.Sct.findCoordinate; split <;> first | exact ends_ok _ | exact ih
macro_rules | `(tactic| ends1) => `(tactic| with_reducible apply Verif.Proofs.EndsSct.findCoordinate)
theorem parseAirport (pair : Tree Rule) : Ends (Parse.Sct.parseAirport (F := F) pair) := by unfold Parse.Sct.parseAirport; ends
macro_rules | `(tactic| ends1) => `(tactic| with_reducible apply Verif.Proofs.EndsSct.parseAirport)
theorem parseLocation (pair : Tree Rule) : Ends (Parse.Sct.parseLocation (F := F) pair) := by unfold Parse.Sct.parseLocation; ends
macro_rules | `(tactic| ends1) => `(tactic| with_reducible apply Verif.Proofs.EndsSct.parseLocation)
theorem nextLocation (ts : List (Tree Rule)) : Ends (Parse.Sct.nextLocation (F := F) ts) := by unfold Parse.Sct.nextLocation; ends
macro_rules | `(tactic| ends1) => `(tactic| with_reducible apply Verif.Proofs.EndsSct.nextLocation)
theorem parseAirway (pair : Tree Rule) : Ends (Parse.Sct.parseAirway (F := F) pair) := by unfold Parse.Sct.parseAirway; ends
macro_rules | `(tactic| ends1) => `(tactic| with_reducible apply Verif.Proofs.EndsSct.parseAirway)
theorem parseFix (pair : Tree Rule) : Ends (Parse.Sct.parseFix (F := F) pair) := by unfold Parse.Sct.parseFix; ends
macro_rules | `(tactic| ends1) => `(tactic| with_reducible apply Verif.Proofs.EndsSct.parseFix)
theorem parseNavaid (pair : Tree Rule) : Ends (Parse.Sct.parseNavaid (F := F) pair) := by unfold Parse.Sct.parseNavaid; ends
macro_rules | `(tactic| ends1) => `(tactic| with_reducible apply Verif.Proofs.EndsSct.parseNavaid)
theorem parseNdb (pair : Tree Rule) : Ends (Parse.Sct.parseNdb (F := F) pair) := by unfold Parse.Sct.parseNdb; ends
macro_rules | `(tactic| ends1) => `(tactic| with_reducible apply Verif.Proofs.EndsSct.parseNdb)
theorem parseVor (pair : Tree Rule) : Ends (Parse.Sct.parseVor (F := F) pair) := by unfold Parse.Sct.parseVor; ends
macro_rules | `(tactic| ends1) => `(tactic| with_reducible apply Verif.Proofs.EndsSct.parseVor)
theorem parseRegion (pair : Tree Rule) : Ends (Parse.Sct.parseRegion (F := F) pair) := by unfold Parse.Sct.parseRegion; ends
macro_rules | `(tactic| ends1) => `(tactic| with_reducible apply Verif.Proofs.EndsSct.parseRegion)
theorem parseLabel (pair : Tree Rule) : Ends (Parse.Sct.parseLabel (F := F) pair) := by unfold Parse.Sct.parseLabel; ends
macro_rules | `(tactic| ends1) => `(tactic| with_reducible apply Verif.Proofs.EndsSct.parseLabel)
theorem parseColouredLine (pair : Tree Rule) : Ends (Parse.Sct.parseColouredLine (F := F) pair) := by unfold Parse.Sct.parseColouredLine; ends
macro_rules | `(tactic| ends1) => `(tactic| with_reducible apply Verif.Proofs.EndsSct.parseColouredLine)
theorem parseLineGroups (ts : List (Tree Rule)) : Ends (Parse.Sct.parseLineGroups (F := F) ts) := by unfold Parse.Sct.parseLineGroups; ends
macro_rules | `(tactic| ends1) => `(tactic| with_reducible apply Verif.Proofs.EndsSct.parseLineGroups)
theorem parseDrawing (pair : Tree Rule) : Ends (Parse.Sct.parseDrawing (F := F) pair) := by unfold Parse.Sct.parseDrawing; ends
macro_rules | `(tactic| ends1) => `(tactic| with_reducible apply Verif.Proofs.EndsSct.parseDrawing)
theorem parseRunway (pair : Tree Rule) : Ends (Parse.Sct.parseRunway (F := F) pair) := by unfold Parse.Sct.parseRunway; ends
macro_rules | `(tactic| ends1) => `(tactic| with_reducible apply Verif.Proofs.EndsSct.parseRunway)
theorem parseColourDefinition (pair : Tree Rule) : Ends (Parse.Sct.parseColourDefinition pair) := by unfold Parse.Sct.parseColourDefinition; ends
macro_rules | `(tactic| ends1) => `(tactic| with_reducible apply Verif.Proofs.EndsSct.parseColourDefinition)
theorem storeColour (c : Map Str Colour) (pair : Tree Rule) : Ends (Parse.Sct.storeColour c pair) := by unfold Parse.Sct.storeColour; ends
macro_rules | `(tactic| ends1) => `(tactic| with_reducible apply Verif.Proofs.EndsSct.storeColour)
theorem infoLine (s : InfoState F) (pair : Tree Rule) : Ends (Parse.Sct.infoLine s pair) := by unfold Parse.Sct.infoLine; ends
macro_rules | `(tactic| ends1) => `(tactic| with_reducible apply Verif.Proofs.EndsSct.infoLine)
theorem infoStep (s : InfoState F) (pair : Tree Rule) : Ends (Parse.Sct.infoStep s pair) := by unfold Parse.Sct.infoStep; ends
macro_rules | `(tactic| ends1) => `(tactic| with_reducible apply Verif.Proofs.EndsSct.infoStep)
theorem parseInfoSection (pair : Tree Rule) (c : Map Str Colour) : Ends (Parse.Sct.parseInfoSection (F := F) pair c) := by unfold Parse.Sct.parseInfoSection; ends
macro_rules | `(tactic| ends1) => `(tactic| with_reducible apply Verif.Proofs.EndsSct.parseInfoSection)
theorem entries {A : Type} {f : Tree Rule → Run (Option A)} (hf : ∀ t, Ends (f t)) (c : Map Str Colour) (ts : List (Tree Rule)) : Ends (Parse.Sct.entries f c ts) := by
  induction ts generalizing c with
  | nil => exact ends_ok _
  | cons t ts ih =>
    unfold Parse.Sct.entries
    split
    · exact ends_bind (storeColour ..) ih
    · exact ends_bind (hf t) fun _ => ends_bind (ih c) fun _ => ends_pure _
macro_rules | `(tactic| ends1) => `(tactic| apply Verif.Proofs.EndsSct.entries)
theorem parseSection (pair : Tree Rule) (c : Map Str Colour) : Ends (Parse.Sct.parseSection (F := F) pair c) := by unfold Parse.Sct.parseSection; dsimp only; ends
macro_rules | `(tactic| ends1) => `(tactic| with_reducible apply Verif.Proofs.EndsSct.parseSection)
theorem parseSections (c : Map Str Colour) (ts : List (Tree Rule)) : Ends (Parse.Sct.parseSections (F := F) c ts) := by
  induction ts generalizing c with
  | nil => exact ends_ok _
  | cons t ts ih =>
    unfold Parse.Sct.parseSections
    split
    · exact ends_bind (storeColour ..) ih
    · exact ends_bind (parseSection ..) fun _ => ends_bind (ih _) fun _ => ends_pure _
macro_rules | `(tactic| ends1) => `(tactic| with_reducible apply Verif.Proofs.EndsSct.parseSections)
theorem parse (content : Str) : Ends (Parse.Sct.parse (F := F) content) := by
  exact ends_bind (ends_run (Verif.Props.C01_sct _)) fun _ => by ends
macro_rules | `(tactic| ends1) => `(tactic| with_reducible apply Verif.Proofs.EndsSct.parse)
end
end EndsSct

namespace EndsEse
open Verif.Parse.Ese
section
open Verif.Peg.Ese (Rule)
variable {F G : Type} [F64 F] [F64 G] [Dms.DmsArith F] [DecidableEq F] [SymbolRule.Close F] [UnicodeTables]
theorem nextStr (ts : List (Tree Rule)) : Ends (Parse.Ese.nextStr ts) := by unfold Parse.Ese.nextStr; ends
macro_rules | `(tactic| ends1) => `(tactic| with_reducible apply Verif.Proofs.EndsEse.nextStr)
theorem nextUnsigned (n : Nat) (ts : List (Tree Rule)) : Ends (Parse.Ese.nextUnsigned n ts) := by unfold Parse.Ese.nextUnsigned; ends
macro_rules | `(tactic| ends1) => `(tactic| with_reducible apply Verif.Proofs.EndsEse.nextUnsigned)
theorem parseCoordinatePart (pair : Tree Rule) : Ends (Parse.Ese.parseCoordinatePart (F := F) pair) := by unfold Parse.Ese.parseCoordinatePart; ends
macro_rules | `(tactic| ends1) => `(tactic| with_reducible apply Verif.Proofs.EndsEse.parseCoordinatePart)
theorem parseCoordinate (pair : Tree Rule) : Ends (Parse.Ese.parseCoordinate (F := F) pair) := by unfold Parse.Ese.parseCoordinate; ends
macro_rules | `(tactic| ends1) => `(tactic| with_reducible apply Verif.Proofs.EndsEse.parseCoordinate)
theorem parseMsaw (pair : Tree Rule) : Ends (Parse.Ese.parseMsaw (F := F) pair) := by unfold Parse.Ese.parseMsaw; ends
macro_rules | `(tactic| ends1) => `(tactic| with_reducible apply Verif.Proofs.EndsEse.parseMsaw)
theorem parseSectorLine (pair : Tree Rule) : Ends (Parse.Ese.parseSectorLine (F := F) pair) := by unfold Parse.Ese.parseSectorLine; ends
macro_rules | `(tactic| ends1) => `(tactic| with_reducible apply Verif.Proofs.EndsEse.parseSectorLine)
theorem parseCircleSectorLine (pair : Tree Rule) : Ends (Parse.Ese.parseCircleSectorLine (G := G) pair) := by unfold Parse.Ese.parseCircleSectorLine; ends
macro_rules | `(tactic| ends1) => `(tactic| with_reducible apply Verif.Proofs.EndsEse.parseCircleSectorLine)
theorem parseSubsettings (pair : Tree Rule) : Ends (Parse.Ese.parseSubsettings pair) := by unfold Parse.Ese.parseSubsettings; ends
macro_rules | `(tactic| ends1) => `(tactic| with_reducible apply Verif.Proofs.EndsEse.parseSubsettings)
theorem parseSector {L : Type} (pair : Tree Rule) : Ends (Parse.Ese.parseSector (L := L) pair) := by unfold Parse.Ese.parseSector; ends
macro_rules | `(tactic| ends1) => `(tactic| with_reducible apply Verif.Proofs.EndsEse.parseSector)
theorem parseWildcardString (pair : Tree Rule) : Ends (Parse.Ese.parseWildcardString pair) := by unfold Parse.Ese.parseWildcardString; ends
macro_rules | `(tactic| ends1) => `(tactic| with_reducible apply Verif.Proofs.EndsEse.parseWildcardString)
theorem parseWildcardU32 (pair : Tree Rule) : Ends (Parse.Ese.parseWildcardU32 pair) := by unfold Parse.Ese.parseWildcardU32; ends
macro_rules | `(tactic| ends1) => `(tactic| with_reducible apply Verif.Proofs.EndsEse.parseWildcardU32)
theorem parseConstraint (pair : Tree Rule) : Ends (Parse.Ese.parseConstraint pair) := by unfold Parse.Ese.parseConstraint; ends
macro_rules | `(tactic| ends1) => `(tactic| with_reducible apply Verif.Proofs.EndsEse.parseConstraint)
theorem parseSquawkRange (o : Option (Tree Rule)) : Ends (Parse.Ese.parseSquawkRange o) := by unfold Parse.Ese.parseSquawkRange; ends
macro_rules | `(tactic| ends1) => `(tactic| with_reducible apply Verif.Proofs.EndsEse.parseSquawkRange)
theorem parsePosition (pair : Tree Rule) : Ends (Parse.Ese.parsePosition (F := F) pair) := by unfold Parse.Ese.parsePosition; ends
macro_rules | `(tactic| ends1) => `(tactic| with_reducible apply Verif.Proofs.EndsEse.parsePosition)
theorem parseAirspace (pair : Tree Rule) : Ends (Parse.Ese.parseAirspace (F := F) (G := G) pair) := by unfold Parse.Ese.parseAirspace; ends
macro_rules | `(tactic| ends1) => `(tactic| with_reducible apply Verif.Proofs.EndsEse.parseAirspace)
theorem parseSidStar (pair : Tree Rule) : Ends (Parse.Ese.parseSidStar pair) := by unfold Parse.Ese.parseSidStar; ends
macro_rules | `(tactic| ends1) => `(tactic| with_reducible apply Verif.Proofs.EndsEse.parseSidStar)
theorem parseSection (pair : Tree Rule) : Ends (Parse.Ese.parseSection (F := F) G pair) := by unfold Parse.Ese.parseSection; ends
macro_rules | `(tactic| ends1) => `(tactic| with_reducible apply Verif.Proofs.EndsEse.parseSection)
theorem parse (content : Str) : Ends (Parse.Ese.parse (F := F) G content) := by
  exact ends_bind (ends_run (Verif.Props.C01_ese _)) fun _ => by ends
macro_rules | `(tactic| ends1) => `(tactic| with_reducible apply Verif.Proofs.EndsEse.parse)
end
end EndsEse

namespace EndsSymbolRule
open Verif.Parse.SymbolRule
section
variable {R : Type} {F : Type} [F64 F] [Close F]
theorem nextNum (ts : List (Tree R)) : Ends (Parse.SymbolRule.nextNum (F := F) ts) := by unfold Parse.SymbolRule.nextNum; ends
macro_rules | `(tactic| ends1) => `(tactic| with_reducible apply Verif.Proofs.EndsSymbolRule.nextNum)
theorem nextAngle (ts : List (Tree R)) : Ends (Parse.SymbolRule.nextAngle ts) := by unfold Parse.SymbolRule.nextAngle; ends
macro_rules | `(tactic| ends1) => `(tactic| with_reducible apply Verif.Proofs.EndsSymbolRule.nextAngle)
theorem parsePoint (pair : Tree R) : Ends (Parse.SymbolRule.parsePoint (F := F) pair) := by unfold Parse.SymbolRule.parsePoint; ends
macro_rules | `(tactic| ends1) => `(tactic| with_reducible apply Verif.Proofs.EndsSymbolRule.parsePoint)
theorem nextPoint (ts : List (Tree R)) : Ends (Parse.SymbolRule.nextPoint (F := F) ts) := by unfold Parse.SymbolRule.nextPoint; ends
macro_rules | `(tactic| ends1) => `(tactic| with_reducible apply Verif.Proofs.EndsSymbolRule.nextPoint)
theorem parseRule (kind : R → Option Kind) (pair : Tree R) : Ends (Parse.SymbolRule.parseRule (F := F) kind pair) := by unfold Parse.SymbolRule.parseRule; ends
macro_rules | `(tactic| ends1) => `(tactic| with_reducible apply Verif.Proofs.EndsSymbolRule.parseRule)
end
end EndsSymbolRule

namespace EndsTopsky
open Verif.Parse.Topsky
section
open Verif.Peg.Topsky (Rule)
variable {F G : Type} [F64 F] [F64 G] [Dms.DmsArith F] [DecidableEq F] [SymbolRule.Close F] [UnicodeTables]
theorem nextStr (ts : List (Tree Rule)) : Ends (Parse.Topsky.nextStr ts) := by unfold Parse.Topsky.nextStr; ends
macro_rules | `(tactic| ends1) => `(tactic| with_reducible apply Verif.Proofs.EndsTopsky.nextStr)
theorem parseSymbol (pair : Tree Rule) : Ends (Parse.Topsky.parseSymbol (F := F) pair) := by unfold Parse.Topsky.parseSymbol; ends
macro_rules | `(tactic| ends1) => `(tactic| with_reducible apply Verif.Proofs.EndsTopsky.parseSymbol)
theorem parseSymbols (content : Str) : Ends (Parse.Topsky.parseSymbols (F := F) content) := by
  exact ends_bind (ends_run (Verif.Props.C01_topsky_symbols _)) fun _ => by ends
macro_rules | `(tactic| ends1) => `(tactic| with_reducible apply Verif.Proofs.EndsTopsky.parseSymbols)
theorem parseRunwayIdentifier (pair : Tree Rule) : Ends (Parse.Topsky.parseRunwayIdentifier pair) := by unfold Parse.Topsky.parseRunwayIdentifier; ends
macro_rules | `(tactic| ends1) => `(tactic| with_reducible apply Verif.Proofs.EndsTopsky.parseRunwayIdentifier)
theorem parseNames (pair : Tree Rule) : Ends (Parse.Topsky.parseNames pair) := by unfold Parse.Topsky.parseNames; ends
macro_rules | `(tactic| ends1) => `(tactic| with_reducible apply Verif.Proofs.EndsTopsky.parseNames)
theorem nextNames (ts : List (Tree Rule)) : Ends (Parse.Topsky.nextNames ts) := by unfold Parse.Topsky.nextNames; ends
macro_rules | `(tactic| ends1) => `(tactic| with_reducible apply Verif.Proofs.EndsTopsky.nextNames)
theorem parseActiveIds (pair : Tree Rule) : Ends (Parse.Topsky.parseActiveIds pair) := by unfold Parse.Topsky.parseActiveIds; ends
macro_rules | `(tactic| ends1) => `(tactic| with_reducible apply Verif.Proofs.EndsTopsky.parseActiveIds)
theorem parseRunways (pair : Tree Rule) : Ends (Parse.Topsky.parseRunways pair) := by unfold Parse.Topsky.parseRunways; ends
macro_rules | `(tactic| ends1) => `(tactic| with_reducible apply Verif.Proofs.EndsTopsky.parseRunways)
theorem nextRunways (ts : List (Tree Rule)) : Ends (Parse.Topsky.nextRunways ts) := by unfold Parse.Topsky.nextRunways; ends
macro_rules | `(tactic| ends1) => `(tactic| with_reducible apply Verif.Proofs.EndsTopsky.nextRunways)
theorem parseActiveRunways (pair : Tree Rule) : Ends (Parse.Topsky.parseActiveRunways pair) := by unfold Parse.Topsky.parseActiveRunways; ends
macro_rules | `(tactic| ends1) => `(tactic| with_reducible apply Verif.Proofs.EndsTopsky.parseActiveRunways)
theorem parseActiveRunwaysWithExcludes (pair : Tree Rule) : Ends (Parse.Topsky.parseActiveRunwaysWithExcludes pair) := by unfold Parse.Topsky.parseActiveRunwaysWithExcludes; ends
macro_rules | `(tactic| ends1) => `(tactic| with_reducible apply Verif.Proofs.EndsTopsky.parseActiveRunwaysWithExcludes)
theorem parseActiveAreas (pair : Tree Rule) : Ends (Parse.Topsky.parseActiveAreas pair) := by unfold Parse.Topsky.parseActiveAreas; ends
macro_rules | `(tactic| ends1) => `(tactic| with_reducible apply Verif.Proofs.EndsTopsky.parseActiveAreas)
theorem parseActiveAreasWithExcludes (pair : Tree Rule) : Ends (Parse.Topsky.parseActiveAreasWithExcludes pair) := by unfold Parse.Topsky.parseActiveAreasWithExcludes; ends
macro_rules | `(tactic| ends1) => `(tactic| with_reducible apply Verif.Proofs.EndsTopsky.parseActiveAreasWithExcludes)
theorem parseOperator (s : Str) : Ends (Parse.Topsky.parseOperator s) := by unfold Parse.Topsky.parseOperator; ends
macro_rules | `(tactic| ends1) => `(tactic| with_reducible apply Verif.Proofs.EndsTopsky.parseOperator)
theorem parseActive (pair : Tree Rule) : Ends (Parse.Topsky.parseActive pair) := by unfold Parse.Topsky.parseActive; ends
macro_rules | `(tactic| ends1) => `(tactic| with_reducible apply Verif.Proofs.EndsTopsky.parseActive)
theorem parseCoordinatePart (pair : Tree Rule) : Ends (Parse.Topsky.parseCoordinatePart (F := F) pair) := by unfold Parse.Topsky.parseCoordinatePart; ends
macro_rules | `(tactic| ends1) => `(tactic| with_reducible apply Verif.Proofs.EndsTopsky.parseCoordinatePart)
theorem joinParts (a b : CoordinatePart F) : Ends (Parse.Topsky.joinParts a b) := by unfold Parse.Topsky.joinParts; ends
macro_rules | `(tactic| ends1) => `(tactic| with_reducible apply Verif.Proofs.EndsTopsky.joinParts)
theorem parseCoord (pair : Tree Rule) : Ends (Parse.Topsky.parseCoord (F := F) pair) := by unfold Parse.Topsky.parseCoord; ends
macro_rules | `(tactic| ends1) => `(tactic| with_reducible apply Verif.Proofs.EndsTopsky.parseCoord)
theorem parseLocation (pair : Tree Rule) : Ends (Parse.Topsky.parseLocation (F := F) pair) := by unfold Parse.Topsky.parseLocation; ends
macro_rules | `(tactic| ends1) => `(tactic| with_reducible apply Verif.Proofs.EndsTopsky.parseLocation)
theorem nextLocation (ts : List (Tree Rule)) : Ends (Parse.Topsky.nextLocation (F := F) ts) := by unfold Parse.Topsky.nextLocation; ends
macro_rules | `(tactic| ends1) => `(tactic| with_reducible apply Verif.Proofs.EndsTopsky.nextLocation)
theorem parseLabel (pair : Tree Rule) : Ends (Parse.Topsky.parseLabel (F := F) pair) := by unfold Parse.Topsky.parseLabel; ends
macro_rules | `(tactic| ends1) => `(tactic| with_reducible apply Verif.Proofs.EndsTopsky.parseLabel)
theorem parseOptLabel (ts : List (Tree Rule)) : Ends (Parse.Topsky.parseOptLabel (F := F) ts) := by unfold Parse.Topsky.parseOptLabel; ends
macro_rules | `(tactic| ends1) => `(tactic| with_reducible apply Verif.Proofs.EndsTopsky.parseOptLabel)
theorem skipAlignment (ts : List (Tree Rule)) : Ends (Parse.Topsky.skipAlignment ts) := by unfold Parse.Topsky.skipAlignment; ends
macro_rules | `(tactic| ends1) => `(tactic| with_reducible apply Verif.Proofs.EndsTopsky.skipAlignment)
theorem parseMapSymbol (pair : Tree Rule) : Ends (Parse.Topsky.parseMapSymbol (F := F) pair) := by unfold Parse.Topsky.parseMapSymbol; ends
macro_rules | `(tactic| ends1) => `(tactic| with_reducible apply Verif.Proofs.EndsTopsky.parseMapSymbol)
theorem parseText (pair : Tree Rule) : Ends (Parse.Topsky.parseText (F := F) pair) := by unfold Parse.Topsky.parseText; ends
macro_rules | `(tactic| ends1) => `(tactic| with_reducible apply Verif.Proofs.EndsTopsky.parseText)
theorem parseEnds (pair : Tree Rule) : Ends (Parse.Topsky.parseEnds (F := F) pair) := by unfold Parse.Topsky.parseEnds; ends
macro_rules | `(tactic| ends1) => `(tactic| with_reducible apply Verif.Proofs.EndsTopsky.parseEnds)
theorem parseMapLine (pair : Tree Rule) : Ends (Parse.Topsky.parseMapLine (F := F) pair) := by unfold Parse.Topsky.parseMapLine; ends
macro_rules | `(tactic| ends1) => `(tactic| with_reducible apply Verif.Proofs.EndsTopsky.parseMapLine)
theorem nextF32 (ts : List (Tree Rule)) : Ends (Parse.Topsky.nextF32 (G := G) ts) := by unfold Parse.Topsky.nextF32; ends
macro_rules | `(tactic| ends1) => `(tactic| with_reducible apply Verif.Proofs.EndsTopsky.nextF32)
theorem sizeOf (m : Str) (g : G) : Ends (Parse.Topsky.sizeOf m g) := by unfold Parse.Topsky.sizeOf; ends
macro_rules | `(tactic| ends1) => `(tactic| with_reducible apply Verif.Proofs.EndsTopsky.sizeOf)
theorem parseFontSize (pair : Tree Rule) : Ends (Parse.Topsky.parseFontSize (G := G) pair) := by unfold Parse.Topsky.parseFontSize; ends
macro_rules | `(tactic| ends1) => `(tactic| with_reducible apply Verif.Proofs.EndsTopsky.parseFontSize)
theorem parseLineStyle (u : Str → Str) (pair : Tree Rule) : Ends (Parse.Topsky.parseLineStyle u pair) := by unfold Parse.Topsky.parseLineStyle; ends
macro_rules | `(tactic| ends1) => `(tactic| with_reducible apply Verif.Proofs.EndsTopsky.parseLineStyle)
theorem parseMapRule (u : Str → Str) (pair : Tree Rule) : Ends (Parse.Topsky.parseMapRule (F := F) (G := G) u pair) := by unfold Parse.Topsky.parseMapRule; ends
macro_rules | `(tactic| ends1) => `(tactic| with_reducible apply Verif.Proofs.EndsTopsky.parseMapRule)
theorem parseMap (u : Str → Str) (pair : Tree Rule) : Ends (Parse.Topsky.parseMap (F := F) (G := G) u pair) := by unfold Parse.Topsky.parseMap; ends
macro_rules | `(tactic| ends1) => `(tactic| with_reducible apply Verif.Proofs.EndsTopsky.parseMap)
theorem parseLinestyle (pair : Tree Rule) : Ends (Parse.Topsky.parseLinestyle (G := G) pair) := by unfold Parse.Topsky.parseLinestyle; ends
macro_rules | `(tactic| ends1) => `(tactic| with_reducible apply Verif.Proofs.EndsTopsky.parseLinestyle)
theorem nextU8 (ts : List (Tree Rule)) : Ends (Parse.Topsky.nextU8 ts) := by unfold Parse.Topsky.nextU8; ends
macro_rules | `(tactic| ends1) => `(tactic| with_reducible apply Verif.Proofs.EndsTopsky.nextU8)
theorem parseColour (pair : Tree Rule) : Ends (Parse.Topsky.parseColour pair) := by unfold Parse.Topsky.parseColour; ends
macro_rules | `(tactic| ends1) => `(tactic| with_reducible apply Verif.Proofs.EndsTopsky.parseColour)
theorem parseOverride (pair : Tree Rule) : Ends (Parse.Topsky.parseOverride pair) := by unfold Parse.Topsky.parseOverride; ends
macro_rules | `(tactic| ends1) => `(tactic| with_reducible apply Verif.Proofs.EndsTopsky.parseOverride)
theorem parseDefinition (u : Str → Str) (pair : Tree Rule) : Ends (Parse.Topsky.parseDefinition (F := F) (G := G) u pair) := by unfold Parse.Topsky.parseDefinition; ends
macro_rules | `(tactic| ends1) => `(tactic| with_reducible apply Verif.Proofs.EndsTopsky.parseDefinition)
theorem parseMaps (u : Str → Str) (content : Str) : Ends (Parse.Topsky.parseMaps (F := F) (G := G) u content) := by
  exact ends_bind (ends_run (Verif.Props.C01_topsky_maps _)) fun _ => by ends
macro_rules | `(tactic| ends1) => `(tactic| with_reducible apply Verif.Proofs.EndsTopsky.parseMaps)
end
end EndsTopsky

namespace EndsTopskySettings
open Verif.Parse.TopskySettings
section
open Verif.Peg.TopskySettings (Rule)
theorem parseColour (pair : Tree Rule) : Ends (Parse.TopskySettings.parseColour pair) := by unfold Parse.TopskySettings.parseColour; ends
macro_rules | `(tactic| ends1) => `(tactic| with_reducible apply Verif.Proofs.EndsTopskySettings.parseColour)
theorem parseSetting (pair : Tree Rule) : Ends (Parse.TopskySettings.parseSetting pair) := by unfold Parse.TopskySettings.parseSetting; ends
macro_rules | `(tactic| ends1) => `(tactic| with_reducible apply Verif.Proofs.EndsTopskySettings.parseSetting)
theorem parse (content : Str) : Ends (Parse.TopskySettings.parse content) := by
  exact ends_bind (ends_run (Verif.Props.C01_topsky_settings _)) fun _ => by ends
macro_rules | `(tactic| ends1) => `(tactic| with_reducible apply Verif.Proofs.EndsTopskySettings.parse)
end
end EndsTopskySettings

namespace EndsSymbology
open Verif.Parse.Symbology
section
open Verif.Peg.Symbology (Rule)
variable {F G : Type} [F64 F] [F64 G] [Dms.DmsArith F] [DecidableEq F] [SymbolRule.Close F] [UnicodeTables]
theorem parseLinestyle (pair : Tree Rule) : Ends (Parse.Symbology.parseLinestyle pair) := by unfold Parse.Symbology.parseLinestyle; ends
macro_rules | `(tactic| ends1) => `(tactic| with_reducible apply Verif.Proofs.EndsSymbology.parseLinestyle)
theorem horizontalOf (v : Nat) : Ends (Parse.Symbology.horizontalOf v) := by unfold Parse.Symbology.horizontalOf; ends
macro_rules | `(tactic| ends1) => `(tactic| with_reducible apply Verif.Proofs.EndsSymbology.horizontalOf)
theorem verticalOf (v : Nat) : Ends (Parse.Symbology.verticalOf v) := by unfold Parse.Symbology.verticalOf; ends
macro_rules | `(tactic| ends1) => `(tactic| with_reducible apply Verif.Proofs.EndsSymbology.verticalOf)
theorem parseAlignment (pair : Tree Rule) : Ends (Parse.Symbology.parseAlignment pair) := by unfold Parse.Symbology.parseAlignment; ends
macro_rules | `(tactic| ends1) => `(tactic| with_reducible apply Verif.Proofs.EndsSymbology.parseAlignment)
theorem parseItem (pair : Tree Rule) : Ends (Parse.Symbology.parseItem (G := G) pair) := by unfold Parse.Symbology.parseItem; ends
macro_rules | `(tactic| ends1) => `(tactic| with_reducible apply Verif.Proofs.EndsSymbology.parseItem)
theorem parseSymbolRules (pair : Tree Rule) : Ends (Parse.Symbology.parseSymbolRules (F := F) pair) := by unfold Parse.Symbology.parseSymbolRules; ends
macro_rules | `(tactic| ends1) => `(tactic| with_reducible apply Verif.Proofs.EndsSymbology.parseSymbolRules)
theorem step (acc : Symbology F G) (pair : Tree Rule) : Ends (Parse.Symbology.step acc pair) := by unfold Parse.Symbology.step; ends
macro_rules | `(tactic| ends1) => `(tactic| with_reducible apply Verif.Proofs.EndsSymbology.step)
theorem parse (content : Str) : Ends (Parse.Symbology.parse (F := F) (G := G) content) := by
  exact ends_bind (ends_run (Verif.Props.C01_symbology _)) fun _ => by ends
macro_rules | `(tactic| ends1) => `(tactic| with_reducible apply Verif.Proofs.EndsSymbology.parse)
end
end EndsSymbology

end Verif.Proofs
