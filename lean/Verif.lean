import Verif.Base.Core
import Verif.Base.Lit
import Verif.Base.Map
import Verif.Base.Num
import Verif.Base.NumDec
import Verif.Base.Radix
import Verif.Base.Sep
import Verif.Base.ShowNat
import Verif.Base.Sort
import Verif.Base.Unicode
import Verif.Grammar.Airway
import Verif.Grammar.Asr
import Verif.Grammar.Base
import Verif.Grammar.Ese
import Verif.Grammar.IcaoAircraft
import Verif.Grammar.IcaoAirlines
import Verif.Grammar.IcaoAirports
import Verif.Grammar.Isec
import Verif.Grammar.NavdataAirports
import Verif.Grammar.Prf
import Verif.Grammar.Sct
import Verif.Grammar.Symbology
import Verif.Grammar.Topsky
import Verif.Grammar.TopskySettings
import Verif.Model.Adaptation
import Verif.Model.AdaptationJson
import Verif.Model.AirwayGraph
import Verif.Model.Binary64
import Verif.Model.Colours
import Verif.Model.Constraints
import Verif.Model.Contains
import Verif.Model.Decode
import Verif.Model.DefaultColours
import Verif.Model.Display
import Verif.Model.Dms
import Verif.Model.DmsFmt
import Verif.Model.Double
import Verif.Model.EseAirspace
import Verif.Model.Json
import Verif.Model.JsonFloat
import Verif.Model.JsonText
import Verif.Model.Lines
import Verif.Model.Locations
import Verif.Model.Maps
import Verif.Model.Overlays
import Verif.Model.Polygon
import Verif.Model.PrfPaths
import Verif.Model.Quantize
import Verif.Model.SctItems
import Verif.Model.SctWrite
import Verif.Model.SectorIndex
import Verif.Model.Sectors
import Verif.Model.Settings
import Verif.Model.Setup
import Verif.Model.SharedIndex
import Verif.Model.Squawks
import Verif.Model.Texts
import Verif.Parse.Airway
import Verif.Parse.Asr
import Verif.Parse.Ese
import Verif.Parse.Icao
import Verif.Parse.Isec
import Verif.Parse.Prf
import Verif.Parse.Sct
import Verif.Parse.SymbolRule
import Verif.Parse.Symbology
import Verif.Parse.Topsky
import Verif.Parse.TopskySettings
import Verif.Peg.All
import Verif.Peg.Blank
import Verif.Peg.Block
import Verif.Peg.Build
import Verif.Peg.Chars
import Verif.Peg.Core
import Verif.Peg.Ended
import Verif.Peg.Exact
import Verif.Peg.Infix
import Verif.Peg.Kids
import Verif.Peg.KidsAttr
import Verif.Peg.LineEnds
import Verif.Peg.Lines
import Verif.Peg.NewLines
import Verif.Peg.Numbers
import Verif.Peg.Safe
import Verif.Peg.Seg
import Verif.Peg.Solid
import Verif.Peg.Sound
import Verif.Peg.Tab
import Verif.Peg.Text
import Verif.Peg.Toks
import Verif.Peg.Txt
import Verif.Proofs.Accepts
import Verif.Proofs.Adaptation
import Verif.Proofs.AdaptationContents
import Verif.Proofs.AdaptationJson
import Verif.Proofs.AdaptationKeys
import Verif.Proofs.AdaptationSectors
import Verif.Proofs.Airway
import Verif.Proofs.AirwayChain
import Verif.Proofs.AirwayFile
import Verif.Proofs.AirwayGraph
import Verif.Proofs.AirwayOrder
import Verif.Proofs.AirwayPositions
import Verif.Proofs.AirwayTraverse
import Verif.Proofs.AirwayWay
import Verif.Proofs.Asr
import Verif.Proofs.AsrExact
import Verif.Proofs.AsrFile
import Verif.Proofs.AsrPanic
import Verif.Proofs.AsrText
import Verif.Proofs.Binary64
import Verif.Proofs.Contains
import Verif.Proofs.ContainsMore
import Verif.Proofs.Converted
import Verif.Proofs.Decode
import Verif.Proofs.Display
import Verif.Proofs.DmsFmt
import Verif.Proofs.Double
import Verif.Proofs.Ends
import Verif.Proofs.EndsAsr
import Verif.Proofs.EndsCore
import Verif.Proofs.EndsLoad
import Verif.Proofs.EseFile
import Verif.Proofs.EseItems
import Verif.Proofs.EseLines
import Verif.Proofs.EseNames
import Verif.Proofs.EsePanic
import Verif.Proofs.EseStatements
import Verif.Proofs.EseTokens
import Verif.Proofs.Gated
import Verif.Proofs.Icao
import Verif.Proofs.IcaoFile
import Verif.Proofs.IcaoSound
import Verif.Proofs.IcaoTable
import Verif.Proofs.InOrder
import Verif.Proofs.Isec
import Verif.Proofs.Joined
import Verif.Proofs.Json
import Verif.Proofs.JsonDepth
import Verif.Proofs.JsonFloat
import Verif.Proofs.JsonLines
import Verif.Proofs.JsonText
import Verif.Proofs.JsonWrite
import Verif.Proofs.Jsonnet
import Verif.Proofs.LineEnds
import Verif.Proofs.LineEndsEse
import Verif.Proofs.LineEndsPrf
import Verif.Proofs.LineEndsSct
import Verif.Proofs.Locations
import Verif.Proofs.LocationsCoord
import Verif.Proofs.Loop
import Verif.Proofs.MapFolders
import Verif.Proofs.Maps
import Verif.Proofs.Moved
import Verif.Proofs.OriginEse
import Verif.Proofs.OriginSct
import Verif.Proofs.OriginTopsky
import Verif.Proofs.Polygon
import Verif.Proofs.PolygonInit
import Verif.Proofs.Post
import Verif.Proofs.Prf
import Verif.Proofs.PrfPaths
import Verif.Proofs.Quantize
import Verif.Proofs.Reordered
import Verif.Proofs.Schema
import Verif.Proofs.SctBare
import Verif.Proofs.SctBlocks
import Verif.Proofs.SctDrawings
import Verif.Proofs.SctEntries
import Verif.Proofs.SctFile
import Verif.Proofs.SctInfo
import Verif.Proofs.SctItems
import Verif.Proofs.SctNames
import Verif.Proofs.SctPanic
import Verif.Proofs.SctSections
import Verif.Proofs.SctText
import Verif.Proofs.SctTokens
import Verif.Proofs.SctWriteBack
import Verif.Proofs.SctWriteEntries
import Verif.Proofs.SctWriteFile
import Verif.Proofs.SctWriteLines
import Verif.Proofs.SctWriteName
import Verif.Proofs.SctWriteRead
import Verif.Proofs.SectorIndex
import Verif.Proofs.Sectors
import Verif.Proofs.Settings
import Verif.Proofs.Setup
import Verif.Proofs.SharedIndex
import Verif.Proofs.Sources
import Verif.Proofs.Squawks
import Verif.Proofs.SymbolRule
import Verif.Proofs.SymbolRuleSound
import Verif.Proofs.SymbologyAccepts
import Verif.Proofs.SymbologyFile
import Verif.Proofs.SymbologyPanic
import Verif.Proofs.TopskyCond
import Verif.Proofs.TopskyEntry
import Verif.Proofs.TopskyFile
import Verif.Proofs.TopskyLines
import Verif.Proofs.TopskyNames
import Verif.Proofs.TopskyPanic
import Verif.Proofs.TopskyParts
import Verif.Proofs.TopskySegs
import Verif.Proofs.TopskySetting
import Verif.Proofs.TopskySettingRead
import Verif.Proofs.TopskySettings
import Verif.Proofs.TopskySettingsBad
import Verif.Proofs.TopskySettingsFile
import Verif.Proofs.TopskySettingsSound
import Verif.Proofs.TopskySymbolsSound
import Verif.Proofs.TopskyText
import Verif.Proofs.TwoKey
import Verif.Proofs.TwoRuns
import Verif.Props.Accepts
import Verif.Props.AcceptsExample
import Verif.Props.Adaptation
import Verif.Props.AdaptationAirways
import Verif.Props.AdaptationContents
import Verif.Props.AdaptationContentsExample
import Verif.Props.AdaptationExample
import Verif.Props.AdaptationJson
import Verif.Props.AdaptationJsonExample
import Verif.Props.AdaptationLoad
import Verif.Props.AdaptationLoadExample
import Verif.Props.AdaptationOrigin
import Verif.Props.AdaptationOriginExample
import Verif.Props.AdaptationVolumes
import Verif.Props.Airway
import Verif.Props.AirwayGraph
import Verif.Props.AirwayPositions
import Verif.Props.AirwayWay
import Verif.Props.Asr
import Verif.Props.AsrExact
import Verif.Props.Binary64
import Verif.Props.Colours
import Verif.Props.Constraints
import Verif.Props.Contains
import Verif.Props.Converted
import Verif.Props.ConvertedExample
import Verif.Props.Cut
import Verif.Props.CutJson
import Verif.Props.CutSymbology
import Verif.Props.Decode
import Verif.Props.Display
import Verif.Props.Dms
import Verif.Props.Ese
import Verif.Props.EseAirspace
import Verif.Props.Icao
import Verif.Props.Isec
import Verif.Props.IsecDoubles
import Verif.Props.Joined
import Verif.Props.JsonFloat
import Verif.Props.JsonFloatExample
import Verif.Props.JsonText
import Verif.Props.JsonTextExample
import Verif.Props.LineEnds
import Verif.Props.Lines
import Verif.Props.Locations
import Verif.Props.Maps
import Verif.Props.Origin
import Verif.Props.OriginAirway
import Verif.Props.OriginMore
import Verif.Props.OriginTables
import Verif.Props.OriginTopsky
import Verif.Props.Polygon
import Verif.Props.Prf
import Verif.Props.PrfPaths
import Verif.Props.Quantize
import Verif.Props.Reordered
import Verif.Props.ReorderedMore
import Verif.Props.Schema
import Verif.Props.SchemaExample
import Verif.Props.SchemaFields
import Verif.Props.Sct
import Verif.Props.SctItems
import Verif.Props.SctWrite
import Verif.Props.SectorIndex
import Verif.Props.Sectors
import Verif.Props.Settings
import Verif.Props.Setup
import Verif.Props.SetupErrors
import Verif.Props.SetupErrorsExample
import Verif.Props.SetupExample
import Verif.Props.SharedIndex
import Verif.Props.Sources
import Verif.Props.SourcesExample
import Verif.Props.Squawks
import Verif.Props.Stable
import Verif.Props.StableExample
import Verif.Props.Symbology
import Verif.Props.Terminates
import Verif.Props.Termination
import Verif.Props.Texts
import Verif.Props.Topsky
import Verif.Props.TopskySettings
import Verif.Props.TwoKey
import Verif.Props.TwoRuns
import Verif.Props.TwoRunsExample
import Verif.Spec.Adaptation
import Verif.Spec.AdaptationContents
import Verif.Spec.AdaptationLoad
import Verif.Spec.Airway
import Verif.Spec.AirwayGraph
import Verif.Spec.AirwayPositions
import Verif.Spec.AirwayWay
import Verif.Spec.Asr
import Verif.Spec.AsrExact
import Verif.Spec.Binary64
import Verif.Spec.Colours
import Verif.Spec.Contains
import Verif.Spec.Converted
import Verif.Spec.Cut
import Verif.Spec.Decode
import Verif.Spec.Display
import Verif.Spec.Dms
import Verif.Spec.Ese
import Verif.Spec.Filler
import Verif.Spec.Icao
import Verif.Spec.InOrder
import Verif.Spec.Isec
import Verif.Spec.Json
import Verif.Spec.JsonFloat
import Verif.Spec.JsonText
import Verif.Spec.Jsonnet
import Verif.Spec.LineEnds
import Verif.Spec.LineEndsNames
import Verif.Spec.Locations
import Verif.Spec.Maps
import Verif.Spec.Moved
import Verif.Spec.Origin
import Verif.Spec.OriginTopsky
import Verif.Spec.Polygon
import Verif.Spec.Prf
import Verif.Spec.PrfPaths
import Verif.Spec.Quantize
import Verif.Spec.Reordered
import Verif.Spec.ReorderedMore
import Verif.Spec.Schema
import Verif.Spec.Sct
import Verif.Spec.SctDouble
import Verif.Spec.SctItems
import Verif.Spec.SctWrite
import Verif.Spec.SectorIndex
import Verif.Spec.Sectors
import Verif.Spec.Settings
import Verif.Spec.Setup
import Verif.Spec.SharedIndex
import Verif.Spec.Sources
import Verif.Spec.Spaced
import Verif.Spec.Squawks
import Verif.Spec.SymbolRule
import Verif.Spec.Symbology
import Verif.Spec.Texts
import Verif.Spec.Topsky
import Verif.Spec.TopskySettings
import Verif.Spec.TwoRuns
import Verif.Tokens.Airway
import Verif.Tokens.Asr
import Verif.Tokens.Ese
import Verif.Tokens.IcaoAircraft
import Verif.Tokens.IcaoAirlines
import Verif.Tokens.IcaoAirports
import Verif.Tokens.Isec
import Verif.Tokens.NavdataAirports
import Verif.Tokens.Prf
import Verif.Tokens.Sct
import Verif.Tokens.Symbology
import Verif.Tokens.Topsky
import Verif.Tokens.TopskySettings
