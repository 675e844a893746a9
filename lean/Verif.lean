import Verif.Model.Parser
import Verif.Model.Emitter
import Verif.Model.Codegen
import Verif.Spec.TreeText
import Verif.Proofs.CodegenSim
import Verif.Spec.Static
import Verif.Spec.Grammar
import Verif.Proofs.ParseBase
import Verif.Spec.Source
import Verif.Spec.PanicCauses
import Verif.Proofs.ParseLogic
import Verif.Proofs.ParseRules
import Verif.Proofs.GrammarFacts
import Verif.Proofs.ParseRec
import Verif.Proofs.ParseBinding
import Verif.Proofs.ParseFunction
import Verif.Proofs.ParseLiteral
import Verif.Proofs.ParseMember
import Verif.Proofs.ParsePrimary
import Verif.Proofs.ParseExpr
import Verif.Proofs.ParseAssign
import Verif.Proofs.ParseStmt
import Verif.Proofs.ParseIteration
import Verif.Proofs.ParseModule
import Verif.Proofs.ParseAll
import Verif.Proofs.ParseProgram
import Verif.Proofs.LexRead
import Verif.Props.Lexer
import Verif.Props.Chars
import Verif.Props.Tables
import Verif.Props.StaticSemantics
import Verif.Props.Span
import Verif.Props.Emitter
import Verif.Props.Traverse
import Verif.Props.Codegen
import Verif.Props.Minify
import Verif.Props.Cli
import Verif.Props.RoundTrip
import Verif.Props.Parser
import Verif.Props.Positions
import Verif.Spec.Nodes
import Verif.Spec.Text
import Verif.Spec.Accepts
import Verif.Proofs.NodeKids
import Verif.Proofs.NodePlace
import Verif.Proofs.NodeFacts
import Verif.Proofs.NodeText
import Verif.Proofs.NodeOrder
import Verif.Proofs.NodeProps
import Verif.Props.ParserTree
import Verif.Props.Directives
import Verif.Spec.Core
import Verif.Proofs.CompleteBase
import Verif.Proofs.CompleteOps
import Verif.Proofs.CompleteExpr
import Verif.Proofs.CompletePrimary
import Verif.Proofs.CompleteRules
import Verif.Proofs.CompleteOperators
import Verif.Proofs.Complete
import Verif.Props.Complete
import Verif.Props.CompleteEx
import Verif.Spec.Strip
import Verif.Spec.Printed
import Verif.Spec.Fits
import Verif.Proofs.PrintProgram

import Verif.Spec.Layout
import Verif.Proofs.LayoutSource
import Verif.Proofs.LayoutBase
import Verif.Proofs.LayoutAttr
import Verif.Proofs.LayoutStrip
import Verif.Proofs.LayoutValue
import Verif.Proofs.LayoutTac
import Verif.Proofs.LayoutFunc
import Verif.Proofs.LayoutLit
import Verif.Proofs.LayoutExpr
import Verif.Proofs.LayoutStmt
import Verif.Proofs.LayoutModule
import Verif.Proofs.LayoutProgram
import Verif.Proofs.LayoutCheck
import Verif.Props.Layout
import Verif.Model.Serde
import Verif.Spec.AllSpans
import Verif.Spec.JsonText
import Verif.Proofs.SerdeBase
import Verif.Proofs.SerdeTrip
import Verif.Proofs.SerdeProgram
import Verif.Proofs.SerdePanic
import Verif.Proofs.SpansTree
import Verif.Props.Serde
import Verif.Model.Mutate
import Verif.Spec.TreeMaps
import Verif.Spec.Reading
import Verif.Spec.Rewrites
import Verif.Proofs.MutateBase
import Verif.Proofs.MutateRead
import Verif.Proofs.MutateSize
import Verif.Proofs.MutateMap
import Verif.Proofs.MutateRewrite
import Verif.Props.Mutate
import Verif.Proofs.LexShift
import Verif.Proofs.LayoutLead
import Verif.Proofs.LayoutEquiv
import Verif.Model.Markdown
import Verif.Spec.Markdown
import Verif.Proofs.Markdown
import Verif.Props.Markdown
import Verif.Spec.JsonShape
import Verif.Proofs.SerdeShape
import Verif.Model.Debug
import Verif.Spec.Debug
import Verif.Proofs.Debug
import Verif.Proofs.DebugSim
import Verif.Proofs.DebugParse
import Verif.Props.Debug
import Verif.Props.CliFormat
import Verif.Model.JsonText
import Verif.Spec.JsonNesting
import Verif.Proofs.JsonText
import Verif.Model.Snapshot
import Verif.Proofs.Snapshot
import Verif.Props.Snapshot
import Verif.Model.TestFiles
import Verif.Spec.TestFiles
import Verif.Proofs.TestFiles
import Verif.Props.TestFiles
import Verif.Spec.Kind
import Verif.Proofs.KindLex
import Verif.Proofs.KindSim
import Verif.Props.Kind
import Verif.Spec.SameChars
import Verif.Proofs.TablesLex
import Verif.Proofs.TablesSim
import Verif.Props.SameTables
