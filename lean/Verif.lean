import Verif.Model.Basic
import Verif.Model.Source
import Verif.Model.Utf8
import Verif.Model.Report
import Verif.Spec.Source
import Verif.Lemmas.Source
import Verif.Lemmas.Utf8
import Verif.Props.Source
import Verif.Model.Decoder
import Verif.Props.Decoder
import Verif.Model.Stacks
import Verif.Model.Context
import Verif.Props.Stacks
import Verif.Model.Tokens
import Verif.Model.ReservedWords
import Verif.Lemmas.ReservedWords
import Verif.Props.ReservedWords
import Verif.Model.Buffer
import Verif.Model.Lexer.Core
import Verif.Model.Lexer.Numeric
import Verif.Model.Lexer.String
import Verif.Model.Lexer.Heredoc
import Verif.Model.Lexer.Names
import Verif.Model.Lexer.Magic
import Verif.Model.Lexer.Main
import Verif.Lemmas.Lines
import Verif.Lemmas.Buffer
import Verif.Lemmas.LexWp
import Verif.Lemmas.LexStep
import Verif.Lemmas.LexTac
import Verif.Lemmas.LexNumeric
import Verif.Lemmas.Reader
import Verif.Props.Reader
import Verif.Props.Escapes
import Verif.Lemmas.LexCore
import Verif.Lemmas.LexEscape
import Verif.Lemmas.LexNames
import Verif.Lemmas.LexLine
import Verif.Lemmas.LexString
import Verif.Lemmas.LexLiteral
import Verif.Lemmas.LexHeredoc
import Verif.Lemmas.LexMagic
import Verif.Lemmas.LexQuiet
import Verif.Lemmas.LexRet
import Verif.Lemmas.LexOps
import Verif.Spec.Comment
import Verif.Lemmas.LexComment
import Verif.Lemmas.LexNewline
import Verif.Lemmas.LexDispatch
import Verif.Lemmas.LexMain
import Verif.Model.Driver
import Verif.Lemmas.LexRun
import Verif.Props.Lexing
import Verif.Lemmas.LexStop
import Verif.Model.Ast
import Verif.Model.Builder.Core
import Verif.Model.Builder.Build
import Verif.Spec.Builder
import Verif.Props.BuilderChecks
import Verif.Spec.Number
import Verif.Lemmas.LexNumber
import Verif.Lemmas.LexKeeps
import Verif.Lemmas.LexToken
import Verif.Props.Numbers
import Verif.Lemmas.LexNumText
import Verif.Lemmas.LexGrows
import Verif.Lemmas.LexRetNum
import Verif.Lemmas.LexNumSound
import Verif.Props.Records
import Verif.Model.Grammar.Types
import Verif.Model.Grammar.Table
import Verif.Model.Grammar.Run
import Verif.Lemmas.GrammarSummary
import Verif.Lemmas.GrammarCheck
import Verif.Lemmas.GrammarSound
import Verif.Lemmas.GrammarBits
import Verif.Lemmas.GrammarScope
import Verif.Props.Grammar
import Verif.Props.Strings
import Verif.Lemmas.LexNeut
import Verif.Lemmas.LexNest
import Verif.Props.Brackets
import Verif.Spec.Located
import Verif.Lemmas.Place
import Verif.Lemmas.PlaceKids
import Verif.Lemmas.PlaceTac
import Verif.Lemmas.PlaceRun
import Verif.Lemmas.PlaceBuild
import Verif.Lemmas.PlaceBuild2
import Verif.Lemmas.PlaceBuild3
import Verif.Lemmas.PlaceBuild4
import Verif.Lemmas.PlaceBuild5
import Verif.Lemmas.PlaceBuild6
import Verif.Lemmas.PlaceBuild7
import Verif.Model.Grammar.Values
import Verif.Model.Grammar.Outs
import Verif.Model.Grammar.Eval
import Verif.Spec.Placed
import Verif.Lemmas.ValueSound
import Verif.Lemmas.ValueTable
import Verif.Lemmas.ValueEval
import Verif.Props.Locations
import Verif.Spec.Shape
import Verif.Spec.Calls
import Verif.Lemmas.ShapeKinds
import Verif.Lemmas.ShapeSafe
import Verif.Lemmas.ShapeBuild
import Verif.Lemmas.ShapeBuild2
import Verif.Lemmas.ShapeBuild3
import Verif.Lemmas.ShapeAbs
import Verif.Lemmas.ShapeFn
import Verif.Lemmas.ShapeTable
import Verif.Props.Shape
import Verif.Spec.Words
import Verif.Spec.WellRead
import Verif.Lemmas.CalmSteps
import Verif.Lemmas.CalmBuild
import Verif.Lemmas.CalmBuild2
import Verif.Lemmas.TokTable
import Verif.Lemmas.CalmFn
import Verif.Props.NoPanic
import Verif.Model.Grammar.Parse
import Verif.Lemmas.ParseSteps
import Verif.Lemmas.ParseFn
import Verif.Lemmas.ParseTable
import Verif.Lemmas.ParseAct
import Verif.Lemmas.ParseSound
import Verif.Props.Parse
import Verif.Spec.Scope
import Verif.Lemmas.ParseEvals
import Verif.Lemmas.ScopeSum
import Verif.Lemmas.ScopeAdd
import Verif.Lemmas.ScopeTable
import Verif.Lemmas.ScopeParts
import Verif.Lemmas.ScopeFn
import Verif.Lemmas.ScopeNodes
import Verif.Lemmas.ScopeSpecial
import Verif.Lemmas.ScopeGrow
import Verif.Lemmas.ScopeEx
import Verif.Lemmas.ScopeApply
import Verif.Lemmas.ScopeApply2
import Verif.Lemmas.ScopeFits
import Verif.Lemmas.ScopeWalk
import Verif.Lemmas.ScopeSound
import Verif.Props.Scope
import Verif.Lemmas.ReadLits
import Verif.Lemmas.ReadText
import Verif.Lemmas.ReadOps
import Verif.Lemmas.ReadSteps
import Verif.Lemmas.ReadNum
import Verif.Lemmas.ReadNames
import Verif.Lemmas.ReadVars
import Verif.Lemmas.ReadRest
import Verif.Lemmas.ReadStrings
import Verif.Lemmas.ReadAll
import Verif.Lemmas.ReadRun
import Verif.Props.Read
import Verif.Model.Paced
import Verif.Spec.Order
import Verif.Lemmas.LexOrder
import Verif.Props.Order
import Verif.Spec.Inside
import Verif.Lemmas.MethodSum
import Verif.Lemmas.MethodFn
import Verif.Lemmas.MethodCheck
import Verif.Lemmas.MethodApply
import Verif.Lemmas.MethodSound
import Verif.Props.Methods
import Verif.Spec.Escapes
import Verif.Lemmas.LexDenotes
import Verif.Props.Expansion
import Verif.Spec.Operators
import Verif.Lemmas.LexInfix
import Verif.Lemmas.LexOpTable
import Verif.Lemmas.LexOpName
import Verif.Props.Operators
import Verif.Spec.Names
import Verif.Lemmas.LexWord
import Verif.Props.Names
import Verif.Spec.Variables
import Verif.Lemmas.LexVars
import Verif.Props.Variables
import Verif.Lemmas.LexGap
import Verif.Lemmas.LexNl
import Verif.Lemmas.LexRemark
import Verif.Lemmas.LexStr
import Verif.Lemmas.LexSym
import Verif.Lemmas.LexLead
import Verif.Lemmas.LexFixed
import Verif.Lemmas.LexChain
import Verif.Spec.Lines
import Verif.Props.Lines
