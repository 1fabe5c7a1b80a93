import Verif.Lemmas.ActionErrors
import Verif.Lemmas.BareLoc
import Verif.Lemmas.Basic
import Verif.Lemmas.BlockComplete
import Verif.Lemmas.BlockSound
import Verif.Lemmas.CBuf
import Verif.Lemmas.CheckSafe
import Verif.Lemmas.Checkable
import Verif.Lemmas.Checks
import Verif.Lemmas.CompleteNodes
import Verif.Lemmas.Cursor
import Verif.Lemmas.Disablings
import Verif.Lemmas.Dispatch
import Verif.Lemmas.Enclosing
import Verif.Lemmas.Exceptions
import Verif.Lemmas.FcInMemory
import Verif.Lemmas.FileComplete
import Verif.Lemmas.FileSound
import Verif.Lemmas.Heap
import Verif.Lemmas.HeapParse
import Verif.Lemmas.HeapWalk
import Verif.Lemmas.Kept
import Verif.Lemmas.Lalr
import Verif.Lemmas.LalrAccepts
import Verif.Lemmas.LalrComplete
import Verif.Lemmas.LalrConditions
import Verif.Lemmas.LalrDerives
import Verif.Lemmas.LalrEnded
import Verif.Lemmas.LalrEnds
import Verif.Lemmas.LalrErrors
import Verif.Lemmas.LalrFits
import Verif.Lemmas.LalrItems
import Verif.Lemmas.LalrMessages
import Verif.Lemmas.LalrPhases
import Verif.Lemmas.LalrPrefix
import Verif.Lemmas.LalrRuns
import Verif.Lemmas.LalrSyntax
import Verif.Lemmas.Lex
import Verif.Lemmas.LexRules
import Verif.Lemmas.LexTokens
import Verif.Lemmas.LineCache
import Verif.Lemmas.LinesComplete
import Verif.Lemmas.Lis
import Verif.Lemmas.ListsInMemory
import Verif.Lemmas.Loc
import Verif.Lemmas.Location
import Verif.Lemmas.LrActions
import Verif.Lemmas.LrBlocks
import Verif.Lemmas.LrDerives
import Verif.Lemmas.LrEval
import Verif.Lemmas.LrExplained
import Verif.Lemmas.LrFiles
import Verif.Lemmas.LrGiveUp
import Verif.Lemmas.LrKeeps
import Verif.Lemmas.LrKeepsBlocks
import Verif.Lemmas.LrKeepsContexts
import Verif.Lemmas.LrKeepsFiles
import Verif.Lemmas.LrKeepsLines
import Verif.Lemmas.LrKeepsLists
import Verif.Lemmas.LrLike
import Verif.Lemmas.LrLined
import Verif.Lemmas.LrLinedBlocks
import Verif.Lemmas.LrLinedExplained
import Verif.Lemmas.LrLinedFiles
import Verif.Lemmas.LrLinedKeeps
import Verif.Lemmas.LrLinedLines
import Verif.Lemmas.LrLinedLists
import Verif.Lemmas.LrLinedMacros
import Verif.Lemmas.LrLook
import Verif.Lemmas.LrMachine
import Verif.Lemmas.LrRuns
import Verif.Lemmas.LrSound
import Verif.Lemmas.LrStatements
import Verif.Lemmas.LrValues
import Verif.Lemmas.M4
import Verif.Lemmas.Maps
import Verif.Lemmas.MapsInMemory
import Verif.Lemmas.Marked
import Verif.Lemmas.Memory
import Verif.Lemmas.NulFree
import Verif.Lemmas.Ordering
import Verif.Lemmas.Owning
import Verif.Lemmas.Parse
import Verif.Lemmas.ParseFc
import Verif.Lemmas.ParseGrown
import Verif.Lemmas.ParseNodes
import Verif.Lemmas.ParseSafe
import Verif.Lemmas.ParseShape
import Verif.Lemmas.ParseSound
import Verif.Lemmas.ParseTables
import Verif.Lemmas.ParserStack
import Verif.Lemmas.Parsing
import Verif.Lemmas.ParsingActions
import Verif.Lemmas.ParsingRuns
import Verif.Lemmas.PermMacro
import Verif.Lemmas.PermSelect
import Verif.Lemmas.PlaceRun
import Verif.Lemmas.PlainExec
import Verif.Lemmas.Present
import Verif.Lemmas.Report
import Verif.Lemmas.Run
import Verif.Lemmas.RunSafe
import Verif.Lemmas.Runner
import Verif.Lemmas.Sections
import Verif.Lemmas.SimpleParser
import Verif.Lemmas.Single
import Verif.Lemmas.SortKey
import Verif.Lemmas.Start
import Verif.Lemmas.StmtParser
import Verif.Lemmas.StringList
import Verif.Lemmas.SyntaxOutput
import Verif.Lemmas.Tally
import Verif.Lemmas.TemplateInMemory
import Verif.Lemmas.TokParser
import Verif.Lemmas.TokenTexts
import Verif.Lemmas.Tree
import Verif.Lemmas.Written
import Verif.Model.ActionErrors
import Verif.Model.Basic
import Verif.Model.CBuf
import Verif.Model.Config
import Verif.Model.Dispatch
import Verif.Model.Display
import Verif.Model.FcChecks
import Verif.Model.FcInMemory
import Verif.Model.Flavors
import Verif.Model.Free
import Verif.Model.Getopt
import Verif.Model.Grammar
import Verif.Model.Heap
import Verif.Model.HeapParse
import Verif.Model.Hooks
import Verif.Model.IfChecks
import Verif.Model.LalrDriver
import Verif.Model.LalrTables
import Verif.Model.Lex
import Verif.Model.LineCache
import Verif.Model.ListsInMemory
import Verif.Model.Location
import Verif.Model.Lr
import Verif.Model.LrLines
import Verif.Model.Main
import Verif.Model.MainText
import Verif.Model.Maps
import Verif.Model.MapsInMemory
import Verif.Model.Memory
import Verif.Model.ModulesConf
import Verif.Model.NamesInMemory
import Verif.Model.Ordering
import Verif.Model.ParseFc
import Verif.Model.ParseFunctions
import Verif.Model.ParseInMemory
import Verif.Model.Parser
import Verif.Model.ParserStack
import Verif.Model.ParsingText
import Verif.Model.PermMacro
import Verif.Model.Register
import Verif.Model.Run
import Verif.Model.Runner
import Verif.Model.ScanText
import Verif.Model.Selint
import Verif.Model.SpokenText
import Verif.Model.StartText
import Verif.Model.StringList
import Verif.Model.SummaryText
import Verif.Model.SyntaxMessage
import Verif.Model.SyntaxOutput
import Verif.Model.TeChecks
import Verif.Model.Template
import Verif.Model.TemplateInMemory
import Verif.Model.Token
import Verif.Model.Transform
import Verif.Model.Tree
import Verif.Model.Usage
import Verif.Model.Whole
import Verif.Props.ActionErrors
import Verif.Props.Averages
import Verif.Props.Catalogue
import Verif.Props.Colours
import Verif.Props.CommandLine
import Verif.Props.Complete
import Verif.Props.Config
import Verif.Props.Dispatch
import Verif.Props.Display
import Verif.Props.FcChecks
import Verif.Props.FcMemory
import Verif.Props.Freeing
import Verif.Props.Getopt
import Verif.Props.Heap
import Verif.Props.IfChecks
import Verif.Props.Lex
import Verif.Props.LineCache
import Verif.Props.ListsInMemory
import Verif.Props.LongDefinitions
import Verif.Props.M4
import Verif.Props.Main
import Verif.Props.MainText
import Verif.Props.ManyWords
import Verif.Props.Maps
import Verif.Props.MapsInMemory
import Verif.Props.ModulesConf
import Verif.Props.MoreChecks
import Verif.Props.Names
import Verif.Props.NamesInMemory
import Verif.Props.Ordering
import Verif.Props.OrderingPair
import Verif.Props.OrderingReport
import Verif.Props.OrderingRules
import Verif.Props.Parse
import Verif.Props.ParseFc
import Verif.Props.ParseMemory
import Verif.Props.ParseSafe
import Verif.Props.ParseTables
import Verif.Props.Parser
import Verif.Props.ParserEnds
import Verif.Props.ParserLines
import Verif.Props.ParserMemory
import Verif.Props.ParserRuns
import Verif.Props.ParserSound
import Verif.Props.ParserStack
import Verif.Props.ParserTables
import Verif.Props.ParsingMore
import Verif.Props.ParsingOrder
import Verif.Props.ParsingText
import Verif.Props.PartialForms
import Verif.Props.PermMacro
import Verif.Props.PermMask
import Verif.Props.Permissions
import Verif.Props.PlaceChecks
import Verif.Props.Places
import Verif.Props.Policy
import Verif.Props.Rules
import Verif.Props.Run
import Verif.Props.Runner
import Verif.Props.Safety
import Verif.Props.Scan
import Verif.Props.ScanExact
import Verif.Props.ScanText
import Verif.Props.Sections
import Verif.Props.Selection
import Verif.Props.Selint
import Verif.Props.Silence
import Verif.Props.Source
import Verif.Props.SpokenText
import Verif.Props.Start
import Verif.Props.StartText
import Verif.Props.Statements
import Verif.Props.StringLists
import Verif.Props.Summary
import Verif.Props.SupportNamed
import Verif.Props.SyntaxErrors
import Verif.Props.SyntaxMessages
import Verif.Props.SyntaxOutput
import Verif.Props.TeChecks
import Verif.Props.Template
import Verif.Props.TemplateInMemory
import Verif.Props.TextDefined
import Verif.Props.Tokens
import Verif.Props.Transform
import Verif.Props.Usage
import Verif.Props.Verbose
import Verif.Props.Words
import Verif.Spec.ActionErrors
import Verif.Spec.Catalogue
import Verif.Spec.Checks
import Verif.Spec.Colours
import Verif.Spec.CommandLine
import Verif.Spec.Config
import Verif.Spec.Derivation
import Verif.Spec.Dispatch
import Verif.Spec.Exceptions
import Verif.Spec.FcChecks
import Verif.Spec.FcInMemory
import Verif.Spec.Getopt
import Verif.Spec.Heap
import Verif.Spec.IfChecks
import Verif.Spec.Lalr
import Verif.Spec.Lex
import Verif.Spec.LineCache
import Verif.Spec.ListsInMemory
import Verif.Spec.Lr
import Verif.Spec.LrLines
import Verif.Spec.Main
import Verif.Spec.MainText
import Verif.Spec.Maps
import Verif.Spec.MapsInMemory
import Verif.Spec.Memory
import Verif.Spec.ModulesConf
import Verif.Spec.Names
import Verif.Spec.Ordering
import Verif.Spec.OrderingRules
import Verif.Spec.Parse
import Verif.Spec.ParseFc
import Verif.Spec.ParseInMemory
import Verif.Spec.ParserStack
import Verif.Spec.ParsingText
import Verif.Spec.PermMacro
import Verif.Spec.Report
import Verif.Spec.Run
import Verif.Spec.Runner
import Verif.Spec.ScanExact
import Verif.Spec.ScanText
import Verif.Spec.Sections
import Verif.Spec.Selection
import Verif.Spec.Sentences
import Verif.Spec.Single
import Verif.Spec.Start
import Verif.Spec.StartText
import Verif.Spec.Summary
import Verif.Spec.SyntaxMessages
import Verif.Spec.SyntaxOutput
import Verif.Spec.Tables
import Verif.Spec.Tame
import Verif.Spec.TeChecks
import Verif.Spec.Template
import Verif.Spec.TemplateInMemory
import Verif.Spec.Tokens
import Verif.Spec.Transform
import Verif.Spec.Tree
import Verif.Spec.Usage
import Verif.Spec.Words
