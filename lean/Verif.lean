import Verif.Util.KRfl
import Verif.Model.Base
import Verif.Model.BigDecimal
import Verif.Model.Double
import Verif.Model.DateTime
import Verif.Model.Version
import Verif.Model.Value
import Verif.Model.DataType
import Verif.Model.Operators
import Verif.Model.Functions
import Verif.Model.Node
import Verif.Model.Eval
import Verif.Model.Lexer
import Verif.Model.Parser
import Verif.Model.Listener
import Verif.Model.Api
import Verif.Model.Cache
import Verif.Model.Registry
import Verif.Tests.RepoTests
import Verif.Tests.ParserTests
import Verif.Spec.Syntax
import Verif.Lemmas.Digits
import Verif.Lemmas.Lexing
import Verif.Lemmas.LexTok
import Verif.Lemmas.LexSeq
import Verif.Lemmas.LexValid
import Verif.Lemmas.Fuel
import Verif.Lemmas.FuelEnough
import Verif.Lemmas.Parsing
import Verif.Spec.Text
import Verif.Lemmas.Written
import Verif.Lemmas.Listening
import Verif.Spec.Lexemes
import Verif.Spec.Expr
import Verif.Lemmas.Canon
import Verif.Lemmas.Literals
import Verif.Lemmas.Reading
import Verif.Lemmas.Unfold
import Verif.Lemmas.NonNull
import Verif.Lemmas.Meaning
import Verif.Spec.Fragment
import Verif.Lemmas.Fragment
import Verif.Lemmas.Checker
import Verif.Props.Pipeline
import Verif.Spec.Numbers
import Verif.Lemmas.Numbers
import Verif.Lemmas.Compare
import Verif.Spec.Kinds
import Verif.Lemmas.Kinds
import Verif.Lemmas.VersionCmp
import Verif.Lemmas.NumText
import Verif.Props.Comparison
import Verif.Spec.Paths
import Verif.Lemmas.Paths
import Verif.Lemmas.Agree
import Verif.Props.Data
import Verif.Spec.Lists
import Verif.Lemmas.Lists
import Verif.Props.Conditions
import Verif.Spec.Arithmetic
import Verif.Lemmas.Arithmetic
import Verif.Props.Arithmetic
import Verif.Spec.Functions
import Verif.Lemmas.Functions
import Verif.Lemmas.Functions2
import Verif.Props.Functions
import Verif.Spec.Tokens
import Verif.Lemmas.Tokens
import Verif.Lemmas.Cutting
import Verif.Lemmas.Trailing
import Verif.Spec.Relit
import Verif.Lemmas.Relit
import Verif.Lemmas.HugeLiteral
import Verif.Props.Lexical
import Verif.Model.Lookup
import Verif.Model.Session
import Verif.Lemmas.Lookup
import Verif.Lemmas.State
import Verif.Props.State
import Verif.Spec.Ladder
import Verif.Lemmas.Ladder
import Verif.Props.Precedence
import Verif.Spec.Ranges
import Verif.Lemmas.Ranges
import Verif.Lemmas.NodeRange
import Verif.Props.Ranges
import Verif.Spec.Grammar
import Verif.Lemmas.Grammar
import Verif.Lemmas.Local
import Verif.Props.Grammar
import Verif.Spec.Mentions
import Verif.Lemmas.Sim
import Verif.Lemmas.SimEval
import Verif.Lemmas.Mentions
import Verif.Lemmas.Texts
import Verif.Lemmas.Kept
import Verif.Props.Texts
import Verif.Spec.Reference
import Verif.Lemmas.Reference
import Verif.Spec.Typing
import Verif.Lemmas.Typing
import Verif.Props.Typing
import Verif.Lemmas.Yield
import Verif.Lemmas.Placed
import Verif.Lemmas.Blame
import Verif.Lemmas.ParseFail
import Verif.Props.Failures
import Verif.Spec.Nodes
import Verif.Spec.Inline
import Verif.Lemmas.CondNode
import Verif.Lemmas.Inline
import Verif.Spec.Polynomial
import Verif.Props.Rewriting
import Verif.Props.Splitting
import Verif.Spec.NumericLogic
import Verif.Props.NumericLogic
import Verif.Model.ATN
import Verif.Model.LexerData
import Verif.Model.LexerSim
import Verif.Lemmas.LexerTables
import Verif.Lemmas.LexerCheck
import Verif.Lemmas.Automaton
import Verif.Lemmas.LexerRules
import Verif.Lemmas.LexerCompiled
import Verif.Props.Compiled
import Verif.Spec.Mixed
import Verif.Lemmas.Mixed
import Verif.Props.Mixed
import Verif.Model.Recovery
import Verif.Lemmas.Recovery
import Verif.Lemmas.RecoveryAgree
import Verif.Lemmas.RecoveryClean
import Verif.Lemmas.RecoveryListen
import Verif.Lemmas.Unclosed
import Verif.Lemmas.RecoveryFail
import Verif.Lemmas.Ending
import Verif.Props.Recovery
import Verif.Lemmas.Slips
import Verif.Props.Slips
import Verif.Model.ParserData
import Verif.Model.ParserRun
import Verif.Lemmas.ParserTables
import Verif.Lemmas.ParserLang
import Verif.Lemmas.ParserComplete
import Verif.Lemmas.ParserTree
import Verif.Lemmas.ParserUnique
import Verif.Lemmas.ParserNext
import Verif.Props.CompiledParser
import Verif.Lemmas.Made
import Verif.Lemmas.Causes
import Verif.Lemmas.CauseEval
import Verif.Spec.Causes
import Verif.Lemmas.CauseTexts
import Verif.Props.Causes
import Verif.Spec.Releases
import Verif.Lemmas.ReleaseCmp
import Verif.Props.Releases
import Verif.Spec.Printing
import Verif.Lemmas.Printing
import Verif.Props.Printing
import Verif.Lemmas.RecoveryFrom
import Verif.Lemmas.AnyText
import Verif.Props.AnyText
import Verif.Spec.Families
import Verif.Lemmas.LookupOn
import Verif.Lemmas.Families
import Verif.Lemmas.CustomTypes
import Verif.Props.CustomTypes
import Verif.Spec.DateTexts
import Verif.Spec.Texts
import Verif.Lemmas.DateTexts
import Verif.Props.DateTexts
import Verif.Spec.Atoms
import Verif.Lemmas.Stack
import Verif.Lemmas.Exact
import Verif.Lemmas.ExactCond
import Verif.Lemmas.Respell
import Verif.Props.Understood
import Verif.Spec.ResultTypes
import Verif.Lemmas.ResultTypes
import Verif.Props.ResultTypes
import Verif.Spec.Locale
import Verif.Model.Locale
import Verif.Lemmas.Locale
import Verif.Lemmas.LocaleTexts
import Verif.Lemmas.LocaleSays
import Verif.Props.Locale
import Verif.Model.Heap
import Verif.Model.Sharing
import Verif.Spec.Heap
import Verif.Lemmas.HeapFrame
import Verif.Lemmas.HeapEval
import Verif.Lemmas.Sharing
import Verif.Props.Sharing
import Verif.Model.Threads
import Verif.Spec.Threads
import Verif.Lemmas.ThreadSteps
import Verif.Lemmas.Threads
import Verif.Props.Threads
import Verif.Model.NullArgs
import Verif.Lemmas.NullArgs
import Verif.Props.NullArgs
import Verif.Lemmas.Scripts
import Verif.Spec.NumberTexts
import Verif.Lemmas.NumberTexts
import Verif.Props.NumberTexts
import Verif.Spec.AnyCauses
import Verif.Lemmas.AnyMade
import Verif.Lemmas.AnyLone
import Verif.Lemmas.AnyCauses
import Verif.Lemmas.Patterns
import Verif.Props.AnyCauses
import Verif.Spec.AnyRename
import Verif.Lemmas.RecoveryRel
import Verif.Lemmas.AnySim
import Verif.Props.AnyRename
import Verif.Spec.Outside
import Verif.Lemmas.Outside
import Verif.Props.Outside
import Verif.Spec.Size
import Verif.Lemmas.Size
import Verif.Props.Size
import Verif.Model.Ask
import Verif.Spec.Ask
import Verif.Lemmas.Ask
import Verif.Lemmas.AskCond
import Verif.Props.Ask
import Verif.Spec.Order
import Verif.Props.Order
import Verif.Spec.Seen
import Verif.Lemmas.Seen
import Verif.Props.Seen
import Verif.Model.Message
import Verif.Spec.Message
import Verif.Lemmas.Message
import Verif.Props.Message
import Verif.Model.Nested
import Verif.Spec.Nested
import Verif.Lemmas.Nested
import Verif.Props.Nested
import Verif.Props.AnyRange
import Verif.Model.HandMade
import Verif.Spec.HandMade
import Verif.Lemmas.HandMade
import Verif.Props.HandMade
import Verif.Lemmas.SeenLists
import Verif.Props.SeenLists
import Verif.Model.Wrapped
import Verif.Spec.Wrapped
import Verif.Lemmas.Wrapped
import Verif.Props.Wrapped
import Verif.Spec.Least
import Verif.Lemmas.Least
import Verif.Props.Least
import Verif.Model.Wording
import Verif.Spec.Wording
import Verif.Lemmas.Wording
import Verif.Lemmas.WordingTests
import Verif.Lemmas.WordingEval
import Verif.Lemmas.WordingTold
import Verif.Props.Wording
import Verif.Spec.Verbatim
import Verif.Model.Verbatim
import Verif.Lemmas.Verbatim
import Verif.Lemmas.VerbatimListen
import Verif.Lemmas.VerbatimParse
import Verif.Lemmas.VerbatimSays
import Verif.Lemmas.VerbatimTold
import Verif.Lemmas.VerbatimAgree
import Verif.Lemmas.VerbatimTexts
import Verif.Lemmas.VerbatimNames
import Verif.Spec.Refusal
import Verif.Lemmas.RefusalSame
import Verif.Lemmas.RefusalTree
import Verif.Lemmas.Refusal
import Verif.Lemmas.RefusalExact
import Verif.Props.Refusal
