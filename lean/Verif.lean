import Verif.Model.Basic
import Verif.Model.Benchmark
import Verif.Model.BenchmarkMeasure
import Verif.Model.BenchmarkRun
import Verif.Model.BenchmarkTemplate
import Verif.Model.BuildEnvironment
import Verif.Model.Calculator
import Verif.Model.Calculators
import Verif.Model.Constexpr
import Verif.Model.Debug
import Verif.Model.Derived
import Verif.Model.GenerateAll
import Verif.Model.GenerateMain
import Verif.Model.GettingStarted
import Verif.Model.Grammar
import Verif.Model.GrammarExamples
import Verif.Model.HeaderCpp
import Verif.Model.Inclusion
import Verif.Model.InclusionData
import Verif.Model.Lambda
import Verif.Model.MetaHs
import Verif.Model.MetaHsEval
import Verif.Model.Numbers
import Verif.Model.Parser
import Verif.Model.ParsingError
import Verif.Model.Preprocessor
import Verif.Model.Regexp
import Verif.Model.Str
import Verif.Model.StringHeaders
import Verif.Model.Templates.Grammar
import Verif.Model.Templates.Headers98
import Verif.Model.Templates.Library
import Verif.Model.Templates.Names
import Verif.Model.Templates.Parsers
import Verif.Model.Templates.Prelude
import Verif.Model.Templates.Semantics
import Verif.Model.Templates.Support
import Verif.Model.Templates.Syntax
import Verif.Spec.Agreement
import Verif.Spec.Alternatives
import Verif.Spec.Benchmark
import Verif.Spec.BenchmarkMeasure
import Verif.Spec.BenchmarkRun
import Verif.Spec.BenchmarkTemplate
import Verif.Spec.BuildEnvironment
import Verif.Spec.Calculator
import Verif.Spec.Chars
import Verif.Spec.Constexpr
import Verif.Spec.Contexts
import Verif.Spec.Debug
import Verif.Spec.Depth
import Verif.Spec.Fold
import Verif.Spec.Forms
import Verif.Spec.Formula
import Verif.Spec.GenerateAgain
import Verif.Spec.GenerateAll
import Verif.Spec.GenerateMain
import Verif.Spec.GenerateNotes
import Verif.Spec.GenerateSnippets
import Verif.Spec.GettingStarted
import Verif.Spec.Grammar
import Verif.Spec.GrammarExamples
import Verif.Spec.GrammarMeaning
import Verif.Spec.Honest
import Verif.Spec.Inclusion
import Verif.Spec.InclusionUse
import Verif.Spec.Instantiations
import Verif.Spec.LeftRecursion
import Verif.Spec.MetaHs
import Verif.Spec.MetaHsEval
import Verif.Spec.MetaHsExample
import Verif.Spec.Modular
import Verif.Spec.Numbers
import Verif.Spec.Outcome
import Verif.Spec.Peg
import Verif.Spec.Reference
import Verif.Spec.Regexp
import Verif.Spec.Sequences
import Verif.Spec.Str
import Verif.Spec.Subparsers
import Verif.Spec.Templates
import Verif.Spec.TemplatesApply
import Verif.Spec.TemplatesChoice
import Verif.Spec.TemplatesGrammar
import Verif.Spec.TemplatesStandards
import Verif.Spec.TemplatesStrings
import Verif.Spec.Text
import Verif.Spec.TutorialErrors
import Verif.Spec.Typing
import Verif.Spec.Unseen
import Verif.Spec.WellFormed
import Verif.Lemmas.Balance
import Verif.Lemmas.Benchmark
import Verif.Lemmas.BenchmarkFiles
import Verif.Lemmas.BenchmarkMeasure
import Verif.Lemmas.BenchmarkRun
import Verif.Lemmas.BenchmarkTemplate
import Verif.Lemmas.Bracketed
import Verif.Lemmas.BuildEnvironment
import Verif.Lemmas.Calculator
import Verif.Lemmas.Chains
import Verif.Lemmas.Chars
import Verif.Lemmas.Check
import Verif.Lemmas.Cont
import Verif.Lemmas.Contexts
import Verif.Lemmas.Depth
import Verif.Lemmas.ExpressionBrackets
import Verif.Lemmas.ExpressionParsers
import Verif.Lemmas.ExpressionTexts
import Verif.Lemmas.Expressions
import Verif.Lemmas.Finish
import Verif.Lemmas.Folds
import Verif.Lemmas.Formula
import Verif.Lemmas.GenerateAgain
import Verif.Lemmas.GenerateAgainAll
import Verif.Lemmas.GenerateAgainRun
import Verif.Lemmas.GenerateAgainStep
import Verif.Lemmas.GenerateCommands
import Verif.Lemmas.GenerateCopies
import Verif.Lemmas.GenerateDefinitions
import Verif.Lemmas.GenerateFresh
import Verif.Lemmas.GenerateHeaders
import Verif.Lemmas.GenerateKeeps
import Verif.Lemmas.GenerateMain
import Verif.Lemmas.GenerateNotes
import Verif.Lemmas.GeneratePages
import Verif.Lemmas.GenerateParse
import Verif.Lemmas.GenerateRuns
import Verif.Lemmas.GenerateSnippets
import Verif.Lemmas.GenerateTexts
import Verif.Lemmas.GenerateTwice
import Verif.Lemmas.GettingStarted
import Verif.Lemmas.GrammarBuild
import Verif.Lemmas.GrammarExamples
import Verif.Lemmas.GrammarRules
import Verif.Lemmas.GrammarTokens
import Verif.Lemmas.HeaderEval
import Verif.Lemmas.HeaderExpand
import Verif.Lemmas.HeaderLex
import Verif.Lemmas.HeaderMacros
import Verif.Lemmas.HeaderParse
import Verif.Lemmas.HeaderPreprocess
import Verif.Lemmas.HeaderProgram
import Verif.Lemmas.Honest
import Verif.Lemmas.InclusionCheck
import Verif.Lemmas.InclusionCore
import Verif.Lemmas.InclusionHeaders
import Verif.Lemmas.InclusionModes
import Verif.Lemmas.InclusionOwners
import Verif.Lemmas.InclusionSound
import Verif.Lemmas.InclusionStart
import Verif.Lemmas.InclusionTitles
import Verif.Lemmas.Instantiations
import Verif.Lemmas.Invariant
import Verif.Lemmas.Levels
import Verif.Lemmas.Lists
import Verif.Lemmas.Lookahead
import Verif.Lemmas.MayBeEmpty
import Verif.Lemmas.MetaHsComplete
import Verif.Lemmas.MetaHsLevels
import Verif.Lemmas.MetaHsLimit
import Verif.Lemmas.MetaHsSound
import Verif.Lemmas.MetaHsTexts
import Verif.Lemmas.MetaHsTokens
import Verif.Lemmas.MetaHsYields
import Verif.Lemmas.Modular
import Verif.Lemmas.Out
import Verif.Lemmas.Peg
import Verif.Lemmas.Position
import Verif.Lemmas.ReadsTo
import Verif.Lemmas.RightProducts
import Verif.Lemmas.Sim
import Verif.Lemmas.Str
import Verif.Lemmas.StrLit
import Verif.Lemmas.Subparsers
import Verif.Lemmas.Templates.Basic
import Verif.Lemmas.Templates.Bodies
import Verif.Lemmas.Templates.Build
import Verif.Lemmas.Templates.Choice
import Verif.Lemmas.Templates.ChoiceLibrary
import Verif.Lemmas.Templates.Data
import Verif.Lemmas.Templates.Den
import Verif.Lemmas.Templates.DenLists
import Verif.Lemmas.Templates.Folds
import Verif.Lemmas.Templates.Functions
import Verif.Lemmas.Templates.Functions11
import Verif.Lemmas.Templates.Functions98
import Verif.Lemmas.Templates.GrammarChain
import Verif.Lemmas.Templates.GrammarClasses
import Verif.Lemmas.Templates.GrammarDepth
import Verif.Lemmas.Templates.GrammarParsers
import Verif.Lemmas.Templates.Headers
import Verif.Lemmas.Templates.Helpers
import Verif.Lemmas.Templates.Inject
import Verif.Lemmas.Templates.Inputs
import Verif.Lemmas.Templates.Lists
import Verif.Lemmas.Templates.Lists11
import Verif.Lemmas.Templates.Lists98
import Verif.Lemmas.Templates.Modes
import Verif.Lemmas.Templates.Numbers
import Verif.Lemmas.Templates.Params
import Verif.Lemmas.Templates.Repeated
import Verif.Lemmas.Templates.Resolve
import Verif.Lemmas.Templates.RuleSim
import Verif.Lemmas.Templates.Rules
import Verif.Lemmas.Templates.SequenceApply
import Verif.Lemmas.Templates.Spell
import Verif.Lemmas.Templates.Step
import Verif.Lemmas.Templates.StringMpl
import Verif.Lemmas.Templates.StringOps
import Verif.Lemmas.Templates.Strings
import Verif.Lemmas.Templates.Util
import Verif.Lemmas.Templates.UtilMeta
import Verif.Lemmas.Templates.Values
import Verif.Lemmas.Terminate
import Verif.Lemmas.Typing
import Verif.Lemmas.TypingLibrary
import Verif.Lemmas.Unseen
import Verif.Lemmas.Viable
import Verif.Props.Alternatives
import Verif.Props.Backtracking
import Verif.Props.Benchmark
import Verif.Props.BenchmarkMeasure
import Verif.Props.BenchmarkRun
import Verif.Props.BenchmarkTemplate
import Verif.Props.Brackets
import Verif.Props.BuildEnvironment
import Verif.Props.Calculator
import Verif.Props.Calculators
import Verif.Props.Chars
import Verif.Props.Choice
import Verif.Props.ClassArguments
import Verif.Props.Constexpr
import Verif.Props.Consume
import Verif.Props.Contexts
import Verif.Props.Debug
import Verif.Props.Depth
import Verif.Props.FoldDirection
import Verif.Props.Folds
import Verif.Props.Forms
import Verif.Props.GenerateAgain
import Verif.Props.GenerateAll
import Verif.Props.GenerateMain
import Verif.Props.GenerateNotes
import Verif.Props.GenerateSnippets
import Verif.Props.Grammar
import Verif.Props.GrammarExamples
import Verif.Props.GrammarMeaning
import Verif.Props.Inclusion
import Verif.Props.Independence
import Verif.Props.Instantiations
import Verif.Props.Lambda
import Verif.Props.Laws
import Verif.Props.LeftRecursion
import Verif.Props.MetaHs
import Verif.Props.MetaHsEval
import Verif.Props.MetaHsExample
import Verif.Props.MetaHsLimits
import Verif.Props.Modular
import Verif.Props.Numbers
import Verif.Props.ParsingError
import Verif.Props.Peg
import Verif.Props.Positions
import Verif.Props.Reference
import Verif.Props.Regexp
import Verif.Props.Sequences
import Verif.Props.StringHeaders
import Verif.Props.StringLiterals
import Verif.Props.Strings
import Verif.Props.Sums
import Verif.Props.Templates
import Verif.Props.Templates98
import Verif.Props.TemplatesApply
import Verif.Props.TemplatesChoice
import Verif.Props.TemplatesGrammar
import Verif.Props.TemplatesStandards
import Verif.Props.TemplatesStrings
import Verif.Props.TemplatesUtil
import Verif.Props.Termination
import Verif.Props.Tutorial
import Verif.Props.TutorialErrors
import Verif.Props.Typing
import Verif.Props.Unseen
import Verif.Props.Wrappers
import Verif.Tests.Folds
import Verif.Tests.Grammar
import Verif.Tests.Harness
import Verif.Tests.Parsers
import Verif.Tests.Strings
import Verif.Tests.Util
