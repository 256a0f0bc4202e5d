import Verif.Model.Access
import Verif.Model.Actions
import Verif.Model.Api
import Verif.Model.Atoms
import Verif.Model.Chars
import Verif.Model.Ctll
import Verif.Model.Cursor
import Verif.Model.Depth
import Verif.Model.Eval
import Verif.Model.First
import Verif.Model.FixedString
import Verif.Model.Grammar
import Verif.Model.IterSteps
import Verif.Model.Iterators
import Verif.Model.Ll1
import Verif.Model.Parser
import Verif.Model.PointSet
import Verif.Model.Results
import Verif.Model.Rotate
import Verif.Model.Static
import Verif.Model.Steps
import Verif.Model.TypeList
import Verif.Model.UniApi
import Verif.Model.UniCats
import Verif.Model.UniDouble
import Verif.Model.UniEnums
import Verif.Model.UniLookup
import Verif.Model.UniNames
import Verif.Model.UniNumeric
import Verif.Model.UniPropsA
import Verif.Model.UniPropsB
import Verif.Model.UniRanges
import Verif.Model.UniText
import Verif.Model.Unicode
import Verif.Model.Utf8
import Verif.Model.Utf8Iter
import Verif.Model.Wrapper
import Verif.Spec.Accepted
import Verif.Spec.Anchored
import Verif.Spec.Anchoring
import Verif.Spec.Api
import Verif.Spec.Assert
import Verif.Spec.Behind
import Verif.Spec.Blind
import Verif.Spec.Calls
import Verif.Spec.Caseless
import Verif.Spec.Classes
import Verif.Spec.Combined
import Verif.Spec.Compiles
import Verif.Spec.Conjoin
import Verif.Spec.Ctll
import Verif.Spec.Cursor
import Verif.Spec.Cuts
import Verif.Spec.Depth
import Verif.Spec.Double
import Verif.Spec.FirstSets
import Verif.Spec.Flat
import Verif.Spec.Fusion
import Verif.Spec.Hooked
import Verif.Spec.Indifferent
import Verif.Spec.Inner
import Verif.Spec.Iterate
import Verif.Spec.Language
import Verif.Spec.Letters
import Verif.Spec.Literal
import Verif.Spec.Loops
import Verif.Spec.Modes
import Verif.Spec.Numbers
import Verif.Spec.Numeral
import Verif.Spec.OneCase
import Verif.Spec.PcreGram
import Verif.Spec.PointSet
import Verif.Spec.Properties
import Verif.Spec.Recase
import Verif.Spec.Regroup
import Verif.Spec.Reorder
import Verif.Spec.Report
import Verif.Spec.Respell
import Verif.Spec.Rigid
import Verif.Spec.Robust
import Verif.Spec.Runs
import Verif.Spec.Scan
import Verif.Spec.Semantics
import Verif.Spec.Shapes
import Verif.Spec.Sharpen
import Verif.Spec.Shift
import Verif.Spec.Spelling
import Verif.Spec.Static
import Verif.Spec.Steady
import Verif.Spec.Steps
import Verif.Spec.Surface
import Verif.Spec.SurfaceWays
import Verif.Spec.Terminates
import Verif.Spec.TextLanguage
import Verif.Spec.Times
import Verif.Spec.Ucd
import Verif.Spec.UcdApi
import Verif.Spec.UcdBlocks
import Verif.Spec.UcdGc
import Verif.Spec.UcdNumeric
import Verif.Spec.UcdProps
import Verif.Spec.UcdScripts
import Verif.Spec.UcdScx
import Verif.Spec.Unambiguous
import Verif.Spec.Undecided
import Verif.Spec.Utf8
import Verif.Spec.Utf8Forms
import Verif.Spec.Ways
import Verif.Spec.Widen
import Verif.Spec.Within
import Verif.Spec.Written
import Verif.Lemmas.Access
import Verif.Lemmas.Anchored
import Verif.Lemmas.Anchoring
import Verif.Lemmas.Api
import Verif.Lemmas.Assert
import Verif.Lemmas.Attempt
import Verif.Lemmas.Behind
import Verif.Lemmas.Blind
import Verif.Lemmas.Caseless
import Verif.Lemmas.Chars
import Verif.Lemmas.Classes
import Verif.Lemmas.Collides
import Verif.Lemmas.Compiles
import Verif.Lemmas.Conjoin
import Verif.Lemmas.Ctll
import Verif.Lemmas.CtllPcre
import Verif.Lemmas.Cursor
import Verif.Lemmas.Depth
import Verif.Lemmas.DepthMono
import Verif.Lemmas.Embed
import Verif.Lemmas.EvalEqs
import Verif.Lemmas.FirstRun
import Verif.Lemmas.FirstSame
import Verif.Lemmas.FirstSound
import Verif.Lemmas.FixedString
import Verif.Lemmas.Flat
import Verif.Lemmas.FlatEval
import Verif.Lemmas.Fusion
import Verif.Lemmas.GreedyFlags
import Verif.Lemmas.GreedyOpt
import Verif.Lemmas.Hooked
import Verif.Lemmas.Indifferent
import Verif.Lemmas.Inner
import Verif.Lemmas.IterSteps
import Verif.Lemmas.Iterate
import Verif.Lemmas.Language
import Verif.Lemmas.Letters
import Verif.Lemmas.Literal
import Verif.Lemmas.Ll1
import Verif.Lemmas.LoopSem
import Verif.Lemmas.Loops
import Verif.Lemmas.Merge
import Verif.Lemmas.Modes
import Verif.Lemmas.Mono
import Verif.Lemmas.Nullable
import Verif.Lemmas.Numbering
import Verif.Lemmas.OneCase
import Verif.Lemmas.ParseBack
import Verif.Lemmas.ParseBackBody
import Verif.Lemmas.ParseBody
import Verif.Lemmas.ParsePrint
import Verif.Lemmas.ParseSets
import Verif.Lemmas.ParseSteps
import Verif.Lemmas.ParseStuck
import Verif.Lemmas.ParseTokens
import Verif.Lemmas.ParserFuel
import Verif.Lemmas.PcreGram
import Verif.Lemmas.PcreGramData
import Verif.Lemmas.PcreGramPrefix
import Verif.Lemmas.PcreGramRun
import Verif.Lemmas.PointSet
import Verif.Lemmas.PointSetExact
import Verif.Lemmas.Pos
import Verif.Lemmas.Prefix
import Verif.Lemmas.PrintInj
import Verif.Lemmas.Recase
import Verif.Lemmas.Refine
import Verif.Lemmas.Regroup
import Verif.Lemmas.RegularClosed
import Verif.Lemmas.Renumber
import Verif.Lemmas.Reorder
import Verif.Lemmas.Repeated
import Verif.Lemmas.Respell
import Verif.Lemmas.Rigid
import Verif.Lemmas.Robust
import Verif.Lemmas.Runs
import Verif.Lemmas.Safe
import Verif.Lemmas.SafeApi
import Verif.Lemmas.Scan
import Verif.Lemmas.Sem
import Verif.Lemmas.Sharpen
import Verif.Lemmas.Sharpened
import Verif.Lemmas.Shift
import Verif.Lemmas.Single
import Verif.Lemmas.Slots
import Verif.Lemmas.SoundComplete
import Verif.Lemmas.Spelling
import Verif.Lemmas.Split
import Verif.Lemmas.Static
import Verif.Lemmas.StaticCount
import Verif.Lemmas.StaticExact
import Verif.Lemmas.StaticSame
import Verif.Lemmas.StaticTame
import Verif.Lemmas.StaticText
import Verif.Lemmas.Steps
import Verif.Lemmas.StepsMono
import Verif.Lemmas.StepsPoly
import Verif.Lemmas.StepsSharp
import Verif.Lemmas.SurfaceCaps
import Verif.Lemmas.SurfaceFirm
import Verif.Lemmas.SurfaceFit
import Verif.Lemmas.SurfaceMeaning
import Verif.Lemmas.SurfaceOrder
import Verif.Lemmas.SurfaceSem
import Verif.Lemmas.Swap
import Verif.Lemmas.Terminates
import Verif.Lemmas.TextLanguage
import Verif.Lemmas.TextPlain
import Verif.Lemmas.Times
import Verif.Lemmas.Transfer
import Verif.Lemmas.TypeList
import Verif.Lemmas.Unambiguous
import Verif.Lemmas.UniApi
import Verif.Lemmas.UniBits
import Verif.Lemmas.UniDenotes
import Verif.Lemmas.UniDouble
import Verif.Lemmas.UniGc
import Verif.Lemmas.UniNames
import Verif.Lemmas.UniNumeric
import Verif.Lemmas.UniProps
import Verif.Lemmas.UniReject
import Verif.Lemmas.UniRows
import Verif.Lemmas.UniSafe
import Verif.Lemmas.UniScripts
import Verif.Lemmas.UniScx
import Verif.Lemmas.UniSearch
import Verif.Lemmas.Utf8
import Verif.Lemmas.Utf8Forms
import Verif.Lemmas.WaysEval
import Verif.Lemmas.WaysFirm
import Verif.Lemmas.WaysLoop
import Verif.Lemmas.WaysRefine
import Verif.Lemmas.WaysReport
import Verif.Lemmas.WaysStack
import Verif.Lemmas.Widen
import Verif.Lemmas.Written
import Verif.Lemmas.ZeroTerminated
import Verif.Props.Accepted
import Verif.Props.Access
import Verif.Props.Again
import Verif.Props.Anchored
import Verif.Props.Anchoring
import Verif.Props.Anchors
import Verif.Props.Api
import Verif.Props.Behind
import Verif.Props.BinaryProps
import Verif.Props.Blind
import Verif.Props.Bounds
import Verif.Props.Brackets
import Verif.Props.Caseless
import Verif.Props.Categories
import Verif.Props.Classes
import Verif.Props.Combined
import Verif.Props.Compare
import Verif.Props.Compiles
import Verif.Props.Conjoin
import Verif.Props.Control
import Verif.Props.Ctll
import Verif.Props.Decides
import Verif.Props.Default
import Verif.Props.Depth
import Verif.Props.Double
import Verif.Props.Either
import Verif.Props.Endless
import Verif.Props.Escapes
import Verif.Props.FirstSets
import Verif.Props.FixedString
import Verif.Props.Fusion
import Verif.Props.GreedyOpt
import Verif.Props.Indifferent
import Verif.Props.IterSteps
import Verif.Props.Iteration
import Verif.Props.Language
import Verif.Props.Letters
import Verif.Props.Literal
import Verif.Props.Literals
import Verif.Props.Loops
import Verif.Props.Malformed
import Verif.Props.Modes
import Verif.Props.Msvc
import Verif.Props.Numbers
import Verif.Props.Numeric
import Verif.Props.Operators
import Verif.Props.Parser
import Verif.Props.PcreGram
import Verif.Props.Pipe
import Verif.Props.PointSet
import Verif.Props.Preference
import Verif.Props.PropNames
import Verif.Props.Recase
import Verif.Props.Regroup
import Verif.Props.Regular
import Verif.Props.Rematch
import Verif.Props.Renumber
import Verif.Props.Reorder
import Verif.Props.Respell
import Verif.Props.Results
import Verif.Props.Scripts
import Verif.Props.Search
import Verif.Props.Sharpen
import Verif.Props.Shift
import Verif.Props.Soundness
import Verif.Props.SplitAnchored
import Verif.Props.Static
import Verif.Props.Steps
import Verif.Props.Syntax
import Verif.Props.Terminates
import Verif.Props.TextCalls
import Verif.Props.TextLanguage
import Verif.Props.TextOrder
import Verif.Props.TextScan
import Verif.Props.TypeList
import Verif.Props.Undecided
import Verif.Props.UniApi
import Verif.Props.Utf8
import Verif.Props.Utf8Iter
import Verif.Props.Widen
import Verif.Props.ZeroTerminated
import Verif.Tests.Basic
import Verif.Tests.Generating
import Verif.Tests.Matching2
import Verif.Tests.Matching2Msvc
import Verif.Tests.Matching3
import Verif.Tests.Parsing
import Verif.Tests.Types
import Verif.Tests.Unicode
