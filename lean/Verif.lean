import Verif.Model.Basic
import Verif.Model.Nodes
import Verif.Model.Output
import Verif.Model.Parser
import Verif.Model.Api
import Verif.Proof.Wp
import Verif.Proof.Good
import Verif.Proof.Render
import Verif.Proof.Leaf
import Verif.Proof.Strings
import Verif.Proof.Parse
import Verif.Proof.Types
import Verif.Proof.Symbols
import Verif.Proof.Specials
import Verif.Proof.Top
import Verif.Proof.Eval
import Verif.Proof.Run
import Verif.Props.Safety
import Verif.Props.Api
import Verif.Proof.Emit
import Verif.Proof.Head
import Verif.Spec.Numbers
import Verif.Spec.Strings
import Verif.Proof.Numbers
import Verif.Proof.StringRun
import Verif.Proof.Literals
import Verif.Props.Trees
import Verif.Props.Md5
import Verif.Props.Strings
import Verif.Proof.FlagsEq
import Verif.Props.Flags
import Verif.Spec.Tree
import Verif.Spec.Grammar
import Verif.Proof.Rep
import Verif.Proof.Print
import Verif.Proof.Sim
import Verif.Proof.SimLeaf
import Verif.Proof.SimTypes
import Verif.Proof.SimRules1
import Verif.Proof.SimRules2
import Verif.Proof.SimRules3
import Verif.Proof.Prefix
import Verif.Proof.SimNames
import Verif.Proof.SimTmpl
import Verif.Proof.SimScopes
import Verif.Proof.SimArgs
import Verif.Proof.SimFenc
import Verif.Proof.SimDecl
import Verif.Proof.SimSym
import Verif.Proof.SimOdd
import Verif.Proof.Refine
import Verif.Proof.Cost
import Verif.Proof.CostParse
import Verif.Spec.Shows
import Verif.Proof.Paths
import Verif.Spec.Decl
import Verif.Proof.Decl
import Verif.Proof.DeclFn
import Verif.Props.Grammar
import Verif.Props.Decl
import Verif.Spec.Templates
import Verif.Proof.Named
import Verif.Props.Templates
import Verif.Props.Operators
import Verif.Props.Special
import Verif.Proof.Fails
import Verif.Proof.Bad
import Verif.Spec.BackRefs
import Verif.Proof.BackRefs
import Verif.Props.BackRefs
import Verif.Proof.Bad2
import Verif.Proof.Bad3
import Verif.Props.Rejects
import Verif.Props.NameOnly
import Verif.Props.Depth
import Verif.Props.MsKeywords
import Verif.Proof.Acc
import Verif.Proof.AccLeaf
import Verif.Proof.AccNames
import Verif.Proof.AccScopes
import Verif.Proof.AccTypes
import Verif.Proof.AccArgs
import Verif.Proof.AccTmpl
import Verif.Proof.AccDecl
import Verif.Proof.AccLit
import Verif.Proof.AccSym
import Verif.Spec.Denotes
import Verif.Proof.Accept
import Verif.Props.Accept
import Verif.Proof.Leafy
import Verif.Proof.Twin
import Verif.Proof.Twin2
import Verif.Props.Twins
import Verif.Proof.Grow
import Verif.Proof.Adds
import Verif.Props.NonEmpty
import Verif.Proof.Thin
import Verif.Proof.Thin2
import Verif.Proof.ThinGram
import Verif.Props.Suppress
import Verif.Spec.Mangler
import Verif.Proof.ManglerPr
import Verif.Proof.Alike
import Verif.Proof.ManglerGram
import Verif.Proof.ManglerDec
import Verif.Spec.MangledSym
import Verif.Proof.ManglerSym
import Verif.Proof.ManglerGramN
import Verif.Proof.ManglerSymN
import Verif.Proof.ManglerWord
import Verif.Spec.MangledNodes
import Verif.Props.Symbols
import Verif.Props.RoundTrip
import Verif.Model.Cli
import Verif.Props.Errors
import Verif.Props.Cli
import Verif.Timed.Cap
import Verif.Props.Steps
import Verif.Raw.Utf8
import Verif.Raw.Utf8Pr
import Verif.Raw.Str
import Verif.Raw.StrRef
import Verif.Raw.Nodes
import Verif.Raw.Output
import Verif.Raw.Parser
import Verif.Raw.Api
import Verif.Raw.Com
import Verif.Raw.RefOut
import Verif.Raw.RefLeaf
import Verif.Raw.RefParse
import Verif.Ren.Str
import Verif.Ren.Com
import Verif.Ren.Out
import Verif.Ren.Leaf
import Verif.Ren.Parse
import Verif.Props.Bytes
import Verif.Spec.Plain
import Verif.Proof.ReadBase
import Verif.Proof.ReadTy
import Verif.Proof.ReadLay
import Verif.Proof.ReadFlat
import Verif.Proof.ReadTyped
import Verif.Proof.ReadConv
import Verif.Proof.ReadTl
import Verif.Proof.ReadParams
import Verif.Proof.ReadDecl
import Verif.Proof.ReadArgs
import Verif.Proof.ReadAll
import Verif.Proof.PlainKeys
import Verif.Props.Distinct
import Verif.Spec.PlainSym
import Verif.Proof.ReadSym
import Verif.Props.DistinctSym
import Verif.Proof.Fewer
import Verif.Proof.FewerOk
import Verif.Props.SuppressSym
import Verif.Spec.Nodes
import Verif.Spec.VarNodes
import Verif.Exact.Sim
import Verif.Exact.SimTypes
import Verif.Exact.SimRules1
import Verif.Exact.SimRules2
import Verif.Exact.SimRules3
import Verif.Exact.SimNames
import Verif.Exact.SimTmpl
import Verif.Exact.SimScopes
import Verif.Exact.SimArgs
import Verif.Exact.SimFenc
import Verif.Exact.SimDecl
import Verif.Exact.SimSym
import Verif.Exact.SimOdd
import Verif.Exact.Counted
import Verif.Exact.Bound
import Verif.Exact.Refine
import Verif.Exact.Top
import Verif.Exact.Vars
import Verif.Props.Exact
import Verif.Props.Truncate
import Verif.Props.Layout
import Verif.Props.Verdict
import Verif.Spec.Nested
import Verif.Proof.Bracket
import Verif.Props.Brackets
import Verif.Props.Separator
import Verif.Props.Scripts
import Verif.Proof.Local
import Verif.Proof.TypeInfo
import Verif.Props.TypeInfo
import Verif.Proof.Unique
import Verif.Props.Unique
import Verif.Spec.AnonKeys
import Verif.Proof.AnonKeys
import Verif.Proof.AnonNodes
import Verif.Props.AnonKeys
import Verif.Spec.Spelled
import Verif.Proof.Spelled
import Verif.Proof.SpelledSym
import Verif.Proof.Shorter
import Verif.Props.Spelled
import Verif.Spec.Mixed
import Verif.Proof.Mixed
import Verif.Proof.MixedEnds
import Verif.Proof.MixedSym
import Verif.Proof.MixedLength
import Verif.Spec.MixedNodes
import Verif.Proof.MixedN
import Verif.Proof.MixedSymN
import Verif.Proof.MixedCheap
import Verif.Proof.MixedBest
import Verif.Proof.MixedSymEnds
import Verif.Props.Mixed
import Verif.Proof.Width
import Verif.Props.Width
import Verif.Props.MixedSame
