import Verif.Basic
import Verif.Props.Quote
import Verif.Props.Labels
import Verif.Props.Diff
import Verif.Props.Walk
import Verif.Props.SortStrings
import Verif.Props.Dedup
import Verif.Props.CallArgs
import Verif.Props.ReorderArgs
import Verif.Props.LoadTop
import Verif.Props.LoadMerge
import Verif.Props.LoadSort
import Verif.Props.LoadArgs
import Verif.Props.Numbers
import Verif.Props.Docstring
import Verif.Props.Parens
import Verif.Props.Layout
import Verif.Props.Plus
import Verif.Props.FixLabels
import Verif.Props.FixMore
import Verif.Props.Rewriter
import Verif.Props.SortWhere
import Verif.Props.Attr
import Verif.Props.ListEdit
import Verif.Props.Select
import Verif.Props.LoadEdit
import Verif.Props.UnusedLoads
import Verif.Props.Rules
import Verif.Props.Split
import Verif.Props.Buildozer
import Verif.Props.Buildifier
import Verif.Props.BuildifierFile
import Verif.Props.FileType
import Verif.Props.Wspace
import Verif.Props.Bzlmod
import Verif.Props.BzlmodNames
import Verif.Model.Lexer
import Verif.Model.ParseTables
import Verif.Model.Parser
import Verif.Model.Comments
import Verif.Model.Print
import Verif.Conform
import Verif.Props.Lexer
import Verif.Props.Suffix
import Verif.Model.Grammar
import Verif.Proofs.LRCheck
import Verif.Props.Grammar
import Verif.Proofs.Deriv
import Verif.Props.Comments
import Verif.Model.Fine
import Verif.Proofs.FineCheck
import Verif.Props.Complete
import Verif.Proofs.SoundCheck
import Verif.Props.Sound
import Verif.Model.Flow
import Verif.Props.Flow
import Verif.Model.Bzlenv
import Verif.Props.Bzlenv
import Verif.Model.Warn
import Verif.Props.Warn
import Verif.Props.PrintedSpec
import Verif.Proofs.PrRel
import Verif.Props.Printed
import Verif.Props.RoundSpec
import Verif.Proofs.RoundFile
import Verif.Props.Round
import Verif.Props.Reformat
import Verif.Props.Blank
import Verif.Proofs.FitQ
import Verif.Proofs.FitStep
import Verif.Proofs.ParsedFit
import Verif.Proofs.Induct
import Verif.Proofs.Neat
import Verif.Proofs.NeatGive
import Verif.Proofs.NeatStep
import Verif.Props.Parsed
import Verif.Model.Commands
import Verif.Props.CommandFrame
import Verif.Props.CommandSem
import Verif.Props.CommandLists
import Verif.Props.CommandAttr
import Verif.Props.CommandDict
import Verif.Model.Targets
import Verif.Props.Targets
import Verif.Props.TargetRun
import Verif.Props.Again
import Verif.Model.Macro
import Verif.Proofs.MacroDfs
import Verif.Props.Macro
import Verif.Model.Uninit
import Verif.Props.Uninit
import Verif.Model.UnusedLoadWarn
import Verif.Props.UnusedLoadWarn
import Verif.Model.Unused
import Verif.Props.Unused
import Verif.Model.Cosmetic
import Verif.Model.Skylark
import Verif.Props.DictItems
import Verif.Props.PackageTop
import Verif.Props.Skylark
import Verif.Props.SkylarkTree
import Verif.Model.Fix
import Verif.Model.NotLoaded
import Verif.Props.Fix
import Verif.Props.FixText
import Verif.Props.FixTree
import Verif.Props.Visits
import Verif.Props.NotLoaded
import Verif.Model.ApiWarn
import Verif.Model.BuildWarn
import Verif.Model.NameWarn
import Verif.Model.DocWarn
import Verif.Model.UnusedDeps
import Verif.Model.Files
import Verif.Props.ApiWarn
import Verif.Props.BuildWarn
import Verif.Props.NameWarn
import Verif.Props.DocWarn
import Verif.Props.UnusedDeps
import Verif.Props.Files
import Verif.Model.Types
import Verif.Props.Types
import Verif.Props.TypeWarn
import Verif.Props.ActionsWarn
import Verif.Model.StmtWarn
import Verif.Props.StmtWarn
import Verif.Props.Spans
import Verif.Props.LabelRewrite
import Verif.Model.UseRepo
import Verif.Props.UseRepo
import Verif.Props.RoundComments
import Verif.Props.RoundInside
import Verif.Props.ReformatComments
import Verif.Props.InsidePlaces
import Verif.Props.ReformatInside
import Verif.Model.CommentCmd
import Verif.Props.CommentCmd
import Verif.Props.CommentCmdCheck
import Verif.Model.LoadCmd
import Verif.Model.LoadSubst
import Verif.Model.PrintCmd
import Verif.Props.LoadCmd
import Verif.Props.LoadSubst
import Verif.Props.PrintCmd
