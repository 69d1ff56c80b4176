import Verif.DiscoInstance
import Verif.Lines
import Verif.Record.LineLemmas
import Verif.Record.Data
import Verif.Record.DataLemmas
import Verif.Record.RecordLemmas
import Verif.Record.IntgLemmas
import Verif.Section.MF1
import Verif.Tree.UpdateLemmas2
import Verif.Props.UpdateDirectory
import Verif.Props.UpdateDirectoryExamples
import Verif.Props.Records
import Verif.Props.RecordsExamples
import Verif.Props.TreeRead
import Verif.Props.TreeMaps
import Verif.Props.TreeContent
import Verif.Props.TreeReindex
import Verif.Props.TreeExamples
import Verif.Section.MF1b
import Verif.Section.MF4
import Verif.Section.MF5
import Verif.Section.MF6
import Verif.Section.MF7
import Verif.Section.MF8
import Verif.Section.MF12
import Verif.Section.MF31
import Verif.Section.MF2
import Verif.Section.All
import Verif.Section.LocalAll
import Verif.Parsed.ReadValid
import Verif.Props.Parsed
import Verif.Props.ParsedExamples
import Verif.Parsed.Agree
import Verif.Parsed.Agree2
import Verif.Props.Agree
import Verif.Props.TreeParsed
import Verif.Props.TreeParsedExamples
import Verif.Props.Sections
import Verif.Props.SectionExamples
import Verif.Props.SectionCounterexamples
import Verif.Section.Getters
import Verif.Section.GetterLemmas
import Verif.Props.Getters
import Verif.Props.Getters2
import Verif.Props.Getters3
import Verif.Props.Getters4
import Verif.Props.Getters5
import Verif.Props.Getters6
import Verif.Props.Getters7
import Verif.Props.Getters8
import Verif.Props.Getters9
import Verif.Props.GettersExamples
import Verif.Props.ParsedLookup
import Verif.Format.Rec
import Verif.Format.Spec
import Verif.Format.Proof1
import Verif.Format.Proof2
import Verif.Format.Proof3
import Verif.Format.Proof4
import Verif.Format.Accept
import Verif.Format.Print
import Verif.Format.PrintProof
import Verif.Format.Echo
import Verif.Format.Echo2
import Verif.Props.Format
import Verif.Props.FormatExamples
import Verif.Section.Corr
import Verif.Section.Weak
import Verif.Section.WLaw
import Verif.Section.MF32
import Verif.Section.MF32Laws
import Verif.Section.MF32Sect
import Verif.Section.MF32Spec
import Verif.Section.MF32Rounded
import Verif.Section.CorrInstance
import Verif.Section.LocalW
import Verif.Props.ResCov
import Verif.Props.ResCovExamples
import Verif.Props.ResCovCounterexamples
import Verif.Props.Rounding
import Verif.Props.Format32
import Verif.Props.Layout
import Verif.Props.Layout2
import Verif.Props.Layout3
import Verif.Props.LayoutExamples
import Verif.Section.Getters32
import Verif.Props.CovGetters
import Verif.Props.CovGetters2
import Verif.Props.CovGetters3
import Verif.Props.CovGetters4
import Verif.Props.CovGetters5
import Verif.Props.CovGettersExamples
import Verif.Section.Build
import Verif.Section.Build2
import Verif.Section.Build3
import Verif.Props.Build
import Verif.Props.Build2
import Verif.Props.Build3
import Verif.Props.BuildExamples
import Verif.Section.Build4
import Verif.Section.Build5
import Verif.Section.Build6
import Verif.Props.Build4
import Verif.Props.Build5
import Verif.Props.BuildExamples2
import Verif.Props.Build6
import Verif.Props.BuildExamples3
import Verif.Section.Access
import Verif.Props.Access
import Verif.Props.Access2
import Verif.Props.Access3
import Verif.Section.Access2
import Verif.Section.Access3
import Verif.Props.Access4
import Verif.Props.Access5
import Verif.Props.Access6
import Verif.Props.Access7
import Verif.Props.Access8
import Verif.Props.AccessExamples
import Verif.Section.Access4
import Verif.Props.Access9
import Verif.Props.Access10
import Verif.Props.Access11
import Verif.Props.AccessExamples2
import Verif.Python.Model
import Verif.Props.Python
import Verif.Props.PythonExamples
import Verif.Props.Numbers
import Verif.Props.NumbersExamples
import Verif.Rounded.Base
import Verif.Rounded.Spec
import Verif.Rounded.Low
import Verif.Rounded.Mid
import Verif.Rounded.High
import Verif.Rounded.All
import Verif.Rounded.Cov
import Verif.Rounded.Parsed
import Verif.Rounded.Instance
import Verif.Props.Rewrite
import Verif.Props.RewriteExamples
import Verif.Section.Blame
import Verif.Props.Blame
import Verif.Props.BlameExamples
import Verif.Props.Blame32
import Verif.Props.BlameTape
import Verif.Props.BlameTapeExamples
import Verif.Props.Written
import Verif.Props.Written2
import Verif.Props.Written3
import Verif.Props.WrittenExamples
import Verif.Record.Equal
import Verif.Props.Equal
import Verif.Props.EqualExamples
import Verif.Props.RootRounding
import Verif.Section.RowViews
import Verif.Props.RowViews
import Verif.Props.RowViewsExamples
import Verif.SameText
import Verif.Section.Blind
import Verif.Section.BlindAll
import Verif.Parsed.Blind
import Verif.Tree.Same
import Verif.Props.LineNumbers
import Verif.Props.LineNumbersExamples
import Verif.CppInt
import Verif.Props.Verify
import Verif.Props.VerifyExamples
import Verif.Props.BlameTree
import Verif.Props.BlameTreeExamples
