import Verif.Props.Line
import Verif.Props.Path
import Verif.Props.Common
import Verif.Props.InlineOrigins
import Verif.Props.Source
import Verif.Props.WinName
import Verif.Props.Collector
import Verif.Props.Symbol
import Verif.Props.Merge
import Verif.Props.MergeSamples
import Verif.Props.Display
import Verif.Props.Mapping
import Verif.Props.Output
import Verif.Props.WinUtils
import Verif.Props.Cache
import Verif.Props.Threads
import Verif.Props.ThreadsSamples
import Verif.Props.Main
import Verif.Props.Dumper
import Verif.Props.Repro
import Verif.Props.Symbolicate
import Verif.Props.MergeFrames
import Verif.Props.RunSamples
import Verif.Props.Header
import Verif.Props.Names
import Verif.Props.Embedded
import Verif.Props.Reading
import Verif.Props.MappedPaths
import Verif.Props.Search
import Verif.Props.Inputs
import Verif.Props.Records
import Verif.Props.Readable
import Verif.Props.Described
import Verif.Props.Process
import Verif.Props.Several
import Verif.Props.SeveralSamples
import Verif.Props.Crash
import Verif.Props.Cli
import Verif.Props.Offline
import Verif.Props.Moments
import Verif.Props.ThreadsHang
import Verif.Props.Meanwhile
import Verif.Props.ThreadsFail
import Verif.Props.CrashSeveral
import Verif.Props.Changes
import Verif.Props.Library
import Verif.Props.Again
import Verif.Props.Jobs
import Verif.Props.Reported
import Verif.Props.Copies
import Verif.Props.Downloads
import Verif.Props.ThreadsReturn
import Verif.Props.SeveralEnds
import Verif.Props.Together
import Verif.Props.OneByOne
import Verif.Props.MergedDumps
import Verif.Proof.Hosts
import Verif.Props.Hosts
import Verif.Props.OfflineRun
import Verif.Props.Size
import Verif.Props.Checked
import Verif.Props.MappingFile
import Verif.Props.WinHost
import Verif.Props.WinText
import Verif.Props.Exact
import Verif.Props.OneDisk
import Verif.Model.WinSearch
import Verif.Spec.WinSearch
import Verif.Proof.WinSearch
import Verif.Props.WinSearch
import Verif.Model.WinCache
import Verif.Model.WinDumper
import Verif.Spec.WinCache
import Verif.Spec.WinInputs
import Verif.Props.WinCache
import Verif.Props.WinDumper
import Verif.Props.WinRun
import Verif.Props.WinExit
import Verif.Props.WinRunSamples
import Verif.Props.WinCrash
import Verif.Spec.MapErrors
import Verif.Proof.MapErrors
import Verif.Spec.Report
import Verif.Proof.Report
import Verif.Props.Report
import Verif.Spec.WinReport
import Verif.Proof.WinReport
import Verif.Props.WinReport
import Verif.Props.WinCrashSeveral
import Verif.Props.WinProcess
import Verif.Props.WinSeveral
import Verif.Props.WinSeveralSamples
import Verif.Props.WinJobs
import Verif.Props.StdPath
import Verif.Props.Machines
import Verif.Props.Many
import Verif.Props.ManySamples
import Verif.Props.WinMany
import Verif.Props.WinManySamples
import Verif.Proof.WinAgain
import Verif.Props.WinAgain
import Verif.Model.WinMoments
import Verif.Props.WinMoments
import Verif.Model.WinTogether
import Verif.Props.WinTogether
import Verif.Model.WinOneDisk
import Verif.Props.WinOneDisk
import Verif.Props.WinDownloads
import Verif.Model.WinFold
import Verif.Props.WinFold
import Verif.Model.CheckedRun
import Verif.Props.CheckedRun
import Verif.Props.CrashWrite
import Verif.Props.AppliedMore
import Verif.Props.WinCrashWrite
import Verif.Model.WinChecked
import Verif.Props.WinChecked
import Verif.Model.Builds
import Verif.Props.Builds
import Verif.Props.MergeOrder
import Verif.Model.WinOffline
import Verif.Props.WinOffline
import Verif.Props.Beginnings
import Verif.Props.OneId
import Verif.Props.OfflinePe
import Verif.Props.OfflineSeveral
import Verif.Props.UnitTests
import Verif.Props.Golden
import Verif.Props.GoldenPe
import Verif.Props.Applied
import Verif.Compare
import Verif.Axioms
