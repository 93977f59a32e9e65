import Verif.Py
import Verif.PyLemmas
import Verif.Codec
import Verif.TextParser
import Verif.ListManip
import Verif.PyVal
import Verif.CommonUtils
import Verif.NAFile
import Verif.FFI1
import Verif.FFI2
import Verif.Spec.Text
import Verif.Spec.Dict
import Verif.TextLemmas
import Verif.SectionLemmas
import Verif.DataLemmas
import Verif.RT1001
import Verif.RT1010
import Verif.TreeLemmas
import Verif.RT2010
import Verif.RT2110
import Verif.RT2310
import Verif.RT2160
import Verif.Examples
import Verif.Open
import Verif.WriteLemmas
import Verif.Spec.File
import Verif.WriteSpec
import Verif.Lifecycle
import Verif.Props.TextParser
import Verif.Props.RoundTrip
import Verif.Props.Write
import Verif.Props.Lifecycle
import Verif.Spec.Data
import Verif.ReadLemmas
import Verif.ShapeLemmas
import Verif.LossLemmas
import Verif.LossLemmas2160
import Verif.Spec.Header
import Verif.HeaderLemmas
import Verif.HeaderOpen
import Verif.HeaderIff
import Verif.Spec.Short
import Verif.HangLemmas
import Verif.HangOpen
import Verif.RepeatLemmas
import Verif.Props.Read
import Verif.Props.Header
import Verif.Props.Hang
import Verif.Spec.Records
import Verif.RecordLemmas
import Verif.RecordJoin
import Verif.Props.Records
import Verif.Spec.Exchange
import Verif.ExchangeLemmas
import Verif.Props.Exchange
import Verif.Core
import Verif.CoreLemmas
import Verif.Spec.Utils
import Verif.UtilLemmas
import Verif.Props.Utils
import Verif.Props.Core
import Verif.Spec.Annotation
import Verif.Spec.Rows
import Verif.AnnLemmas
import Verif.CellLemmas
import Verif.Props.Output
import Verif.XarrayToNA
import Verif.Spec.Convert
import Verif.ConvertLemmas
import Verif.Props.Convert
import Verif.Accessors
import Verif.Spec.Accessors
import Verif.Spec.Attrs
import Verif.AccessorLemmas
import Verif.Props.Accessors
import Verif.XarrayUtils
import Verif.Collector
import Verif.Spec.Collector
import Verif.CollectorLemmas
import Verif.Props.Collector
import Verif.CollectDict
import Verif.Spec.Collect
import Verif.CollectLemmas
import Verif.CollectShape
import Verif.CollectObj
import Verif.CollectCheck
import Verif.InstLemmas
import Verif.Props.Collect
import Verif.NAToXarray
import Verif.Spec.ToXarray
import Verif.CommentLemmas
import Verif.ToXLemmas
import Verif.Props.ToXarray
import Verif.CompareNA
import Verif.Spec.Compare
import Verif.CompareLemmas
import Verif.Props.Compare
import Verif.Getopt
import Verif.Api
import Verif.Scripts
import Verif.Spec.Scripts
import Verif.ScriptLemmas
import Verif.ApiLemmas
import Verif.Props.Api
import Verif.Props.Scripts
import Verif.Config
import Verif.Spec.Config
import Verif.Props.Config
import Verif.Spec.Back
import Verif.BackLemmas
import Verif.Props.Back
import Verif.DictFile
import Verif.DictFileLemmas
import Verif.Spec.Copy
import Verif.CopyLemmas
import Verif.Props.Copy
import Verif.Spec.Names
import Verif.NameLemmas
import Verif.Props.Names
import Verif.Spec.ConvertFile
import Verif.ConvertFileLemmas
import Verif.Props.ConvertFile
import Verif.Spec.SplitFile
import Verif.SplitFileLemmas
import Verif.Props.SplitFile
import Verif.Spec.Select
import Verif.SelectLemmas
import Verif.Props.Select
import Verif.Spec.ToNC
import Verif.ToNCLemmas
import Verif.Props.ToNC
import Verif.AttrLemmas
import Verif.Props.CommentGrowth
import Verif.Props.Attrs
import Verif.Props.NcBack
import Verif.PyFormat
import Verif.FormatLemmas
import Verif.RoundLemmas
import Verif.Spec.Precision
import Verif.Props.Precision
import Verif.Spec.Writable
import Verif.WritableLemmas
import Verif.RestoreLemmas
import Verif.Props.Writable
import Verif.Spec.Shared
import Verif.SharedLemmas
import Verif.Props.Shared
import Verif.Spec.ConvertPrecision
import Verif.Spec.Gaps
import Verif.Linspace
import Verif.Spec.Uniform
import Verif.Spec.Distinct
import Verif.Props.ConvertPrecision
import Verif.Props.Gaps
import Verif.Props.Uniform
import Verif.Props.Distinct
import Verif.Spec.FileBack
import Verif.FileBackLemmas
import Verif.Props.FileBack
import Verif.Props.NameBack
import Verif.Props.AxisBack
import Verif.Props.Settle
import Verif.Spec.HeaderBack
import Verif.Props.HeaderBack
import Verif.Props.HistoryBack
import Verif.Ini
import Verif.Spec.Ini
import Verif.IniLemmas
import Verif.Props.Ini
import Verif.Helpers
import Verif.Spec.Helpers
import Verif.Props.Helpers
import Verif.Props.CompareItems
import Verif.Objs
import Verif.Props.Objs
import Verif.AccessorsInt
import Verif.Props.AccessorsInt
import Verif.NamesArg
import Verif.Props.NamesArg
