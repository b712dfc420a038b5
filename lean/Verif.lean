import Verif.Base.Res
import Verif.Base.Bytes
import Verif.Base.Flt
import Verif.Lemmas.FltRound
import Verif.Lemmas.FltVal
import Verif.Model.Key
import Verif.Model.Entry
import Verif.Model.Geometry
import Verif.Spec.Octree
import Verif.Props.Key
import Verif.Props.Entry
import Verif.Lemmas.Entry
import Verif.Lemmas.FltExact
import Verif.Lemmas.FltInt
import Verif.Lemmas.FltOrder
import Verif.Lemmas.Key
import Verif.Lemmas.NodeBox
import Verif.Lemmas.Point
import Verif.Lemmas.RatNum
import Verif.Lemmas.Scale
import Verif.Model.Point
import Verif.Model.Points
import Verif.Model.Scale
import Verif.Props.Geometry
import Verif.Props.NodeNest
import Verif.Props.Point
import Verif.Props.PointArray
import Verif.Props.PointAttrs
import Verif.Props.Points
import Verif.Props.PointsArray
import Verif.Props.Scale
import Verif.Props.ScanAngle
import Verif.Spec.Geometry
import Verif.Spec.Point
import Verif.Spec.Points
import Verif.Base.Parse
import Verif.Lemmas.Extents
import Verif.Lemmas.Header
import Verif.Model.Config
import Verif.Model.Extents
import Verif.Model.Header
import Verif.Model.Vlr
import Verif.Props.Extents
import Verif.Props.Header
import Verif.Spec.Extents
import Verif.Spec.Header
import Verif.Base.AList
import Verif.Base.Act
import Verif.Lemmas.PageTree
import Verif.Lemmas.Stream
import Verif.Lemmas.WriterBase
import Verif.Model.Lazperf
import Verif.Model.Writer
import Verif.Spec.Pages
import Verif.Lemmas.WriterClose
import Verif.Lemmas.WriterHist
import Verif.Lemmas.WriterOps
import Verif.Lemmas.WriterPages
import Verif.Props.Config
import Verif.Spec.Config
import Verif.Spec.Writer
import Verif.Lemmas.Sample
import Verif.Lemmas.WriterClosed
import Verif.Lemmas.WriterHier
import Verif.Lemmas.WriterInv
import Verif.Props.WriterChunks
import Verif.Props.WriterCounts
import Verif.Props.WriterReject
import Verif.Lemmas.WriterTree
import Verif.Props.WriterMove
import Verif.Props.WriterTree
import Verif.Spec.Layout
import Verif.Lemmas.WriterHead
import Verif.Props.WriterHead
import Verif.Spec.HeaderArea
import Verif.Lemmas.WriterAny
import Verif.Props.NodeOrPage
import Verif.Props.OutputFail
import Verif.Props.WriterFinal
import Verif.Base.Run
import Verif.Lemmas.ReaderCalls
import Verif.Lemmas.ReaderFind
import Verif.Lemmas.ReaderHier
import Verif.Lemmas.ReaderLoad
import Verif.Lemmas.ReaderQuery
import Verif.Lemmas.VlrTable
import Verif.Model.Reader
import Verif.Model.ReaderHier
import Verif.Spec.Hierarchy
import Verif.Lemmas.ClosedOpen
import Verif.Lemmas.ClosedRead
import Verif.Lemmas.RecFile
import Verif.Spec.Metadata
import Verif.Lemmas.ClosedHier
import Verif.Lemmas.ReaderData
import Verif.Props.RoundTrip
import Verif.Props.RoundTripMeta
import Verif.Spec.RoundTrip
import Verif.Lemmas.ReaderFuel
import Verif.Props.ReaderHier
import Verif.Lemmas.PageGraph
import Verif.Lemmas.ReaderEnds
import Verif.Props.ReaderEnds
import Verif.Spec.PageGraph
import Verif.Props.Resolution
import Verif.Spec.Resolution
import Verif.Lemmas.PointQuery
import Verif.Lemmas.SampleFile
import Verif.Props.BoxQuery
import Verif.Props.BoxSample
import Verif.Props.FailedRead
import Verif.Props.RecordBuffer
import Verif.Spec.BoxQuery
import Verif.Lemmas.LazClose
import Verif.Lemmas.LazSample
import Verif.Lemmas.LazWriter
import Verif.Props.LazWriter
import Verif.Props.VlrLookup
import Verif.Spec.LazWriter
import Verif.Props.Overrides
import Verif.Spec.Overrides
import Verif.Lemmas.Mp
import Verif.Lemmas.MpBounds
import Verif.Model.Mp
import Verif.Props.Mp
import Verif.Props.MpFile
import Verif.Props.MpLaz
import Verif.Props.MpSample
import Verif.Spec.Mp
import Verif.Props.MpRead
import Verif.Lemmas.LazRead
import Verif.Model.LazReader
import Verif.Props.LazReader
import Verif.Spec.LazReader
import Verif.Lemmas.Directory
import Verif.Props.Directory
import Verif.Spec.Directory
import Verif.Model.Compress
import Verif.Props.Compress
import Verif.Model.KeyText
import Verif.Model.Pickle
import Verif.Model.PyPoints
import Verif.Props.KeyText
import Verif.Props.Pickle
import Verif.Props.PyPoints
import Verif.Spec.PySeq
import Verif.Lemmas.Crash
import Verif.Lemmas.CrashClose
import Verif.Lemmas.Refuse
import Verif.Props.Crash
import Verif.Spec.Crash
import Verif.Lemmas.BlobFile
import Verif.Props.Copy
import Verif.Spec.Copy
import Verif.Lemmas.CloseAgain
import Verif.Model.Lifetime
import Verif.Props.Lifetime
import Verif.Spec.Lifetime
import Verif.Lemmas.HeldBytes
import Verif.Lemmas.RetryFile
import Verif.Props.FailedClose
import Verif.Props.RetryOpen
import Verif.Props.BoxBytes
import Verif.Props.Filter
import Verif.Props.FilterSample
import Verif.Props.Recompress
import Verif.Props.ToLaz
import Verif.Spec.Filter
import Verif.Spec.ToLaz
import Verif.Lemmas.Offline
import Verif.Model.FileReader
import Verif.Props.FileIO
import Verif.Props.FileReader
import Verif.Spec.FileIO
import Verif.Lemmas.TornRead
import Verif.Props.CrashFile
import Verif.Props.CrashRead
import Verif.Lemmas.Cut
import Verif.Lemmas.Longer
import Verif.Props.CutFile
import Verif.Props.CutSample
import Verif.Spec.Answered
import Verif.Spec.Calls
import Verif.Spec.Longer
import Verif.Props.Accept
import Verif.Props.Readded
import Verif.Props.ReaddedSample
import Verif.Spec.Accept
import Verif.Spec.Readded
import Verif.Lemmas.Shared
import Verif.Lemmas.SharedEdit
import Verif.Lemmas.SharedStep
import Verif.Model.Shared
import Verif.Props.Shared
import Verif.Spec.Shared
import Verif.Props.UsedStream
import Verif.Props.Trim
import Verif.Props.Closes
import Verif.Spec.GoodUse
import Verif.Model.FromHeader
import Verif.Props.Program
import Verif.Spec.Program
import Verif.Model.LazAgain
import Verif.Props.LazAgain
import Verif.Lemmas.Format
import Verif.Props.Format
import Verif.Spec.Format
import Verif.Spec.FormatHeader
import Verif.Props.FormatLaz
import Verif.Model.Copies
import Verif.Props.Copies
import Verif.Props.ExtentBounds
import Verif.Lemmas.Sharing
import Verif.Model.Sharing
import Verif.Props.Sharing
import Verif.Lemmas.Conforming
import Verif.Lemmas.ConformingOpen
import Verif.Props.Conforming
import Verif.Props.ConformingPoints
import Verif.Props.ConformingSample
import Verif.Spec.Conforming
import Verif.Props.ConformingLaz
import Verif.Props.ConformingLazSample
import Verif.Props.CopyAny
import Verif.Props.CopyAnySample
import Verif.Props.ToLazAny
import Verif.Props.ToLazAnySample
import Verif.Props.FilterAny
import Verif.Props.FilterAnySample
import Verif.Props.MapAny
import Verif.Props.MapAnySample
import Verif.Props.MapFormat
import Verif.Spec.Map
import Verif.Props.PlaceAny
import Verif.Props.PlaceAnySample
import Verif.Spec.Place
import Verif.Props.CopcIsLaz
import Verif.Props.CopcIsLazSample
import Verif.Props.Refused
import Verif.Props.RefusedSample
import Verif.Spec.CopcIsLaz
import Verif.Spec.Refused
import Verif.Props.SameFile
import Verif.Props.SameFileSample
import Verif.Spec.SameFile
import Verif.Props.LazRewrite
import Verif.Props.LazRewriteSample
import Verif.Props.Rewrite
import Verif.Props.RewriteChunks
import Verif.Props.RewritePoints
import Verif.Props.RewriteSample
import Verif.Props.WritesConform
import Verif.Props.WritesChunks
import Verif.Props.WritesChunksSample
