import Verif.Props.BitIO
import Verif.Props.ByteIO
import Verif.Props.Stored
import Verif.Props.Again
import Verif.Props.AgainExamples
import Verif.Props.Basics
import Verif.Props.Header
import Verif.Props.BoxSizes
import Verif.Props.RoundTripA
import Verif.Props.RoundTripB
import Verif.Props.ReadExact
import Verif.Props.Tree
import Verif.Props.Reader
import Verif.Props.ReadBack
import Verif.Props.ReaderUb
import Verif.Props.H264
import Verif.Props.Track
import Verif.Props.Writer
import Verif.Props.WriterExamples
import Verif.Props.Held
import Verif.Props.HeldExamples
import Verif.Props.Intermediate
import Verif.Props.IntermediateExamples
import Verif.Props.Live
import Verif.Props.LiveExamples
import Verif.Props.Ids
import Verif.Props.Faststart
import Verif.Props.Faults
import Verif.Props.FaultsExamples
import Verif.Props.FaststartExamples
import Verif.Props.Memory
import Verif.Props.MemoryExamples
import Verif.Props.MemoryWriter
import Verif.Props.MemoryWriterExamples
import Verif.Props.Movie
import Verif.Props.MovieExamples
import Verif.Props.ReadMovie
import Verif.Props.ReadMovieExamples
import Verif.Props.Duration
import Verif.Props.Rewrite
import Verif.Props.Needed
import Verif.Props.Order
import Verif.Props.OrderExamples
import Verif.Props.Places
import Verif.Props.Repeated
import Verif.Props.RepeatedExamples
import Verif.Props.AllocExamples
import Verif.Props.Seek
import Verif.Props.Lossless
import Verif.Props.LosslessExamples
import Verif.Props.PlacesExamples
import Verif.Props.Registry
import Verif.Conformance.BoxTypes1
import Verif.Conformance.BoxTypes2
import Verif.Conformance.BoxTypes3
import Verif.Conformance.BoxTypes4
import Verif.Conformance.CallSites
import Verif.Conformance.UnitTests
import Verif.Conformance.UnitBoxInfo
import Verif.Props.Calendar
import Verif.Props.CasesA
import Verif.Props.CasesB
import Verif.Props.CasesC
import Verif.Props.Construct
import Verif.Props.DumpText
import Verif.Props.Dump
import Verif.Props.Crash
import Verif.Props.CrashExamples
import Verif.Props.CutOff
import Verif.Props.ToEof
import Verif.Spec.Concat
import Verif.Lemmas.NeededMore
import Verif.Lemmas.NeededAlst
import Verif.Lemmas.Concat
import Verif.Lemmas.Split
import Verif.Props.Concat
import Verif.Props.ConcatExamples
import Verif.Spec.Uninit
import Verif.Lemmas.Uninit
import Verif.Lemmas.UninitReader
import Verif.Props.Uninit
import Verif.Props.UninitExamples
import Verif.Spec.Depth
import Verif.Lemmas.Depth
import Verif.Props.Depth
import Verif.Props.DepthExamples
import Verif.Spec.Copies
import Verif.Props.Copies
import Verif.Spec.SameMovie
import Verif.Lemmas.Away
import Verif.Props.SameMovie
import Verif.Props.SameMovieExamples
import Verif.Lemmas.Project
import Verif.Props.Independent
import Verif.Props.WrittenDepth
import Verif.Props.WrittenDepthExamples
import Verif.Props.Unseekable
import Verif.Props.UnseekableExamples
import Verif.Props.Shortest
import Verif.Props.Ranges
import Verif.Props.RangesExamples
import Verif.Props.ExactTimes
import Verif.Props.DecodeTimes
import Verif.Props.IndependentExamples
