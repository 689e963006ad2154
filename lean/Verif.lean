import Verif.Model.Basic
import Verif.Model.Common
import Verif.Model.PixelFormat
import Verif.Model.Dispatcher
import Verif.Model.CpuInfo
import Verif.Model.X86
import Verif.Model.X86Rgb
import Verif.Model.Wrappers
import Verif.Model.Lib
import Verif.Model.X86Impl
import Verif.Spec.Color
import Verif.Lemmas.K
import Verif.Spec.Image
import Verif.Lemmas.Pixel
import Verif.Lemmas.Rect
import Verif.Lemmas.X86Yuv
import Verif.Lemmas.X86Dec
import Verif.Lemmas.Word
import Verif.Lemmas.X86RgbK
import Verif.Spec.Api
import Verif.Lemmas.Compat
import Verif.Lemmas.Dispatch
import Verif.Lemmas.Wrap
import Verif.Lemmas.Paint
import Verif.Lemmas.Call
import Verif.Lemmas.Convert
import Verif.Lemmas.ImplOk
import Verif.Lemmas.Master
import Verif.Model.Api
import Verif.Spec.Valid
import Verif.Lemmas.Api
import Verif.Lemmas.NoEffect
import Verif.Lemmas.Check
import Verif.Lemmas.Sizes
import Verif.Props.Dispatch
import Verif.Props.Sizes
import Verif.Lemmas.Run
import Verif.Props.Bounds
import Verif.Spec.Result
import Verif.Lemmas.Pixels
import Verif.Lemmas.Runs
import Verif.Lemmas.Relate
import Verif.Props.Pixels
import Verif.Spec.Ideal
import Verif.Props.Numeric
import Verif.Model.Global
import Verif.Model.Shared
import Verif.Lemmas.Shared
import Verif.Lemmas.Global
import Verif.Lemmas.Idem
import Verif.Props.Context
import Verif.Model.CApi
import Verif.Lemmas.Extra
import Verif.Lemmas.CApi
import Verif.Props.CApi
import Verif.Model.Simd
import Verif.Model.Sse2
import Verif.Lemmas.Simd
import Verif.Lemmas.SimdPix
import Verif.Lemmas.SimdDec
import Verif.Lemmas.Tail
import Verif.Lemmas.Sse2Enc
import Verif.Lemmas.SimdOut
import Verif.Lemmas.Sse2Dec
import Verif.Lemmas.Lines
import Verif.Lemmas.Sse2Rgb
import Verif.Lemmas.SimdImpl
import Verif.Lemmas.Sse2Impl
import Verif.Model.Avx2
import Verif.Lemmas.Avx2Enc
import Verif.Lemmas.Avx2Dec
import Verif.Lemmas.Avx2Rgb
import Verif.Lemmas.Avx2Impl
import Verif.Model.Neon
import Verif.Spec.Vector
import Verif.Lemmas.NeonEnc
import Verif.Lemmas.NeonImpl
import Verif.Model.Crate
import Verif.Model.Display
import Verif.Model.Align
import Verif.Spec.Room
import Verif.Lemmas.Crate
import Verif.Lemmas.Ran
import Verif.Lemmas.Agree
import Verif.Props.Simd
import Verif.Lemmas.Wp
import Verif.Lemmas.WpX86
import Verif.Lemmas.WpRgb
import Verif.Lemmas.WpTail
import Verif.Lemmas.WpSse2
import Verif.Lemmas.WpAvx2
import Verif.Lemmas.WpNeon
import Verif.Spec.Reach
import Verif.Spec.Checks
import Verif.Spec.Names
import Verif.Spec.Align
import Verif.Spec.Pipeline
import Verif.Spec.Grey
import Verif.Spec.Negative
import Verif.Lemmas.Sim
import Verif.Lemmas.SimX86
import Verif.Lemmas.SimTail
import Verif.Lemmas.SimSse2
import Verif.Lemmas.SimAvx2
import Verif.Lemmas.SimNeon
import Verif.Lemmas.SimFar
import Verif.Lemmas.Ideal
import Verif.Lemmas.WpCall
import Verif.Lemmas.Exact
import Verif.Props.Exact
import Verif.Lemmas.Checks
import Verif.Lemmas.Blind
import Verif.Lemmas.Align
import Verif.Props.Checks
import Verif.Props.Display
import Verif.Props.Align
import Verif.Props.Golden
import Verif.Spec.Gamut
import Verif.Props.Transcode
import Verif.Props.Drift
import Verif.Props.Generation
import Verif.Spec.Band
import Verif.Props.Bands
import Verif.Props.Tiles
import Verif.Spec.Arguments
import Verif.Lemmas.Args
import Verif.Props.Arguments
import Verif.Lemmas.Overflow
import Verif.Spec.Verdict
import Verif.Props.Verdict
import Verif.Props.Sampling
import Verif.Spec.Grown
import Verif.Props.Overwrite
import Verif.Props.Uniform
import Verif.Spec.Reported
import Verif.Props.Reported
import Verif.Spec.CCall
import Verif.Props.CSizes
import Verif.Props.Growth
import Verif.Spec.Header
import Verif.Props.Header
import Verif.Model.CString
import Verif.Spec.CString
import Verif.Props.CString
import Verif.Props.Worst
import Verif.Props.WorstDecode
import Verif.Props.CSlices
import Verif.Props.WorstBlock
import Verif.Props.Trip
import Verif.Props.Same
import Verif.Props.GenWeights
import Verif.Props.Turn
import Verif.Props.Block
import Verif.Props.Smooth
import Verif.Props.Pipeline
import Verif.Props.Grey
import Verif.Props.Negative
import Verif.Props.GreyTrip
import Verif.Props.Brighten
import Verif.Props.Nominal
import Verif.Props.Monotone
import Verif.Model.Order
import Verif.Spec.Order
import Verif.Lemmas.Order
import Verif.Lemmas.OrderBig
import Verif.Props.Order
import Verif.Spec.Sizes
import Verif.Spec.Cpu
import Verif.Spec.CArgs
import Verif.Model.Memory
import Verif.Spec.Memory
import Verif.Lemmas.Memory
import Verif.Props.Memory
import Verif.Lemmas.Transient
import Verif.Props.Transient
import Verif.Lemmas.Trace
import Verif.Lemmas.TraceSse2
import Verif.Lemmas.TraceAvx2
import Verif.Lemmas.TraceNeon
import Verif.Lemmas.TraceCall
import Verif.Props.Trace
import Verif.Props.Recolour
import Verif.Lemmas.Parallel
import Verif.Props.Parallel
import Verif.Lemmas.Count
import Verif.Lemmas.CountSse2
import Verif.Lemmas.CountAvx2
import Verif.Lemmas.CountNeon
import Verif.Lemmas.CountCall
import Verif.Spec.Once
import Verif.Props.Once
import Verif.Spec.Bars
import Verif.Props.Bars
