import Verif.Atomics.Model
import Verif.Atomics.Props
import Verif.Clamp.Call
import Verif.Clamp.CallFalse
import Verif.Clamp.CallProps
import Verif.Clamp.Model
import Verif.Clamp.Props
import Verif.Clamp.Rows
import Verif.Clamp.Spec
import Verif.Common.Arr
import Verif.Common.AtomicAdd
import Verif.Common.Desc
import Verif.Common.Interleave
import Verif.Common.Launch
import Verif.Common.Loops
import Verif.Common.Outcome
import Verif.Common.Race
import Verif.Common.Team
import Verif.Common.Team2
import Verif.Common.Warp
import Verif.Custom.Call
import Verif.Custom.CallFalse
import Verif.Custom.CallProps
import Verif.Custom.Model
import Verif.Custom.Props
import Verif.DataModel.Model
import Verif.DataModel.Props
import Verif.Dft.Call
import Verif.Dft.CallProps
import Verif.Dft.Interleave
import Verif.Dft.Model
import Verif.Dft.Props
import Verif.Direct.Call
import Verif.Direct.CallChecks
import Verif.Direct.CallFalse
import Verif.Direct.CallProps
import Verif.Direct.CallSources
import Verif.Direct.CallSpec
import Verif.Direct.CallWhole
import Verif.Direct.Model
import Verif.Direct.Pipeline
import Verif.Direct.Props
import Verif.Direct.Sources
import Verif.Direct.Sphere
import Verif.Element.Call
import Verif.Element.CallFalse
import Verif.Element.CallProps
import Verif.Element.CallSpec
import Verif.Element.Dipole
import Verif.Element.DipoleProps
import Verif.Element.Wave
import Verif.Element.WaveProps
import Verif.EsFft.Call
import Verif.EsFft.CallBack
import Verif.EsFft.CallFalse
import Verif.EsFft.CallMain
import Verif.EsFft.CallPlanes
import Verif.EsFft.CallProps
import Verif.EsFft.CallSpec
import Verif.EsFft.Choice
import Verif.EsFft.Image
import Verif.EsFft.ImageProps
import Verif.EsFft.KernelProps
import Verif.EsFft.Kernels
import Verif.EsFft.Model
import Verif.EsFft.Planes
import Verif.EsFft.Props
import Verif.EsFft.Table
import Verif.Examples.Model
import Verif.Examples.Props
import Verif.Fft.Backend
import Verif.Fft.BackendFacts
import Verif.Fft.BackendFalse
import Verif.Fft.BackendProps
import Verif.Fft.Call
import Verif.Fft.CallFalse
import Verif.Fft.CallProps
import Verif.Fft.Exec
import Verif.Fft.Gpu
import Verif.Fft.Model
import Verif.Fft.Props
import Verif.Fft.Roots
import Verif.Fft.Stage
import Verif.FftConv.CallProps
import Verif.FftConv.Gpu
import Verif.FftConv.GpuProps
import Verif.FftConv.Model
import Verif.FftConv.Props
import Verif.FftConv.Spec
import Verif.Flagger.Exact
import Verif.Flagger.ExactProps
import Verif.Flagger.Machine
import Verif.Flagger.MachineProps
import Verif.Flagger.MachineSpec
import Verif.Flagger.Model
import Verif.Flagger.Props
import Verif.Flagger.Props2
import Verif.Flagger.Spec
import Verif.GridCorrect.Call
import Verif.GridCorrect.CallFalse
import Verif.GridCorrect.CallProps
import Verif.GridCorrect.Model
import Verif.GridCorrect.Props
import Verif.GridUtil.Bounds
import Verif.GridUtil.BoundsProps
import Verif.GridUtil.Gpu
import Verif.GridUtil.GpuProps
import Verif.GridUtil.KernelProps
import Verif.GridUtil.Residual
import Verif.GridUtil.ResidualProps
import Verif.GridUtil.Scale
import Verif.GridUtil.ScaleProps
import Verif.GridUtil.Subgrid
import Verif.GridUtil.SubgridProps
import Verif.GridUtil.SumDiff
import Verif.GridUtil.SumDiffProps
import Verif.GridUtil.WPattern
import Verif.GridUtil.WPatternProps
import Verif.GridUtil.WPatternSpec
import Verif.Height.Model
import Verif.Height.Props
import Verif.Hogbom.Call
import Verif.Hogbom.CallFalse
import Verif.Hogbom.CallProps
import Verif.Hogbom.CallSpec
import Verif.Hogbom.Gpu
import Verif.Hogbom.GpuBlock
import Verif.Hogbom.GpuFalse
import Verif.Hogbom.GpuProps
import Verif.Hogbom.GpuReduce
import Verif.Hogbom.Model
import Verif.Hogbom.Props
import Verif.Hogbom.Props2
import Verif.Legendre.ConvKernel
import Verif.Legendre.Model
import Verif.Legendre.Poly
import Verif.Legendre.Props
import Verif.Logging.Model
import Verif.Logging.Props
import Verif.Mem.Extra
import Verif.Mem.Lemmas
import Verif.Mem.Model
import Verif.Mem.Props
import Verif.Mem.Props2
import Verif.Mem.Props3
import Verif.Mem.Session
import Verif.Mem.SessionLemmas
import Verif.Mem.Spec
import Verif.Mem.Stream
import Verif.Mem.StreamFacts
import Verif.Mem.StreamFalse
import Verif.Mem.StreamMain
import Verif.Mem.StreamProps
import Verif.Mem.StreamSpec
import Verif.MsClean.Call
import Verif.MsClean.CallFalse
import Verif.MsClean.CallProps
import Verif.MsClean.CallSpec
import Verif.MsClean.Model
import Verif.MsClean.Props
import Verif.Mutex.Model
import Verif.Mutex.Props
import Verif.Omp.Batch
import Verif.Omp.BatchProps
import Verif.Omp.Calls
import Verif.Omp.False
import Verif.Omp.Model
import Verif.Omp.Props
import Verif.Omp.Sum
import Verif.OptWeighting.False
import Verif.OptWeighting.Indexed
import Verif.OptWeighting.IndexedFalse
import Verif.OptWeighting.IndexedProps
import Verif.OptWeighting.Model
import Verif.OptWeighting.Props
import Verif.PhaseRotate.Call
import Verif.PhaseRotate.CallProps
import Verif.PhaseRotate.Interleave
import Verif.PhaseRotate.Model
import Verif.PhaseRotate.Props
import Verif.PhaseRotate.Props2
import Verif.PhaseRotate.Vis
import Verif.Plans.Account
import Verif.Plans.CalmRuns
import Verif.Plans.False
import Verif.Plans.Good
import Verif.Plans.Model
import Verif.Plans.Owned
import Verif.Plans.Props
import Verif.Plans.Reports
import Verif.Plans.Spec
import Verif.Pswf.Char
import Verif.Pswf.CharProps
import Verif.Pswf.Coef
import Verif.Pswf.CoefLemmas
import Verif.Pswf.CoefProps
import Verif.Pswf.Model
import Verif.Pswf.Ode
import Verif.Pswf.OdeProps
import Verif.Pswf.Props
import Verif.Pswf.SeriesProps
import Verif.Pswf.Small
import Verif.Pswf.Spectral
import Verif.Pswf.Sturm
import Verif.Python.Array
import Verif.Python.ArrayProps
import Verif.Python.ArraySpec
import Verif.Python.Bind
import Verif.Python.BindProps
import Verif.Python.BindSpec
import Verif.Python.BindTable
import Verif.Python.Call
import Verif.Python.CallProps
import Verif.Python.Life
import Verif.Python.LifeProps
import Verif.Python.Sky
import Verif.Python.SkyProps
import Verif.Python.Wrap
import Verif.Python.WrapProps
import Verif.Sizes.Good
import Verif.Sizes.Heap
import Verif.Sizes.Model
import Verif.Sizes.Props
import Verif.Station.Call
import Verif.Station.CallFalse
import Verif.Station.CallProps
import Verif.Station.CallSpec
import Verif.Station.Model
import Verif.Station.Props
import Verif.Station.Wrapper
import Verif.Swiftly.Back2d
import Verif.Swiftly.Back2dCalls
import Verif.Swiftly.Back2dExamples
import Verif.Swiftly.Back2dFinal
import Verif.Swiftly.Back2dMain
import Verif.Swiftly.Back2dSim
import Verif.Swiftly.Back2dSpec
import Verif.Swiftly.Call
import Verif.Swiftly.Call2d
import Verif.Swiftly.Call2dAdd
import Verif.Swiftly.Call2dFinal
import Verif.Swiftly.Call2dMain
import Verif.Swiftly.Call2dSpec
import Verif.Swiftly.CallExamples
import Verif.Swiftly.CallProps
import Verif.Swiftly.CallRefuse
import Verif.Swiftly.CallRows
import Verif.Swiftly.Facet
import Verif.Swiftly.Facts
import Verif.Swiftly.Kernel
import Verif.Swiftly.Model
import Verif.Swiftly.Pipeline
import Verif.Swiftly.PipelineBack
import Verif.Swiftly.PipelineFacet
import Verif.Swiftly.PipelineFalse
import Verif.Swiftly.PipelineMain
import Verif.Swiftly.PipelineProps
import Verif.Swiftly.PipelineSpec
import Verif.Swiftly.Props
import Verif.Swiftly.Round
import Verif.Swiftly.Subgrid
import Verif.Swiftly.TwoD
import Verif.Swiftly.Window2d
import Verif.Temps.Check
import Verif.Temps.False
import Verif.Temps.Model
import Verif.Temps.Play
import Verif.Temps.Props
import Verif.Temps.Scripts
import Verif.Tiles.Call
import Verif.Tiles.CallBuckets
import Verif.Tiles.CallCount
import Verif.Tiles.CallFalse
import Verif.Tiles.CallMain
import Verif.Tiles.CallProps
import Verif.Tiles.CallSort
import Verif.Tiles.CallSpec
import Verif.Tiles.Model
import Verif.Tiles.Props
import Verif.Tiles.Props2
import Verif.Tiles.Threads
import Verif.Timer.Model
import Verif.Timer.Props
import Verif.Timer.Report
import Verif.Timer.ReportFalse
import Verif.Timer.ReportHistory
import Verif.Timer.ReportProps
import Verif.Timer.ReportSpec
import Verif.Timer.Scopes
import Verif.Timer.Spec
import Verif.WTower.CpuCall
import Verif.WTower.CpuCallGrid
import Verif.WTower.CpuCallMain
import Verif.WTower.CpuCallProps
import Verif.WTower.Edges
import Verif.WTower.Gpu
import Verif.WTower.GpuCall
import Verif.WTower.GpuCallFacts
import Verif.WTower.GpuCallGrid
import Verif.WTower.GpuCallMain
import Verif.WTower.GpuCallProps
import Verif.WTower.GpuFalse
import Verif.WTower.GpuProps
import Verif.WTower.Kernel
import Verif.WTower.Model
import Verif.WTower.Plane
import Verif.WTower.Props
import Verif.WTower.RealImage
import Verif.WTower.RealImageExample
import Verif.WTower.Spec
import Verif.WTower.Sweep
import Verif.WTower.SweepGrid
import Verif.WTower.SweepProps
import Verif.WTower.Whole
import Verif.Weighting.Call
import Verif.Weighting.CallProps
import Verif.Weighting.Model
import Verif.Weighting.Props
import Verif.Width.Base
import Verif.Width.Beam
import Verif.Width.BeamProps
import Verif.Width.Es
import Verif.Width.EsProps
import Verif.Width.Facts
import Verif.Width.False
import Verif.Width.False2
import Verif.Width.Fill
import Verif.Width.FillFalse
import Verif.Width.FillProps
import Verif.Width.FillSpec
import Verif.Width.GpuProps
import Verif.Width.Image
import Verif.Width.ImageProps
import Verif.Width.Index
import Verif.Width.IntFacts
import Verif.Width.LongProps
import Verif.Width.Spec
import Verif.Width.Spec2
import Verif.Width.Tile
import Verif.Width.TileProps
import Verif.Width.Vis
import Verif.Width.VisProps
import Verif.Wstack.All
import Verif.Wstack.AllAdjoint
import Verif.Wstack.AllSpec
import Verif.Wstack.Boxes
import Verif.Wstack.Errors
import Verif.Wstack.ErrorsProps
import Verif.Wstack.ErrorsRegion
import Verif.Wstack.Events
import Verif.Wstack.Fold
import Verif.Wstack.ImageOk
import Verif.Wstack.Images
import Verif.Wstack.Model
import Verif.Wstack.Place
import Verif.Wstack.Props
import Verif.Wstack.Select
import Verif.Wstack.TaskOk
import Verif.Wstack.TaskProps
import Verif.Wstack.Tasks
