import Verif.Lemmas.Adaptive
import Verif.Lemmas.ArgError
import Verif.Lemmas.Autocut
import Verif.Lemmas.Autoreduce
import Verif.Lemmas.Axis
import Verif.Lemmas.AxisCommute
import Verif.Lemmas.AxisFloat
import Verif.Lemmas.AxisSearch
import Verif.Lemmas.Broadcast
import Verif.Lemmas.Calculus
import Verif.Lemmas.CalculusFloat
import Verif.Lemmas.Compat
import Verif.Lemmas.CreateField
import Verif.Lemmas.Decimal
import Verif.Lemmas.Double
import Verif.Lemmas.DumpSpecies
import Verif.Lemmas.EpochLike
import Verif.Lemmas.Fft
import Verif.Lemmas.FftInverse
import Verif.Lemmas.FftPad
import Verif.Lemmas.FftShift
import Verif.Lemmas.Field
import Verif.Lemmas.FieldAssign
import Verif.Lemmas.FieldHeap
import Verif.Lemmas.FieldIndex
import Verif.Lemmas.FieldKeys
import Verif.Lemmas.FieldLinear
import Verif.Lemmas.FieldMoves
import Verif.Lemmas.FieldNatural
import Verif.Lemmas.FieldNodes
import Verif.Lemmas.FieldReduce
import Verif.Lemmas.FieldResolution
import Verif.Lemmas.GradientDouble
import Verif.Lemmas.GradientFloat
import Verif.Lemmas.Histogram
import Verif.Lemmas.Histogram2
import Verif.Lemmas.Histogram3
import Verif.Lemmas.HistogramDouble
import Verif.Lemmas.HistogramFloat
import Verif.Lemmas.HistogramWeights
import Verif.Lemmas.Ieee
import Verif.Lemmas.IntegralsDouble
import Verif.Lemmas.Interp
import Verif.Lemmas.Io
import Verif.Lemmas.Kspace
import Verif.Lemmas.KspaceExtent
import Verif.Lemmas.LinspaceFloat
import Verif.Lemmas.MapCoordinates
import Verif.Lemmas.MapGrid
import Verif.Lemmas.Marginal
import Verif.Lemmas.Modes
import Verif.Lemmas.Near
import Verif.Lemmas.Nearest53
import Verif.Lemmas.Operators
import Verif.Lemmas.PadArg
import Verif.Lemmas.Particles
import Verif.Lemmas.Plotter
import Verif.Lemmas.Polar
import Verif.Lemmas.Propagate
import Verif.Lemmas.PropagateHistory
import Verif.Lemmas.ReaderGrid
import Verif.Lemmas.ResampleLinear
import Verif.Lemmas.RoundingError
import Verif.Lemmas.RoundingErrorNd
import Verif.Lemmas.ScalarFloat
import Verif.Lemmas.Scalars
import Verif.Lemmas.Series
import Verif.Lemmas.Simulation
import Verif.Lemmas.Species
import Verif.Lemmas.Spline
import Verif.Lemmas.SplineData
import Verif.Lemmas.Stagger
import Verif.Lemmas.StatisticsDouble
import Verif.Lemmas.StatisticsFloat
import Verif.Lemmas.SumDouble
import Verif.Lemmas.TimeProfile
import Verif.Lemmas.Topolar
import Verif.Lemmas.Version
import Verif.Lemmas.VtkBytes
import Verif.Lemmas.Waves
import Verif.Lemmas.Within
import Verif.Model.Accessors
import Verif.Model.Adaptive
import Verif.Model.AddSpecies
import Verif.Model.Annotate
import Verif.Model.Autocut
import Verif.Model.Axis
import Verif.Model.AxisFloat
import Verif.Model.Calculus
import Verif.Model.CalculusFloat
import Verif.Model.Classes
import Verif.Model.Collection
import Verif.Model.CollectionHeap
import Verif.Model.Compat
import Verif.Model.Constants
import Verif.Model.CreateField
import Verif.Model.Dummy
import Verif.Model.DumpKspace
import Verif.Model.DumpSpecies
import Verif.Model.EpochLike
import Verif.Model.EpochOld
import Verif.Model.Fft
import Verif.Model.FftPad
import Verif.Model.Field
import Verif.Model.FieldAssign
import Verif.Model.FieldCalc
import Verif.Model.FieldHeap
import Verif.Model.FieldKeys
import Verif.Model.FieldMask
import Verif.Model.FieldOps
import Verif.Model.FieldProps
import Verif.Model.FourierProfile
import Verif.Model.GradientFloat
import Verif.Model.HalfFloat
import Verif.Model.HelperFft
import Verif.Model.Histogram
import Verif.Model.HistogramFloat
import Verif.Model.Histogramdd
import Verif.Model.Ieee
import Verif.Model.Interp
import Verif.Model.Io
import Verif.Model.Kspace
import Verif.Model.KspaceExtent
import Verif.Model.LinearFloat
import Verif.Model.MapComplex
import Verif.Model.MapGrid
import Verif.Model.MeanFloat
import Verif.Model.Meshgrid
import Verif.Model.Modes
import Verif.Model.Operators
import Verif.Model.PadArg
import Verif.Model.ParticleHistory
import Verif.Model.Particles
import Verif.Model.Plotter
import Verif.Model.Polar
import Verif.Model.PropagateHistory
import Verif.Model.ReaderGrid
import Verif.Model.ReduceOut
import Verif.Model.ScalarEval
import Verif.Model.ScalarExpr
import Verif.Model.ScalarFloat
import Verif.Model.ScalarRegistry
import Verif.Model.Series
import Verif.Model.Simulation
import Verif.Model.Species
import Verif.Model.Spline
import Verif.Model.Stagger
import Verif.Model.StaggerFourier
import Verif.Model.Statistics
import Verif.Model.StatisticsFloat
import Verif.Model.TextImage
import Verif.Model.TimeProfile
import Verif.Model.Version
import Verif.Model.VtkBytes
import Verif.Props.Accessors
import Verif.Props.Adaptive
import Verif.Props.AddSpecies
import Verif.Props.Annotate
import Verif.Props.Autocut
import Verif.Props.Autoreduce
import Verif.Props.Axis
import Verif.Props.AxisCommute
import Verif.Props.AxisDouble
import Verif.Props.AxisFloat
import Verif.Props.Calculus
import Verif.Props.CalculusFloat
import Verif.Props.Classes
import Verif.Props.Collection
import Verif.Props.CollectionHeap
import Verif.Props.Compat
import Verif.Props.Constants
import Verif.Props.CreateField
import Verif.Props.Decimal
import Verif.Props.DegenerateDims
import Verif.Props.Double
import Verif.Props.Dummy
import Verif.Props.DumpKspace
import Verif.Props.DumpSpecies
import Verif.Props.Elements
import Verif.Props.EpochLike
import Verif.Props.EpochOld
import Verif.Props.Fft
import Verif.Props.FftLaws
import Verif.Props.FftPad
import Verif.Props.FieldAssign
import Verif.Props.FieldAxes
import Verif.Props.FieldBroadcast
import Verif.Props.FieldCalc
import Verif.Props.FieldHeap
import Verif.Props.FieldIndex
import Verif.Props.FieldKeys
import Verif.Props.FieldLinear
import Verif.Props.FieldMask
import Verif.Props.FieldMoves
import Verif.Props.FieldNatural
import Verif.Props.FieldProps
import Verif.Props.FieldReduce
import Verif.Props.FieldResolution
import Verif.Props.FourierProfile
import Verif.Props.GradientDouble
import Verif.Props.GradientFloat
import Verif.Props.HalfDouble
import Verif.Props.HelperFft
import Verif.Props.Histogram
import Verif.Props.HistogramAdditive
import Verif.Props.HistogramDouble
import Verif.Props.HistogramEdge
import Verif.Props.HistogramFloat
import Verif.Props.HistogramLaws
import Verif.Props.HistogramWeights
import Verif.Props.Histogramdd
import Verif.Props.Ieee
import Verif.Props.IntegralDouble
import Verif.Props.IntegralsDouble
import Verif.Props.Interp
import Verif.Props.Io
import Verif.Props.Kspace
import Verif.Props.KspaceExtent
import Verif.Props.LinearDouble
import Verif.Props.Lineout
import Verif.Props.LinspaceDouble
import Verif.Props.LinspaceFloat
import Verif.Props.MapComplex
import Verif.Props.MapCoordinates
import Verif.Props.MapGrid
import Verif.Props.Marginal
import Verif.Props.Meshgrid
import Verif.Props.Modes
import Verif.Props.Operators
import Verif.Props.PadArg
import Verif.Props.ParticleHistory
import Verif.Props.Particles
import Verif.Props.Plotter
import Verif.Props.Polar
import Verif.Props.Propagate
import Verif.Props.PropagateHistory
import Verif.Props.ReaderGrid
import Verif.Props.ReduceOut
import Verif.Props.ResampleLinear
import Verif.Props.RoundingError
import Verif.Props.RoundingErrorNd
import Verif.Props.ScalarFloat
import Verif.Props.ScalarRegistry
import Verif.Props.ScalarUnits
import Verif.Props.Scalars
import Verif.Props.Series
import Verif.Props.Simulation
import Verif.Props.SpacingDouble
import Verif.Props.Species
import Verif.Props.Spline
import Verif.Props.Stagger
import Verif.Props.Statistics
import Verif.Props.StatisticsDouble
import Verif.Props.StatisticsFloat
import Verif.Props.SumDouble
import Verif.Props.TextImage
import Verif.Props.TimeProfile
import Verif.Props.Version
import Verif.Props.VtkBytes
import Verif.Props.VtkStagger
import Verif.Props.Waves
import Verif.Py.Err
import Verif.Py.NdArray
import Verif.Py.Range
import Verif.Py.Slice
import Verif.Spec.Adaptive
import Verif.Spec.AddSpecies
import Verif.Spec.Annotate
import Verif.Spec.Autocut
import Verif.Spec.Autoreduce
import Verif.Spec.Axis
import Verif.Spec.AxisCommute
import Verif.Spec.Calculus
import Verif.Spec.CalculusFloat
import Verif.Spec.Classes
import Verif.Spec.Collection
import Verif.Spec.Constants
import Verif.Spec.Decimal
import Verif.Spec.Deposit
import Verif.Spec.Double
import Verif.Spec.Dummy
import Verif.Spec.DumpSpecies
import Verif.Spec.Elements
import Verif.Spec.EpochLike
import Verif.Spec.EpochOld
import Verif.Spec.Fft
import Verif.Spec.FftLaws
import Verif.Spec.FftPad
import Verif.Spec.Field
import Verif.Spec.FieldAssign
import Verif.Spec.FieldCalc
import Verif.Spec.FieldHeap
import Verif.Spec.FieldIndex
import Verif.Spec.FieldKeys
import Verif.Spec.FieldLinear
import Verif.Spec.FieldMoves
import Verif.Spec.FieldNatural
import Verif.Spec.FieldProps
import Verif.Spec.FieldReduce
import Verif.Spec.FieldResolution
import Verif.Spec.FourierProfile
import Verif.Spec.HalfDouble
import Verif.Spec.HistogramEdge
import Verif.Spec.HistogramFloat
import Verif.Spec.HistogramLaws
import Verif.Spec.Ieee
import Verif.Spec.Interp
import Verif.Spec.Io
import Verif.Spec.Kernel
import Verif.Spec.Kspace
import Verif.Spec.KspaceExtent
import Verif.Spec.Limited
import Verif.Spec.MapComplex
import Verif.Spec.MapGrid
import Verif.Spec.Moderate
import Verif.Spec.Modes
import Verif.Spec.Operators
import Verif.Spec.PadArg
import Verif.Spec.Plotter
import Verif.Spec.PropagateHistory
import Verif.Spec.ScalarError
import Verif.Spec.ScalarMeaning
import Verif.Spec.Selection
import Verif.Spec.Series
import Verif.Spec.Simulation
import Verif.Spec.Species
import Verif.Spec.Spline
import Verif.Spec.Stagger
import Verif.Spec.Statistics
import Verif.Spec.StatisticsFloat
import Verif.Spec.TimeProfile
import Verif.Spec.Version
import Verif.Spec.VtkBytes
import Verif.Spec.Waves
