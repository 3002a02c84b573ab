import Verif.Lemmas.Axis
import Verif.Lemmas.AxisReach
import Verif.Lemmas.Base32
import Verif.Lemmas.Bicubic
import Verif.Lemmas.Binning
import Verif.Lemmas.CSplinePeriodic
import Verif.Lemmas.Calendar
import Verif.Lemmas.Cell
import Verif.Lemmas.Container
import Verif.Lemmas.Coordinates
import Verif.Lemmas.Crossover
import Verif.Lemmas.Delayed
import Verif.Lemmas.Double
import Verif.Lemmas.DoubleAxis
import Verif.Lemmas.DoubleCircle
import Verif.Lemmas.DoubleHistogram
import Verif.Lemmas.DoubleInterp
import Verif.Lemmas.DoubleStats
import Verif.Lemmas.FillLine
import Verif.Lemmas.Frame
import Verif.Lemmas.FrameCall
import Verif.Lemmas.FrameLayers
import Verif.Lemmas.GaussSeidel
import Verif.Lemmas.GaussSeidelEnergy
import Verif.Lemmas.Geodetic
import Verif.Lemmas.GeohashBits
import Verif.Lemmas.GeohashCells
import Verif.Lemmas.GeohashGrid
import Verif.Lemmas.GeohashWindow
import Verif.Lemmas.Grid34
import Verif.Lemmas.GridPy
import Verif.Lemmas.History2D
import Verif.Lemmas.Interp1D
import Verif.Lemmas.Interpolate1D
import Verif.Lemmas.Kernel
import Verif.Lemmas.KernelIntegral
import Verif.Lemmas.KernelPoints
import Verif.Lemmas.Loess
import Verif.Lemmas.Marshal
import Verif.Lemmas.Math
import Verif.Lemmas.Olson
import Verif.Lemmas.OlsonStep
import Verif.Lemmas.Orbit
import Verif.Lemmas.Period
import Verif.Lemmas.PeriodPy
import Verif.Lemmas.Progression
import Verif.Lemmas.RTree
import Verif.Lemmas.Reduction
import Verif.Lemmas.Regular
import Verif.Lemmas.SplineUnique
import Verif.Lemmas.Statistics
import Verif.Lemmas.StreamingHistogram
import Verif.Lemmas.Swath
import Verif.Lemmas.Thread
import Verif.Lemmas.Variate
import Verif.Lemmas.Window
import Verif.Model.Axis
import Verif.Model.AxisContainer
import Verif.Model.AxisPy
import Verif.Model.Base
import Verif.Model.Bicubic
import Verif.Model.BinArrays
import Verif.Model.Binning
import Verif.Model.Binning1D
import Verif.Model.CSplinePeriodic
import Verif.Model.CoordArray
import Verif.Model.Crossover
import Verif.Model.DateArray
import Verif.Model.DateText
import Verif.Model.Dateutils
import Verif.Model.Delayed
import Verif.Model.Dispatch
import Verif.Model.Double
import Verif.Model.DoubleAxis
import Verif.Model.DoubleCircle
import Verif.Model.DoubleCode
import Verif.Model.DoubleHistogram
import Verif.Model.DoubleInterp
import Verif.Model.DoubleStats
import Verif.Model.DoubleVariate
import Verif.Model.FillLine
import Verif.Model.FillPy
import Verif.Model.Frame
import Verif.Model.GaussSeidel
import Verif.Model.GeoTree
import Verif.Model.GeoTreePy
import Verif.Model.Geodetic
import Verif.Model.Geohash
import Verif.Model.GeohashArray
import Verif.Model.GeohashConvert
import Verif.Model.Geometry
import Verif.Model.GridPy
import Verif.Model.Interface
import Verif.Model.Interp1D
import Verif.Model.Interpolate1D
import Verif.Model.Loess
import Verif.Model.Marshal
import Verif.Model.Math
import Verif.Model.Orbit
import Verif.Model.OrbitInterpolate
import Verif.Model.Period
import Verif.Model.PeriodPy
import Verif.Model.PyObjects
import Verif.Model.RTree
import Verif.Model.RTreePy
import Verif.Model.Rbf
import Verif.Model.Reduction
import Verif.Model.SelfMerge
import Verif.Model.Shapes
import Verif.Model.Statistics
import Verif.Model.StreamingHistogram
import Verif.Model.Swath
import Verif.Model.TemporalAxis
import Verif.Model.Thread
import Verif.Model.Trig
import Verif.Model.Variable
import Verif.Model.Variate
import Verif.Model.WindowFunctions
import Verif.Props.C01_Angle
import Verif.Props.C02_Construction
import Verif.Props.C03_Nearest
import Verif.Props.C06_Indexes
import Verif.Props.C08_FlipPickle
import Verif.Props.C100_GeoTree
import Verif.Props.C101_Where
import Verif.Props.C102_Polygons
import Verif.Props.C103_CodeArrays
import Verif.Props.C104_CodeGrid
import Verif.Props.C105_ToXarray
import Verif.Props.C106_Delayed
import Verif.Props.C107_DaskStatistics
import Verif.Props.C108_History
import Verif.Props.C108_Variable
import Verif.Props.C109_PeriodPy
import Verif.Props.C110_PeriodListPy
import Verif.Props.C111_GaussSeidelPy
import Verif.Props.C112_FillArrayPy
import Verif.Props.C113_DateArray
import Verif.Props.C114_CoordArray
import Verif.Props.C116_RTreePy
import Verif.Props.C117_AxisPy
import Verif.Props.C118_Binning1D
import Verif.Props.C119_Values
import Verif.Props.C11_Dates
import Verif.Props.C120_GeohashDouble
import Verif.Props.C121_NormalizeDouble
import Verif.Props.C122_AxisDouble
import Verif.Props.C123_InterpDouble
import Verif.Props.C124_StatsDouble
import Verif.Props.C125_CircleDouble
import Verif.Props.C125_Longitudes
import Verif.Props.C126_VariateDouble
import Verif.Props.C127_HistogramDouble
import Verif.Props.C128_SelfMerge
import Verif.Props.C129_BinArrays
import Verif.Props.C130_GeoTreePy
import Verif.Props.C131_Dispatch
import Verif.Props.C16_Periods
import Verif.Props.C18_PeriodLists
import Verif.Props.C23_Geohash
import Verif.Props.C26_Base32
import Verif.Props.C27_GeohashNeighbours
import Verif.Props.C28_GeohashZoom
import Verif.Props.C29_Threads
import Verif.Props.C30_StreamingHistogram
import Verif.Props.C34_Statistics
import Verif.Props.C36_Reduction
import Verif.Props.C37_Angles
import Verif.Props.C37_Binning
import Verif.Props.C39_Histogram2D
import Verif.Props.C40_Interp1D
import Verif.Props.C44_Interp1D
import Verif.Props.C46_Cells
import Verif.Props.C47_Accept
import Verif.Props.C47_Grid2D
import Verif.Props.C48_Grid34
import Verif.Props.C49_Interpolate1D
import Verif.Props.C50_Convergence
import Verif.Props.C50_GaussSeidel
import Verif.Props.C51_Loess
import Verif.Props.C52_FillLine
import Verif.Props.C53_WindowFunctions
import Verif.Props.C54_Mesh
import Verif.Props.C55_MeshWindow
import Verif.Props.C56_Shapes
import Verif.Props.C57_Marshal
import Verif.Props.C58_Values
import Verif.Props.C59_CircularNearest
import Verif.Props.C60_GeohashRoundTrip
import Verif.Props.C65_Periodic
import Verif.Props.C67_MeshContents
import Verif.Props.C70_Trig
import Verif.Props.C71_Geodetic
import Verif.Props.C72_Accuracy
import Verif.Props.C72_EcefToLla
import Verif.Props.C73_Authalic
import Verif.Props.C74_Bicubic
import Verif.Props.C75_Rbf
import Verif.Props.C76_Kriging
import Verif.Props.C77_Covariance
import Verif.Props.C78_Names
import Verif.Props.C79_Frame
import Verif.Props.C80_BicubicCall
import Verif.Props.C81_PassNumbers
import Verif.Props.C82_Iterate
import Verif.Props.C83_Pass
import Verif.Props.C84_HalfOrbits
import Verif.Props.C86_Equator
import Verif.Props.C87_Swath
import Verif.Props.C88_OrbitInterpolate
import Verif.Props.C89_SwathArrays
import Verif.Props.C90_Crossover
import Verif.Props.C91_CrossoverSearch
import Verif.Props.C92_CrossoverList
import Verif.Props.C93_LineString
import Verif.Props.C94_Polygons
import Verif.Props.C95_GridPy
import Verif.Props.C96_XArray
import Verif.Props.C97_XArrayCall
import Verif.Props.C98_TemporalAxis
import Verif.Props.C99_DateText
import Verif.Spec.Area
import Verif.Spec.Arrays
import Verif.Spec.Axis
import Verif.Spec.Buffer
import Verif.Spec.Calendar
import Verif.Spec.Cell
import Verif.Spec.Coordinates
import Verif.Spec.Crossover
import Verif.Spec.DateArray
import Verif.Spec.DateText
import Verif.Spec.Double
import Verif.Spec.Ellipsoid
import Verif.Spec.Fill
import Verif.Spec.Frame
import Verif.Spec.GeoTree
import Verif.Spec.Geohash
import Verif.Spec.GeohashArray
import Verif.Spec.Grid
import Verif.Spec.GridPy
import Verif.Spec.Histogram
import Verif.Spec.HistogramDouble
import Verif.Spec.Interpolant
import Verif.Spec.Interval
import Verif.Spec.Mesh
import Verif.Spec.Multilinear
import Verif.Spec.Neighbours
import Verif.Spec.Orbit
import Verif.Spec.PeriodPy
import Verif.Spec.RTreeHistory
import Verif.Spec.Samples
import Verif.Spec.Segment
import Verif.Spec.Spline
import Verif.Spec.Spline2D
import Verif.Spec.Surface
import Verif.Spec.Swath
import Verif.Spec.TemporalAxis
import Verif.Spec.Values
import Verif.Spec.Window
