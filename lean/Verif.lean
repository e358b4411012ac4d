import Verif.Props.CubeMap
import Verif.Props.Constants
import Verif.Props.Lightcone
import Verif.Props.LightconeRedshifts
import Verif.Props.LightconeSlices
import Verif.Props.Files
import Verif.Props.Sources
import Verif.Props.FindIdx
import Verif.Props.FileNames
import Verif.Props.RedshiftRange
import Verif.Props.Convolve
import Verif.Props.Kernels
import Verif.Props.SmoothMaps
import Verif.Props.SmoothLine
import Verif.Props.Statistics
import Verif.Props.UVGrid
import Verif.Props.UVCache
import Verif.Props.Calibration
import Verif.Props.Morphology
import Verif.Props.RegionSizes
import Verif.Props.RaySizes
import Verif.Props.Conversions
import Verif.Props.Distances
import Verif.Props.DistanceTable
import Verif.Props.TableAccuracy
import Verif.Props.Distort
import Verif.Props.Halo
import Verif.Props.Padding
import Verif.Props.SubBoxes
import Verif.Props.Augment
import Verif.Props.Tau
import Verif.Props.Superpixels
import Verif.Props.Coeval
import Verif.Props.PowerSpectrum
import Verif.Props.PowerMu
import Verif.Props.PowerCylinder
import Verif.Props.Temperature
import Verif.Props.TemperatureLight
import Verif.Props.RandomField
import Verif.Props.Topology
import Verif.Props.Identify
import Verif.Props.Binning
import Verif.Props.Angular
import Verif.Props.Correlation
import Verif.Props.Noise
import Verif.Props.NoiseMap
import Verif.Props.NoiseCubes
import Verif.Props.UVResponse
import Verif.Props.BaselineCut
import Verif.Props.Wedge
import Verif.Props.Beam
import Verif.Props.Synchrotron
import Verif.Props.PointSources
import Verif.Props.RollingWedge
import Verif.Props.Bispectrum
import Verif.Props.HaloGrid
import Verif.Props.LineIntensity
import Verif.Props.Magnitudes
import Verif.Props.BubbleModel
import Verif.Props.NoiseError
import Verif.Props.Multipoles
import Verif.Props.SizeDistribution
import Verif.Props.PhysicalCone
import Verif.Props.Layout
import Verif.Props.FieldLike
import Verif.Props.PhaseShuffle
import Verif.Props.Lyman
import Verif.Props.Voigt
import Verif.Props.Diagnostics
import Verif.Props.Quantiles
import Verif.Props.DiagnosticsTruth
import Verif.Props.DiagnosticsStore
import Verif.Props.UVSmooth
import Verif.Props.ResolutionSmooth
import Verif.Props.Genus
import Verif.Props.CrossSpectrum
import Verif.Props.Lanczos
import Verif.Props.Interpolate
import Verif.Props.FitFunction
import Verif.Props.Equilateral
import Verif.Props.Phase
import Verif.Props.SaveData
import Verif.Props.FullConvolve
import Verif.Props.RayPoint
import Verif.Props.Rebin
import Verif.Props.SuperpixelStats
import Verif.Props.FastSpectrum
import Verif.Props.FastCylinder
import Verif.Props.FastCosine
import Verif.Props.Metrics
import Verif.Props.Gains
import Verif.Props.Pkdgrav
import Verif.Props.Thresholds
import Verif.Props.NameRedshifts
import Verif.Props.SimReaders
import Verif.Props.Beams
import Verif.Props.FastErrors
import Verif.Props.NumbaUV
import Verif.Props.StepCell
import Verif.Props.SlideBoxes
import Verif.Props.CubeP3M
import Verif.Props.Namespace
import Verif.Props.Calls
import Verif.Props.SharpFeatures
import Verif.Props.CorrFunction
import Verif.Props.PkdgravFiles
import Verif.Props.PackageValues
import Verif.Props.HTransform
import Verif.Props.IonRates
import Verif.Props.Response
import Verif.Props.CubeInputs
import Verif.Props.Plots
import Verif.Props.Forest
import Verif.Props.Locals
import Verif.Props.Returns
import Verif.Props.Constraints
import Verif.Props.Blob
import Verif.Props.Tipsy
import Verif.Props.Progress
import Verif.Props.Estimates
import Verif.Props.Edges
import Verif.Props.Visibility
import Verif.Props.CosmoNames
import Verif.Props.OneMarker
import Verif.Props.Curvature
import Verif.Props.Fast21cm
import Verif.Props.PadCone
import Verif.Props.VelocityCone
import Verif.Props.Subvolume
import Verif.Props.PvBox
import Verif.Props.ZsList
import Verif.Props.DictFiles
import Verif.Props.Erosion
import Verif.Props.CornerPlot
import Verif.Props.Orientation
import Verif.Props.TriangleSides
import Verif.Props.DistortMoves
import Verif.Props.LengthUnits
import Verif.Props.UVDaily
import Verif.Props.SnapshotOrder
import Verif.Props.ConeCells
import Verif.Props.HaloMerge
import Verif.Props.BispectrumUnits
import Verif.Props.SmoothOrder
import Verif.Props.DeltaUnits
import Verif.Props.TurnedSpectra
import Verif.Props.MirroredSpectra
import Verif.Props.ConstantSpectra
import Verif.Props.SmoothSymmetry
import Verif.Props.RayGrowth
import Verif.Props.TauGrowth
import Verif.Props.InterpolateRange
import Verif.Props.MuMean
import Verif.Props.MergedBins
import Verif.Props.ScoreOrder
import Verif.Props.WedgeAgain
import Verif.Props.CorrRange
import Verif.Props.ThresholdTwice
import Verif.Props.ScoreCells
