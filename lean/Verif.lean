import Verif.Model.Py
import Verif.Model.ConfigSpace
import Verif.Model.Utils
import Verif.Props.Scaling
import Verif.Props.Unscale
import Verif.Spec.UnscaleExact
import Verif.Props.UnscaleExact
import Verif.Props.Selection
import Verif.Props.Median
import Verif.Props.Seeding
import Verif.Model.Blackbox
import Verif.Lemmas.Names
import Verif.Props.Blackbox
import Verif.Props.Synthetic
import Verif.Props.SyntheticExact
import Verif.Props.CrossInTrayDigits
import Verif.Props.PdIntegral
import Verif.Props.Sampler
import Verif.Props.Evaluations
import Verif.Props.Cache
import Verif.Props.RandomGrid
import Verif.Props.CacheExact
import Verif.Props.SamplerExact
import Verif.Props.GridExact
import Verif.Props.GridPoints
import Verif.Props.Bayes
import Verif.Props.InitialDesign
import Verif.Props.MMD
import Verif.Props.Acquisition
import Verif.Props.Surrogate
import Verif.Props.Ice
import Verif.Props.IceObject
import Verif.Props.IceSeq
import Verif.Props.Pdp
import Verif.Spec.IceHistory
import Verif.Props.IceHistory
import Verif.Props.Loss
import Verif.Props.BestSplit
import Verif.Props.Partition
import Verif.Props.Conditions
import Verif.Props.Regions
import Verif.Props.ImpliedSpace
import Verif.Props.RegionPdp
import Verif.Props.Likelihood
import Verif.Props.ForestRegion
import Verif.Props.FigureGrid
import Verif.Props.Axis
import Verif.Spec.AxisExact
import Verif.Props.AxisExact
import Verif.Props.Confidence
import Verif.Props.PlotFunction
import Verif.Props.Colour
import Verif.Model.Plots
import Verif.Spec.Plots
import Verif.Props.CurvePlots
import Verif.Props.PdpPlots
import Verif.Props.FamilyPlots
import Verif.Props.SurrogatePlots
import Verif.Props.SamplerPlots
import Verif.Props.SpacePlots
import Verif.Props.IncumbentPlots
import Verif.Model.AcquisitionPlot
import Verif.Props.AcquisitionPlot
import Verif.Spec.AdvancedPlots
import Verif.Model.AdvancedPlots
import Verif.Props.AdvancedPlots
import Verif.Props.BayesianPlot
import Verif.Model.Legend
import Verif.Spec.Legend
import Verif.Lemmas.LegendErase
import Verif.Props.Legend
import Verif.Model.Progress
import Verif.Spec.Progress
import Verif.Props.Progress
import Verif.Props.TreeInvariance
import Verif.Props.AcquisitionSigma
import Verif.Props.ObjectiveUnits
import Verif.Props.Additive
import Verif.Props.PdpConsistency
import Verif.Props.PdpTruth
import Verif.Props.TreeDecomposition
import Verif.Props.Inherit
import Verif.Props.MmdUnbiased
import Verif.Props.Machine
import Verif.Model.MachineBest
import Verif.Props.MachineBest
import Verif.Spec.Double
import Verif.Lemmas.Double
import Verif.Props.GridRounding
import Verif.Model.IceDtype
import Verif.Props.IceDtype
import Verif.Model.Rounding
import Verif.Spec.Rounding
import Verif.Props.Rounding
import Verif.Props.RoundingSame
import Verif.Lemmas.Log10
import Verif.Model.RoundedRanges
import Verif.Spec.RoundedRanges
import Verif.Props.RoundedRanges
import Verif.Model.RoundedImplied
import Verif.Spec.RoundedImplied
import Verif.Props.RoundedImplied
import Verif.Model.RoundedMachine
import Verif.Props.RoundedMachine
import Verif.Spec.IntegerVectors
import Verif.Props.IntegerVectors
import Verif.Model.SyntheticClasses
import Verif.Props.SyntheticCalls
import Verif.Model.ConditionText
import Verif.Props.ConditionText
import Verif.Model.MachineCondition
import Verif.Props.RoundTrip
import Verif.Props.Tiling
import Verif.Props.SamplerSpace
import Verif.Model.RoundedGrid
import Verif.Props.RoundedGrid
import Verif.Props.RepoTests
import Verif.Spec.Ties
import Verif.Props.RoundedLoss
import Verif.Model.Memory
import Verif.Spec.Memory
import Verif.Props.Memory
import Verif.Props.IceConsistency
import Verif.Spec.Copies
import Verif.Props.Copies
import Verif.Props.ForestFull
import Verif.Props.Deeper
import Verif.Props.Enough
import Verif.Model.OpenmlTasks
import Verif.Props.OpenmlTasks
import Verif.Props.MmdDistance
import Verif.Spec.Stability
import Verif.Props.Stability
import Verif.Spec.RoundedTree
import Verif.Props.RoundedTree
import Verif.Model.Session
import Verif.Spec.Session
import Verif.Props.Session
import Verif.Spec.Units
import Verif.Props.Units
import Verif.Props.Freedom
import Verif.Spec.AdditiveVariance
import Verif.Props.AdditiveVariance
import Verif.Props.ForestInvariance
import Verif.Spec.Irrelevant
import Verif.Props.Irrelevant
import Verif.Spec.Symmetry
import Verif.Props.Symmetry
import Verif.Spec.Recovery
import Verif.Props.Recovery
import Verif.Spec.RandomSearch
import Verif.Props.RandomSearch
import Verif.Spec.GridSearch
import Verif.Props.GridSearch
import Verif.Spec.PdpBand
import Verif.Props.PdpBand
import Verif.Props.RandomCandidates
import Verif.Spec.LikelihoodUnits
import Verif.Props.LikelihoodUnits
import Verif.Spec.GpError
import Verif.Props.GpError
import Verif.Spec.GpSmooth
import Verif.Props.GpSmooth
import Verif.Props.AcquisitionSmooth
import Verif.Props.GpLinear
import Verif.Props.GpCover
import Verif.Lemmas.MaternStrict
import Verif.Props.GpAny
import Verif.Props.BoCertificate
import Verif.Spec.Gain
import Verif.Props.BoImprovement
import Verif.Props.BoProbability
import Verif.Props.GpOutlier
import Verif.Model.MachineForest
import Verif.Props.RoundedForest
import Verif.Props.MmdTransport
import Verif.Props.MmdConsistency
import Verif.Spec.PopulationTree
import Verif.Props.PopulationTree
import Verif.Props.LeafLimits
import Verif.Props.TreeRate
import Verif.Props.TreeLimit
import Verif.Props.Bootstrap
import Verif.Props.ForestVotes
import Verif.Props.PdpNormal
import Verif.Props.GridLimit
import Verif.Props.GridRate
import Verif.Props.DrawnLine
import Verif.Props.MarkedMinimum
import Verif.Props.TrueMinimum
import Verif.Props.LeafPdp
import Verif.Props.LeafTruth
import Verif.Props.IceLines
import Verif.Props.WholeError
import Verif.Props.CenteredLines
import Verif.Props.BandCover
import Verif.Props.SampledMinimum
import Verif.Props.SampledMinimumTwo
import Verif.Props.TruthInBand
import Verif.Props.TruthAndMeans
import Verif.Props.OnePicture
import Verif.Props.Formulas
import Verif.Props.Lightness
import Verif.Lemmas.Matern
import Verif.Model.Gp
import Verif.Spec.Gp
import Verif.Props.Gp
import Verif.Spec.Workflow
import Verif.Props.Workflow
import Verif.Model.BoGp
import Verif.Spec.Acquisition
import Verif.Props.BoGp
import Verif.Model.Main
import Verif.Model.MainForest
import Verif.Props.Main
import Verif.Props.ForestFilled
import Verif.Props.MainForest
import Verif.Props.MainPaper
import Verif.Model.Main2D
import Verif.Props.Main2D
import Verif.Model.MainPresentation
import Verif.Props.MainPresentation
import Verif.Model.HpoBench
import Verif.Props.HpoBench
import Verif.Props.StaleEta
import Verif.Model.MainIntroduction
import Verif.Props.MainIntroduction
import Verif.Model.Tables
import Verif.Spec.Tables
import Verif.Props.Tables
import Verif.Model.BadNll
import Verif.Props.BadNll
import Verif.Model.MainMeta
import Verif.Props.MainMeta
import Verif.Model.PaperFigures
import Verif.Props.PaperFigures
import Verif.Props.ScriptPoints
import Verif.Props.MainFigure
import Verif.Model.SamplerAnalysis
import Verif.Props.SamplerAnalysis
import Verif.Model.MainHpo
import Verif.Props.MainHpo
import Verif.Props.Figure6
import Verif.Props.TreeData
