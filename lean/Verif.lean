import Verif.Base
import Verif.Fixtures
import Verif.FixturesLift
import Verif.FixturesQ
import Verif.FixturesRing
import Verif.Lemmas.Adjacency
import Verif.Lemmas.Assemble
import Verif.Lemmas.Baselines
import Verif.Lemmas.Batch
import Verif.Lemmas.BatchRun
import Verif.Lemmas.BatchTests
import Verif.Lemmas.BatchView
import Verif.Lemmas.Boundary
import Verif.Lemmas.CINTrain
import Verif.Lemmas.CellNet
import Verif.Lemmas.CellNetLift
import Verif.Lemmas.Checks
import Verif.Lemmas.Clique
import Verif.Lemmas.Cochains
import Verif.Lemmas.Colour
import Verif.Lemmas.Complex
import Verif.Lemmas.ComplexBatch
import Verif.Lemmas.Config
import Verif.Lemmas.Convert
import Verif.Lemmas.CountRings
import Verif.Lemmas.Cycles
import Verif.Lemmas.Dataset
import Verif.Lemmas.Dropout
import Verif.Lemmas.Dummies
import Verif.Lemmas.EdgeNet
import Verif.Lemmas.Embed
import Verif.Lemmas.EmbedBatch
import Verif.Lemmas.Experiment
import Verif.Lemmas.FlowBatch
import Verif.Lemmas.FlowGraph
import Verif.Lemmas.FlowTests
import Verif.Lemmas.Framework
import Verif.Lemmas.FrameworkArgs
import Verif.Lemmas.FrameworkLib
import Verif.Lemmas.FrameworkSparse
import Verif.Lemmas.GINBatch
import Verif.Lemmas.GINTrain
import Verif.Lemmas.GraphIso
import Verif.Lemmas.GraphNets
import Verif.Lemmas.Hole
import Verif.Lemmas.Influence
import Verif.Lemmas.Layers
import Verif.Lemmas.Learn
import Verif.Lemmas.Lists
import Verif.Lemmas.Loader
import Verif.Lemmas.Loss
import Verif.Lemmas.Lower
import Verif.Lemmas.MPTests
import Verif.Lemmas.Magnitude
import Verif.Lemmas.Models
import Verif.Lemmas.ModuleCounts
import Verif.Lemmas.ModuleNets
import Verif.Lemmas.ModuleReset
import Verif.Lemmas.Modules
import Verif.Lemmas.Molecules
import Verif.Lemmas.NoRings
import Verif.Lemmas.Normalise
import Verif.Lemmas.Ocean
import Verif.Lemmas.OneHot
import Verif.Lemmas.OrientTests
import Verif.Lemmas.Oriented
import Verif.Lemmas.Partial
import Verif.Lemmas.PartialNet
import Verif.Lemmas.Perm
import Verif.Lemmas.Power
import Verif.Lemmas.Predict
import Verif.Lemmas.Ranking
import Verif.Lemmas.Reach
import Verif.Lemmas.ReachAll
import Verif.Lemmas.Refeature
import Verif.Lemmas.Regular
import Verif.Lemmas.Relabel
import Verif.Lemmas.RingComplex
import Verif.Lemmas.RingIso
import Verif.Lemmas.RingNets
import Verif.Lemmas.RingProcess
import Verif.Lemmas.Rings
import Verif.Lemmas.Run
import Verif.Lemmas.SR
import Verif.Lemmas.SRDims
import Verif.Lemmas.SRPlot
import Verif.Lemmas.Scatter
import Verif.Lemmas.Simplices
import Verif.Lemmas.Skeleton
import Verif.Lemmas.Storage
import Verif.Lemmas.Strip
import Verif.Lemmas.StripFeatures
import Verif.Lemmas.Switch
import Verif.Lemmas.TU
import Verif.Lemmas.TUDataset
import Verif.Lemmas.TrainMode
import Verif.Lemmas.Trajectory
import Verif.Lemmas.Tuning
import Verif.Lemmas.View
import Verif.Lemmas.WidthGraph
import Verif.Lemmas.WidthNets
import Verif.Lemmas.WidthRest
import Verif.Lemmas.WidthSound
import Verif.Lemmas.WidthTop
import Verif.Lemmas.Widths
import Verif.Model.Batch
import Verif.Model.BatchCount
import Verif.Model.BatchTests
import Verif.Model.CINTrain
import Verif.Model.Checks
import Verif.Model.Cluster
import Verif.Model.Cochain
import Verif.Model.Complex
import Verif.Model.Config
import Verif.Model.ConversionTests
import Verif.Model.Convert
import Verif.Model.CountRings
import Verif.Model.Dataset
import Verif.Model.Download
import Verif.Model.Dropout
import Verif.Model.Dummies
import Verif.Model.EdgeDropout
import Verif.Model.Embed
import Verif.Model.Experiment
import Verif.Model.Faces
import Verif.Model.FeatureLookup
import Verif.Model.Flow
import Verif.Model.FlowData
import Verif.Model.FlowRects
import Verif.Model.FlowTests
import Verif.Model.Folders
import Verif.Model.Framework
import Verif.Model.GINTrain
import Verif.Model.GraphNets
import Verif.Model.LayerTests
import Verif.Model.Layers
import Verif.Model.Learn
import Verif.Model.Lifting
import Verif.Model.Loader
import Verif.Model.LoaderTests
import Verif.Model.Loss
import Verif.Model.MPTests
import Verif.Model.Magnitude
import Verif.Model.Matrix
import Verif.Model.MessagePassing
import Verif.Model.Models
import Verif.Model.Modules
import Verif.Model.Molecules
import Verif.Model.Normalise
import Verif.Model.Ocean
import Verif.Model.OrientFlow
import Verif.Model.OrientTests
import Verif.Model.Oriented
import Verif.Model.Parallel
import Verif.Model.Partial
import Verif.Model.Perm
import Verif.Model.Ranking
import Verif.Model.Reuse
import Verif.Model.RingData
import Verif.Model.RingLookup
import Verif.Model.RingProcess
import Verif.Model.Rings
import Verif.Model.RunTest
import Verif.Model.SR
import Verif.Model.SRPlot
import Verif.Model.Storage
import Verif.Model.Summary
import Verif.Model.TU
import Verif.Model.TUDataset
import Verif.Model.TUTests
import Verif.Model.ToGraph
import Verif.Model.TrainMode
import Verif.Model.Tuning
import Verif.Model.Widths
import Verif.Props.Adjacency
import Verif.Props.Baselines
import Verif.Props.BatchCount
import Verif.Props.BatchTests
import Verif.Props.Batching
import Verif.Props.Boundary
import Verif.Props.CINTrain
import Verif.Props.CellNet
import Verif.Props.Checks
import Verif.Props.Colour
import Verif.Props.ComplexBatching
import Verif.Props.Config
import Verif.Props.Construction
import Verif.Props.ConversionTests
import Verif.Props.Convert
import Verif.Props.CountRings
import Verif.Props.Dataset
import Verif.Props.Download
import Verif.Props.Drifters
import Verif.Props.Dropout
import Verif.Props.Dummies
import Verif.Props.EdgeDropout
import Verif.Props.EdgeNet
import Verif.Props.Embed
import Verif.Props.EmbedBatch
import Verif.Props.Evaluation
import Verif.Props.Experiment
import Verif.Props.Faces
import Verif.Props.FeatureLookup
import Verif.Props.FlowData
import Verif.Props.FlowDatasets
import Verif.Props.FlowRects
import Verif.Props.FlowTests
import Verif.Props.Folders
import Verif.Props.Framework
import Verif.Props.GINTrain
import Verif.Props.GraphNets
import Verif.Props.Hole
import Verif.Props.Influence
import Verif.Props.LayerTests
import Verif.Props.Layers
import Verif.Props.Learn
import Verif.Props.Lifting
import Verif.Props.Loader
import Verif.Props.LoaderTests
import Verif.Props.Loss
import Verif.Props.Lower
import Verif.Props.MPTests
import Verif.Props.Magnitude
import Verif.Props.MessagePassing
import Verif.Props.Models
import Verif.Props.Modules
import Verif.Props.Molecules
import Verif.Props.Normalise
import Verif.Props.Ocean
import Verif.Props.OceanDataset
import Verif.Props.OrientFlow
import Verif.Props.OrientTests
import Verif.Props.Oriented
import Verif.Props.Parallel
import Verif.Props.Params
import Verif.Props.Partial
import Verif.Props.Perm
import Verif.Props.Ranking
import Verif.Props.Reach
import Verif.Props.Regular
import Verif.Props.Reuse
import Verif.Props.RingData
import Verif.Props.RingIso
import Verif.Props.RingLookup
import Verif.Props.RingNets
import Verif.Props.RingProcess
import Verif.Props.Rings
import Verif.Props.RunTest
import Verif.Props.SR
import Verif.Props.SRDims
import Verif.Props.SRExperiment
import Verif.Props.SRPlot
import Verif.Props.Seeds
import Verif.Props.Skeleton
import Verif.Props.Storage
import Verif.Props.Summary
import Verif.Props.Switch
import Verif.Props.TU
import Verif.Props.TUDataset
import Verif.Props.TUTests
import Verif.Props.ToGraph
import Verif.Props.TrainMode
import Verif.Props.Trajectory
import Verif.Props.Tuning
import Verif.Props.Unbatching
import Verif.Props.WidthErrors
import Verif.Props.Widths
import Verif.Spec.Adjacency
import Verif.Spec.Baselines
import Verif.Spec.Batch
import Verif.Spec.BatchTests
import Verif.Spec.CINTrain
import Verif.Spec.CellNet
import Verif.Spec.Checks
import Verif.Spec.Colour
import Verif.Spec.Complex
import Verif.Spec.Config
import Verif.Spec.ConversionTests
import Verif.Spec.Convert
import Verif.Spec.CountRings
import Verif.Spec.Dataset
import Verif.Spec.Download
import Verif.Spec.Dropout
import Verif.Spec.Dummies
import Verif.Spec.EdgeNet
import Verif.Spec.Embed
import Verif.Spec.EmbedBatch
import Verif.Spec.Experiment
import Verif.Spec.FeatureLookup
import Verif.Spec.FlowData
import Verif.Spec.FlowRects
import Verif.Spec.Framework
import Verif.Spec.GINTrain
import Verif.Spec.GraphNets
import Verif.Spec.Influence
import Verif.Spec.LayerTests
import Verif.Spec.Learn
import Verif.Spec.Lifting
import Verif.Spec.Loader
import Verif.Spec.Loss
import Verif.Spec.Lower
import Verif.Spec.MPTests
import Verif.Spec.Magnitude
import Verif.Spec.MessagePassing
import Verif.Spec.Models
import Verif.Spec.Modules
import Verif.Spec.Molecules
import Verif.Spec.Normalise
import Verif.Spec.OrientTests
import Verif.Spec.Oriented
import Verif.Spec.Parallel
import Verif.Spec.Partial
import Verif.Spec.Perm
import Verif.Spec.Power
import Verif.Spec.Ranking
import Verif.Spec.Reach
import Verif.Spec.Regular
import Verif.Spec.Relabel
import Verif.Spec.Reuse
import Verif.Spec.RingIso
import Verif.Spec.RingNets
import Verif.Spec.RingProcess
import Verif.Spec.Rings
import Verif.Spec.Runs
import Verif.Spec.SR
import Verif.Spec.SRDims
import Verif.Spec.SRPlot
import Verif.Spec.Skeleton
import Verif.Spec.Storage
import Verif.Spec.Summary
import Verif.Spec.TU
import Verif.Spec.TUDataset
import Verif.Spec.TrainMode
import Verif.Spec.Tuning
import Verif.Spec.View
import Verif.Spec.Walks
import Verif.Spec.Widths
