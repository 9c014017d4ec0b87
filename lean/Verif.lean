import Verif.Lemmas.AxisAngle
import Verif.Lemmas.Batch
import Verif.Lemmas.Blocks
import Verif.Lemmas.Conv
import Verif.Lemmas.ConvOk
import Verif.Lemmas.Coset
import Verif.Lemmas.Equivariance
import Verif.Lemmas.Euler
import Verif.Lemmas.Gelu
import Verif.Lemmas.Graph
import Verif.Lemmas.Interval
import Verif.Lemmas.KernelSym
import Verif.Lemmas.Lattice
import Verif.Lemmas.Layer
import Verif.Lemmas.Linear
import Verif.Lemmas.NN
import Verif.Lemmas.Network
import Verif.Lemmas.RBFCert
import Verif.Lemmas.RBFData
import Verif.Lemmas.RBFQuat
import Verif.Lemmas.Random
import Verif.Lemmas.Reading
import Verif.Lemmas.SO3
import Verif.Lemmas.Sampling
import Verif.Lemmas.Scalar
import Verif.Lemmas.Strided
import Verif.Lemmas.Tensor
import Verif.Lemmas.Training
import Verif.Lemmas.Weights
import Verif.Model.Activations
import Verif.Model.Functional
import Verif.Model.GConv
import Verif.Model.Graph
import Verif.Model.GridCache
import Verif.Model.Init
import Verif.Model.Interpolation
import Verif.Model.Kernel
import Verif.Model.KernelInstances
import Verif.Model.Layout
import Verif.Model.Memory
import Verif.Model.Modules
import Verif.Model.Network
import Verif.Model.Normalization
import Verif.Model.O2
import Verif.Model.O3
import Verif.Model.Pooling
import Verif.Model.Readme
import Verif.Model.Repr
import Verif.Model.Repulsion
import Verif.Model.S2
import Verif.Model.SO2
import Verif.Model.SO3
import Verif.Model.SO3Tables
import Verif.Model.StateDict
import Verif.Model.SubgroupSO3
import Verif.Model.Training
import Verif.Model.Tutorial
import Verif.Props.Activations
import Verif.Props.Batch
import Verif.Props.Blocks
import Verif.Props.Continuity
import Verif.Props.ConvForward
import Verif.Props.ConvInit
import Verif.Props.Crop
import Verif.Props.Custom
import Verif.Props.DefaultGrids
import Verif.Props.DefaultSO3
import Verif.Props.DefaultSampling
import Verif.Props.Energy
import Verif.Props.Exact
import Verif.Props.Fibres
import Verif.Props.Functional
import Verif.Props.Geometry
import Verif.Props.GeometryE2
import Verif.Props.Graph
import Verif.Props.GridCache
import Verif.Props.GridOverride
import Verif.Props.GridTables
import Verif.Props.Init
import Verif.Props.Interp
import Verif.Props.Invariance
import Verif.Props.Kernel
import Verif.Props.KernelDefaults
import Verif.Props.KernelInstances
import Verif.Props.Law
import Verif.Props.Layout
import Verif.Props.Linear
import Verif.Props.Local
import Verif.Props.Memory
import Verif.Props.Metric
import Verif.Props.Misfit
import Verif.Props.Modules
import Verif.Props.Network
import Verif.Props.NormStats
import Verif.Props.Normalization
import Verif.Props.O2
import Verif.Props.O3
import Verif.Props.Padding
import Verif.Props.Parts
import Verif.Props.Pooling
import Verif.Props.Product
import Verif.Props.Random
import Verif.Props.Range
import Verif.Props.Readme
import Verif.Props.ReadmeRandom
import Verif.Props.Recover
import Verif.Props.Regular
import Verif.Props.Reorder
import Verif.Props.Repr
import Verif.Props.Representatives
import Verif.Props.Repulsion
import Verif.Props.Rotation
import Verif.Props.Rotations
import Verif.Props.RoundedNet
import Verif.Props.Rounding
import Verif.Props.RoundingE
import Verif.Props.S2
import Verif.Props.SO2
import Verif.Props.SO3
import Verif.Props.SO3Euler
import Verif.Props.SO3Log
import Verif.Props.Separable
import Verif.Props.SizeOne
import Verif.Props.Spread
import Verif.Props.Stability
import Verif.Props.StabilityNet
import Verif.Props.StateDict
import Verif.Props.StateSO3
import Verif.Props.StateWidth
import Verif.Props.Tables
import Verif.Props.Torus
import Verif.Props.Training
import Verif.Props.TrainingTorus
import Verif.Props.Translation
import Verif.Props.Tutorial
import Verif.Props.Usable
import Verif.Spec.Basic
import Verif.Spec.Batch
import Verif.Spec.Blocks
import Verif.Spec.Continuity
import Verif.Spec.Conv
import Verif.Spec.Custom
import Verif.Spec.Equivariance
import Verif.Spec.Evaluate
import Verif.Spec.Init
import Verif.Spec.Kernel
import Verif.Spec.Lattice
import Verif.Spec.Law
import Verif.Spec.Layer
import Verif.Spec.Layout
import Verif.Spec.Linear
import Verif.Spec.Local
import Verif.Spec.Metric
import Verif.Spec.NN
import Verif.Spec.Network
import Verif.Spec.Parts
import Verif.Spec.Product
import Verif.Spec.Random
import Verif.Spec.Range
import Verif.Spec.Reading
import Verif.Spec.Reorder
import Verif.Spec.Rotations
import Verif.Spec.RoundedNet
import Verif.Spec.Rounding
import Verif.Spec.SO3
import Verif.Spec.Spread
import Verif.Spec.Stability
import Verif.Spec.Usable
import Verif.Torch.NN
import Verif.Torch.Scalar
import Verif.Torch.Spatial
import Verif.Torch.Strided
import Verif.Torch.Tensor
