import Verif.Lemmas.Addition
import Verif.Lemmas.Arrays
import Verif.Lemmas.Autodiff
import Verif.Lemmas.Bargmann
import Verif.Lemmas.CGOrthogonality
import Verif.Lemmas.CartesianTensors
import Verif.Lemmas.ClebschGordan
import Verif.Lemmas.Coupling
import Verif.Lemmas.CutoffFloat
import Verif.Lemmas.Degrees
import Verif.Lemmas.Detrace
import Verif.Lemmas.DirectionFloat
import Verif.Lemmas.Exchange
import Verif.Lemmas.FeatureArrays
import Verif.Lemmas.Fischer
import Verif.Lemmas.FloatArith
import Verif.Lemmas.FloatLayers
import Verif.Lemmas.Forces
import Verif.Lemmas.FusedBasis
import Verif.Lemmas.Generating
import Verif.Lemmas.Gradients
import Verif.Lemmas.GradientsExact
import Verif.Lemmas.HarmonicCoeff
import Verif.Lemmas.HarmonicSums
import Verif.Lemmas.Harmonics
import Verif.Lemmas.HarmonicsFloat
import Verif.Lemmas.Indexed
import Verif.Lemmas.IndexedArrays
import Verif.Lemmas.IndexedReduce
import Verif.Lemmas.Inertia
import Verif.Lemmas.Irreps
import Verif.Lemmas.LookupTables
import Verif.Lemmas.LutGeneric
import Verif.Lemmas.LutKinds
import Verif.Lemmas.LutKinds2
import Verif.Lemmas.LutKinds3
import Verif.Lemmas.MatMat
import Verif.Lemmas.MatMatLoop
import Verif.Lemmas.MatMatRotation
import Verif.Lemmas.Message
import Verif.Lemmas.NullCone
import Verif.Lemmas.Orders
import Verif.Lemmas.Polynomials
import Verif.Lemmas.QuadratureCheck
import Verif.Lemmas.QuadratureDelley
import Verif.Lemmas.QuadratureGrid
import Verif.Lemmas.QuadratureLebedev1
import Verif.Lemmas.QuadratureLebedev2
import Verif.Lemmas.QuadratureMoments
import Verif.Lemmas.RandomRotation
import Verif.Lemmas.RandomRotationHalf
import Verif.Lemmas.RandomRotationLaw
import Verif.Lemmas.RandomRotationMatrix
import Verif.Lemmas.Reorder
import Verif.Lemmas.Representation
import Verif.Lemmas.RotationAverage
import Verif.Lemmas.Rotations
import Verif.Lemmas.SafeFloat
import Verif.Lemmas.Schur
import Verif.Lemmas.ShippedCheck
import Verif.Lemmas.ShippedError
import Verif.Lemmas.ShippedHarmonics
import Verif.Lemmas.ShippedHarmonics1
import Verif.Lemmas.ShippedHarmonics2
import Verif.Lemmas.ShippedTensorCheck
import Verif.Lemmas.ShippedTensorCheck1
import Verif.Lemmas.ShippedTensors
import Verif.Lemmas.Shoemake
import Verif.Lemmas.SignedIndices
import Verif.Lemmas.Smooth
import Verif.Lemmas.SoftmaxFloat
import Verif.Lemmas.SphereIntegral
import Verif.Lemmas.SphericalHarmonics
import Verif.Lemmas.SymTensor
import Verif.Lemmas.Symmetry
import Verif.Lemmas.Tensor
import Verif.Lemmas.TensorAmplify
import Verif.Lemmas.TensorCertificate
import Verif.Lemmas.TensorCheck
import Verif.Lemmas.TensorConversion
import Verif.Lemmas.TensorIndices
import Verif.Lemmas.TensorResults
import Verif.Lemmas.TensorSound
import Verif.Lemmas.Variance
import Verif.Lemmas.WignerD
import Verif.Model.Activations
import Verif.Model.Arrays
import Verif.Model.Autodiff
import Verif.Model.Basic
import Verif.Model.CartesianTensors
import Verif.Model.Checked
import Verif.Model.Common
import Verif.Model.ComplexInit
import Verif.Model.ConcurrentCache
import Verif.Model.Config
import Verif.Model.CutoffFloat
import Verif.Model.Dense
import Verif.Model.DirectionFloat
import Verif.Model.Embed
import Verif.Model.Energy
import Verif.Model.FeatureArrays
import Verif.Model.Features
import Verif.Model.FloatArith
import Verif.Model.FloatLayers
import Verif.Model.Forces
import Verif.Model.Functions
import Verif.Model.FusedInit
import Verif.Model.Gradients
import Verif.Model.HarmonicsFloat
import Verif.Model.Indexed
import Verif.Model.IndexedArrays
import Verif.Model.Inertia
import Verif.Model.Initializers
import Verif.Model.Irreps
import Verif.Model.LookupTables
import Verif.Model.MatMat
import Verif.Model.Message
import Verif.Model.MessageWeights
import Verif.Model.Network
import Verif.Model.Quadrature
import Verif.Model.QuadratureDelley
import Verif.Model.QuadratureGrid
import Verif.Model.QuadratureLebedev
import Verif.Model.Rotations
import Verif.Model.Safe
import Verif.Model.SafeFloat
import Verif.Model.ShippedHarmonics
import Verif.Model.ShippedTensors
import Verif.Model.SignedIndices
import Verif.Model.Softmax
import Verif.Model.SoftmaxFloat
import Verif.Model.Symbolic
import Verif.Model.Tensor
import Verif.Model.TensorConversion
import Verif.Model.Tetracubes
import Verif.Model.Training
import Verif.Model.WorkerPool
import Verif.Model.Wrappers
import Verif.Props.Activations
import Verif.Props.Alignment
import Verif.Props.Attention
import Verif.Props.AttentionAverage
import Verif.Props.AttentionLogit
import Verif.Props.AttentionNaN
import Verif.Props.AttentionUniform
import Verif.Props.Batch
import Verif.Props.CartesianTensors
import Verif.Props.Channels
import Verif.Props.ClebschGordan
import Verif.Props.Common
import Verif.Props.ComplexInit
import Verif.Props.Componentwise
import Verif.Props.ConcurrentCache
import Verif.Props.Config
import Verif.Props.Conversion
import Verif.Props.ConversionArrays
import Verif.Props.Covering
import Verif.Props.Cutoff
import Verif.Props.CutoffFloat
import Verif.Props.Dense
import Verif.Props.DirectionFloat
import Verif.Props.Distributions
import Verif.Props.Embed
import Verif.Props.Energy
import Verif.Props.EnergySmooth
import Verif.Props.Exchange
import Verif.Props.FeatureArrays
import Verif.Props.Features
import Verif.Props.FloatLayers
import Verif.Props.Forces
import Verif.Props.Fused
import Verif.Props.FusedVariance
import Verif.Props.Gradients
import Verif.Props.HarmonicGrids
import Verif.Props.HarmonicsFloat
import Verif.Props.Heads
import Verif.Props.IndexedArrays
import Verif.Props.Inertia
import Verif.Props.Initializers
import Verif.Props.Irreducible
import Verif.Props.KeyBias
import Verif.Props.Locality
import Verif.Props.LookupDamage
import Verif.Props.LookupTables
import Verif.Props.MatMat
import Verif.Props.Message
import Verif.Props.MessageWeights
import Verif.Props.Network
import Verif.Props.Orthonormality
import Verif.Props.Pairwise
import Verif.Props.Quadrature
import Verif.Props.QuadratureGrids
import Verif.Props.RadialBasis
import Verif.Props.RandomRotation
import Verif.Props.Reduce
import Verif.Props.Reorder
import Verif.Props.RotationAverage
import Verif.Props.Rotations
import Verif.Props.Safe
import Verif.Props.SafeFloat
import Verif.Props.Screws
import Verif.Props.ShippedTables
import Verif.Props.ShippedTensors
import Verif.Props.SignedIndices
import Verif.Props.Smoothness
import Verif.Props.Softmax
import Verif.Props.SoftmaxFloat
import Verif.Props.Sphere
import Verif.Props.SphericalHarmonics
import Verif.Props.Superposition
import Verif.Props.Switch
import Verif.Props.Tensor
import Verif.Props.TensorConversion
import Verif.Props.Tetracubes
import Verif.Props.Training
import Verif.Props.Truncation
import Verif.Props.Universal
import Verif.Props.Validation
import Verif.Props.ValueBias
import Verif.Props.ValueScale
import Verif.Props.Variance
import Verif.Props.WignerD
import Verif.Props.WorkerPool
import Verif.Props.Wrappers
import Verif.Spec.Arrays
import Verif.Spec.AttentionLogit
import Verif.Spec.Batch
import Verif.Spec.CartesianTensors
import Verif.Spec.Channels
import Verif.Spec.ComplexInit
import Verif.Spec.ConcurrentCache
import Verif.Spec.Covering
import Verif.Spec.CutoffFloat
import Verif.Spec.Embed
import Verif.Spec.Energy
import Verif.Spec.EnergySmooth
import Verif.Spec.Exchange
import Verif.Spec.FeatureArrays
import Verif.Spec.Features
import Verif.Spec.FloatArith
import Verif.Spec.FloatLayers
import Verif.Spec.Forces
import Verif.Spec.FusedVariance
import Verif.Spec.Graph
import Verif.Spec.HarmonicsFloat
import Verif.Spec.Heads
import Verif.Spec.Inertia
import Verif.Spec.Initializers
import Verif.Spec.Irreducible
import Verif.Spec.Irreps
import Verif.Spec.Locality
import Verif.Spec.LookupTables
import Verif.Spec.MatMat
import Verif.Spec.Message
import Verif.Spec.MessageWeights
import Verif.Spec.QuadratureError
import Verif.Spec.RandomRotation
import Verif.Spec.Reorder
import Verif.Spec.RotationAverage
import Verif.Spec.ShippedTables
import Verif.Spec.ShippedTensors
import Verif.Spec.SignedIndices
import Verif.Spec.Softmax
import Verif.Spec.SoftmaxFloat
import Verif.Spec.Sphere
import Verif.Spec.Superposition
import Verif.Spec.Symmetry
import Verif.Spec.Tensor
import Verif.Spec.TensorConversion
import Verif.Spec.Tetracubes
import Verif.Spec.Training
import Verif.Spec.Truncation
import Verif.Spec.Variance
import Verif.Spec.WorkerPool
import Verif.Spec.Wrappers
