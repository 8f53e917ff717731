import Verif.Lemmas.Adam
import Verif.Lemmas.Basis
import Verif.Lemmas.BoundaryMean
import Verif.Lemmas.Broadcast
import Verif.Lemmas.BubbleBound
import Verif.Lemmas.CellIntegral
import Verif.Lemmas.Descent
import Verif.Lemmas.Docker
import Verif.Lemmas.Driver
import Verif.Lemmas.DriverDomainFigures
import Verif.Lemmas.DriverFigures
import Verif.Lemmas.FeTypes
import Verif.Lemmas.Fespace
import Verif.Lemmas.GaussExists
import Verif.Lemmas.Geometry
import Verif.Lemmas.Interpolation
import Verif.Lemmas.InverseMap
import Verif.Lemmas.Jacobi
import Verif.Lemmas.Legendre
import Verif.Lemmas.Lobatto
import Verif.Lemmas.Lookup
import Verif.Lemmas.MaxPrinciple
import Verif.Lemmas.MaxPrincipleField
import Verif.Lemmas.MomentBound
import Verif.Lemmas.Nested
import Verif.Lemmas.Network
import Verif.Lemmas.Noise
import Verif.Lemmas.Numbering
import Verif.Lemmas.OutputLayer
import Verif.Lemmas.Patch
import Verif.Lemmas.Physics
import Verif.Lemmas.Pyplot
import Verif.Lemmas.QuadLimit
import Verif.Lemmas.Quadrature
import Verif.Lemmas.Quantile
import Verif.Lemmas.ReadMesh
import Verif.Lemmas.Rounded
import Verif.Lemmas.RoundedErrors
import Verif.Lemmas.RoundedLoss
import Verif.Lemmas.RoundedRuns
import Verif.Lemmas.RoundedTraining
import Verif.Lemmas.RuleUnique
import Verif.Lemmas.Settle
import Verif.Lemmas.Smooth
import Verif.Lemmas.SmoothModels
import Verif.Lemmas.Special
import Verif.Lemmas.SpecialErrors
import Verif.Lemmas.SpecialLoss
import Verif.Lemmas.Symmetry
import Verif.Lemmas.TanhSpan
import Verif.Lemmas.Tape
import Verif.Lemmas.TapeContinuous
import Verif.Lemmas.TapeLoss
import Verif.Lemmas.TapeModels
import Verif.Lemmas.TapeNet
import Verif.Lemmas.TapeRelu
import Verif.Lemmas.TapeStep
import Verif.Lemmas.TensorBasis
import Verif.Lemmas.Train
import Verif.Lemmas.Training
import Verif.Lemmas.Transform
import Verif.Lemmas.Transformation
import Verif.Lemmas.Underflow
import Verif.Lemmas.UnderflowErrors
import Verif.Model.AccuracyInverse
import Verif.Model.AccuracyTests
import Verif.Model.Attention
import Verif.Model.Basis
import Verif.Model.Broadcast
import Verif.Model.BuildTest
import Verif.Model.Cell
import Verif.Model.Common
import Verif.Model.ConfigFile
import Verif.Model.ConfigShipped
import Verif.Model.DataHandler
import Verif.Model.Docker
import Verif.Model.Driver
import Verif.Model.DriverDomain
import Verif.Model.DriverDomainFigures
import Verif.Model.DriverFigures
import Verif.Model.DriverGear
import Verif.Model.DriverInverse
import Verif.Model.DriverShipped
import Verif.Model.Examples
import Verif.Model.Fespace
import Verif.Model.Geometry
import Verif.Model.GeometryObject
import Verif.Model.Heap
import Verif.Model.Models
import Verif.Model.Network
import Verif.Model.Notebook
import Verif.Model.Numpy
import Verif.Model.Orthopoly
import Verif.Model.Physics
import Verif.Model.Pyplot
import Verif.Model.Quadrature
import Verif.Model.Rounded
import Verif.Model.RoundedErrors
import Verif.Model.RoundedTraining
import Verif.Model.Setup
import Verif.Model.Special
import Verif.Model.Study
import Verif.Model.StudyNan
import Verif.Model.Tape
import Verif.Model.Tracing
import Verif.Model.Train
import Verif.Model.Training
import Verif.Model.Transform
import Verif.Model.Transformation
import Verif.Model.Tuning
import Verif.Model.Underflow
import Verif.Model.UnderflowErrors
import Verif.Model.UnitTests
import Verif.Model.Utils
import Verif.Props.AccuracyInverse
import Verif.Props.AccuracyTests
import Verif.Props.Attention
import Verif.Props.Basis
import Verif.Props.BoundaryMean
import Verif.Props.BoundarySampled
import Verif.Props.Broadcast
import Verif.Props.BuildTest
import Verif.Props.CellAttributes
import Verif.Props.CellGeometry
import Verif.Props.ConfigFile
import Verif.Props.ConfigShipped
import Verif.Props.Consistency
import Verif.Props.Constructor
import Verif.Props.Convergence
import Verif.Props.Copies
import Verif.Props.DataHandler
import Verif.Props.Defect
import Verif.Props.Docker
import Verif.Props.Driver
import Verif.Props.DriverDomain
import Verif.Props.DriverDomainFigures
import Verif.Props.DriverDomainGrid
import Verif.Props.DriverExternal
import Verif.Props.DriverFigures
import Verif.Props.DriverGear
import Verif.Props.DriverInverse
import Verif.Props.DriverMethod
import Verif.Props.DriverShipped
import Verif.Props.ErrorBound
import Verif.Props.ExactSolution
import Verif.Props.ExampleRuns
import Verif.Props.Examples
import Verif.Props.Expressive
import Verif.Props.FeTypes
import Verif.Props.FeTypesScripts
import Verif.Props.Fespace
import Verif.Props.FieldError
import Verif.Props.Figures
import Verif.Props.Folding
import Verif.Props.Forcing
import Verif.Props.Geometry
import Verif.Props.GeometryObject
import Verif.Props.Identify
import Verif.Props.IdentifyExplicit
import Verif.Props.Integrals
import Verif.Props.ModelConfig
import Verif.Props.ModelWiring
import Verif.Props.Nested
import Verif.Props.Network
import Verif.Props.Noise
import Verif.Props.Notebook
import Verif.Props.Numbering
import Verif.Props.OutputLayer
import Verif.Props.Penalty
import Verif.Props.Physics
import Verif.Props.QuadLimit
import Verif.Props.Quadrature
import Verif.Props.ReadMesh
import Verif.Props.Refine
import Verif.Props.Rounded
import Verif.Props.RoundedErrors
import Verif.Props.RoundedTraining
import Verif.Props.Settle
import Verif.Props.Setup
import Verif.Props.Similarity
import Verif.Props.Special
import Verif.Props.SpecialErrors
import Verif.Props.Study
import Verif.Props.StudyNan
import Verif.Props.Symmetry
import Verif.Props.Tape
import Verif.Props.TestFunctions
import Verif.Props.Tracing
import Verif.Props.Train
import Verif.Props.Trainable
import Verif.Props.Training
import Verif.Props.Transform
import Verif.Props.Transformation
import Verif.Props.Tuning
import Verif.Props.Underflow
import Verif.Props.UnderflowErrors
import Verif.Props.UnitTests
import Verif.Props.Utils
import Verif.Props.WeakForm
import Verif.Props.WriteVtk
import Verif.Spec.Attention
import Verif.Spec.Basis
import Verif.Spec.BoundaryMean
import Verif.Spec.Broadcast
import Verif.Spec.BuildTest
import Verif.Spec.ConfigFile
import Verif.Spec.Defect
import Verif.Spec.Docker
import Verif.Spec.Driver
import Verif.Spec.DriverDomain
import Verif.Spec.DriverDomainFigures
import Verif.Spec.DriverDomainGrid
import Verif.Spec.DriverFigures
import Verif.Spec.DriverInverse
import Verif.Spec.Expressive
import Verif.Spec.FeTypes
import Verif.Spec.Fespace
import Verif.Spec.Figures
import Verif.Spec.Folding
import Verif.Spec.GeometryObject
import Verif.Spec.Identify
import Verif.Spec.Integral
import Verif.Spec.Mesh
import Verif.Spec.Nested
import Verif.Spec.Network
import Verif.Spec.Noise
import Verif.Spec.Notebook
import Verif.Spec.Numbering
import Verif.Spec.OutputLayer
import Verif.Spec.Penalty
import Verif.Spec.Plane
import Verif.Spec.Polynomial
import Verif.Spec.QuadLimit
import Verif.Spec.Quadrature
import Verif.Spec.Rectangle
import Verif.Spec.Refinement
import Verif.Spec.Rounded
import Verif.Spec.RoundedTraining
import Verif.Spec.Run
import Verif.Spec.Similarity
import Verif.Spec.Special
import Verif.Spec.Stability
import Verif.Spec.StabilityField
import Verif.Spec.Study
import Verif.Spec.StudyNan
import Verif.Spec.Symmetry
import Verif.Spec.Tape
import Verif.Spec.TestFunction
import Verif.Spec.Tracing
import Verif.Spec.Trainable
import Verif.Spec.Training
import Verif.Spec.Underflow
import Verif.Spec.UnderflowErrors
import Verif.Spec.UnitTests
import Verif.Spec.Vtk
import Verif.Spec.WeakForm
import Verif.Spec.Wiring
