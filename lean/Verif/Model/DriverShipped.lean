import Verif.Model.Driver

/-! # The shipped configurations of the driver scripts

The values of the `input.yaml` files beside the drivers (numbers as reals, entries that the drivers do not
use left out), and the problems the drivers import. -/

namespace FastVPINNs

/-- The learning rate of all configurations but that of the gear:
`uniform_mesh/poisson_2d/input.yaml:51-56`. -/
noncomputable def shippedLearningRate : List (String × PyVal) :=
  [("initial_learning_rate", .num 0.001), ("use_lr_scheduler", .bool false), ("decay_steps", .num 1000),
   ("decay_rate", .num 0.99), ("staircase", .bool false)]

/-- `examples/forward_problems_2d/uniform_mesh/poisson_2d/input.yaml:1-60`. -/
noncomputable def configUniformPoisson : ForwardConfig where
  outputPath := "output/poisson2d/1"
  meshGenerationMethod := "internal"
  generateMeshPlot := true
  meshType := "quadrilateral"
  xMin := 0
  xMax := 1
  yMin := 0
  yMax := 1
  nCellsX := 4
  nCellsY := 4
  nBoundaryPoints := 400
  nTestPointsX := 100
  nTestPointsY := 100
  meshFileName := "meshes/hemker.mesh"
  boundaryRefinementLevel := 4
  boundarySamplingMethod := "uniform"
  feOrder := 6
  feType := "legendre"
  quadOrder := 10
  quadType := "gauss-jacobi"
  modelArchitecture := [2, 50, 50, 50, 50, 1]
  activation := "tanh"
  useAttention := false
  epochs := 10000
  dtype := "float32"
  learningRate := shippedLearningRate
  beta := 10
  updateConsoleOutput := 5000

/-- `examples/forward_problems_2d/uniform_mesh/helmholtz_2d/input.yaml:1-63`. -/
noncomputable def configHelmholtz : ForwardConfig :=
  { configUniformPoisson with
    outputPath := "output/helmholtz/1"
    modelArchitecture := [2, 30, 30, 30, 1] }

/-- `examples/forward_problems_2d/hard_boundary_constraints/poisson_2d/input.yaml:1-56`. -/
noncomputable def configHard : ForwardConfig :=
  { configUniformPoisson with
    meshFileName := "meshes/rect.mesh"
    feOrder := 5
    quadOrder := 20
    modelArchitecture := [2, 30, 30, 30, 1] }

/-- `examples/forward_problems_2d/complex_mesh/poisson2d/input.yaml`. -/
noncomputable def configComplexPoisson : ForwardConfig :=
  { configUniformPoisson with
    meshGenerationMethod := "external"
    meshFileName := "../meshes/circle_quad.mesh"
    feOrder := 2
    quadOrder := 3
    modelArchitecture := [2, 30, 30, 30, 1]
    epochs := 6000
    updateConsoleOutput := 2000 }

/-- `examples/forward_problems_2d/complex_mesh/USA/input.yaml`. -/
noncomputable def configUSA : ForwardConfig :=
  { configUniformPoisson with
    meshGenerationMethod := "external"
    generateMeshPlot := false
    meshFileName := "../meshes/usa.mesh"
    feOrder := 3
    quadOrder := 4
    modelArchitecture := [2, 30, 30, 30, 1]
    epochs := 30000 }

/-- `examples/forward_problems_2d/complex_mesh/helmholtz2d/input.yaml`. -/
noncomputable def configComplexHelmholtz : ForwardConfig :=
  { configUniformPoisson with
    outputPath := "output/helmholtz/1"
    meshGenerationMethod := "external"
    meshFileName := "../meshes/circle_quad.mesh"
    feOrder := 4
    feType := "jacobi"
    quadOrder := 5
    modelArchitecture := [2, 30, 30, 30, 1] }

/-- `examples/forward_problems_2d/complex_mesh/cd2d/input.yaml`. -/
noncomputable def configCd2d : ForwardConfig :=
  { configUniformPoisson with
    outputPath := "output/cd2d/1"
    meshGenerationMethod := "external"
    meshFileName := "../meshes/circle_quad.mesh"
    feOrder := 3
    feType := "jacobi"
    quadOrder := 4 }

/-- `uniform_mesh/poisson_2d` and `hard_boundary_constraints/poisson_2d`. -/
noncomputable def problemUniformPoisson : Problem :=
  ⟨lossPoisson, UniformPoisson.boundaryFunctionDict, UniformPoisson.rhs, UniformPoisson.exactSolution,
    UniformPoisson.bilinearParamsDict⟩

/-- `uniform_mesh/helmholtz_2d`. -/
noncomputable def problemHelmholtz : Problem :=
  ⟨lossHelmholtz, Helmholtz.boundaryFunctionDict, Helmholtz.rhs, Helmholtz.exactSolution,
    Helmholtz.bilinearParamsDict⟩

/-- `complex_mesh/helmholtz2d`. -/
noncomputable def problemComplexHelmholtz : Problem :=
  ⟨lossHelmholtz, Helmholtz.complexBoundaryFunctionDict, Helmholtz.rhs, Helmholtz.exactSolution,
    Helmholtz.bilinearParamsDict⟩

/-- `complex_mesh/poisson2d` and `complex_mesh/USA`. -/
noncomputable def problemComplexPoisson : Problem :=
  ⟨lossPoisson, ComplexPoisson.boundaryFunctionDict, ComplexPoisson.rhs, ComplexPoisson.exactSolution,
    ComplexPoisson.bilinearParamsDict⟩

/-- `complex_mesh/cd2d`. -/
noncomputable def problemCd2d : Problem :=
  ⟨lossCd2d, ConvectionDiffusion.boundaryFunctionDict, ConvectionDiffusion.rhs,
    ConvectionDiffusion.exactSolution, ConvectionDiffusion.bilinearParamsDict⟩

end FastVPINNs
