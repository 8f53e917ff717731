import Verif.Model.Study

/-! # Specification: what a study should return -/

namespace FastVPINNs.Spec

/-- The configuration file that asks for what a trial with `n` epochs does. -/
noncomputable def trialConfig (p : SearchPoint) (n : ℕ) (outputPath : String) (update : ℤ) : ForwardConfig where
  outputPath := outputPath
  meshGenerationMethod := "internal"
  generateMeshPlot := false
  meshType := "quadrilateral"
  xMin := 0
  xMax := 1
  yMin := 0
  yMax := 1
  nCellsX := p.nCellsX
  nCellsY := p.nCellsY
  nBoundaryPoints := p.nBoundaryPoints
  nTestPointsX := 100
  nTestPointsY := 100
  meshFileName := ""
  boundaryRefinementLevel := 0
  boundarySamplingMethod := "uniform"
  feOrder := p.feOrder
  feType := p.feType
  quadOrder := p.quadOrder
  quadType := p.quadType
  modelArchitecture := [2] ++ p.hidden ++ [1]
  activation := "tanh"
  useAttention := false
  epochs := n
  dtype := "float32"
  learningRate := [("initial_learning_rate", .num p.initialLearningRate), ("use_lr_scheduler", .bool true),
    ("decay_steps", .num p.decaySteps), ("decay_rate", .num p.decayRate)]
  beta := 10
  updateConsoleOutput := update

/-- The relative error of `v` against `u` in the root mean square over the given points is `r`. -/
def IsRelativeError (pts : List (ℝ × ℝ)) (u v : ℝ × ℝ → ℝ) (r : ℝ) : Prop :=
  0 ≤ r ∧ 0 < (pts.map fun z => u z ^ 2).sum ∧
    r ^ 2 * (pts.map fun z => u z ^ 2).sum = (pts.map fun z => (u z - v z) ^ 2).sum

end FastVPINNs.Spec
