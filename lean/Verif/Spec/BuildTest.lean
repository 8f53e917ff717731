import Verif.Spec.Driver

/-! # When an installation can train

The conditions under which everything up to the training can be built, on the keys and the sizes only: no value of a
function or a coefficient occurs. -/

namespace FastVPINNs.Spec

/-- Settings with which the test of the installation can do at least one step. -/
structure Buildable (pb : Problem) (cfg : ForwardConfig) (kind : LossKind) : Prop where
  dtype : cfg.dtype = "float64" ∨ cfg.dtype = "float32"
  meshType : cfg.meshType = "quadrilateral"
  nCells : 0 < cfg.nCellsX ∧ 0 < cfg.nCellsY
  testPoints : 0 < cfg.nTestPointsX ∧ 0 < cfg.nTestPointsY
  feOrder : 2 ≤ cfg.feOrder ∧ cfg.feOrder < 1000
  feType : cfg.feType ∈ ["legendre", "jacobi", "legendre_special", "chebyshev_2", "jacobi_plain"]
  quadOrder : 3 ≤ cfg.quadOrder ∧ cfg.quadOrder ≤ 9999
  quadType : cfg.quadType = "gauss-legendre" ∨ cfg.quadType = "gauss-jacobi"
  boundary : 4 ≤ cfg.nBoundaryPoints →
    ∀ tag ∈ [(1000 : ℤ), 1001, 1002, 1003], ∃ g, pb.boundaryFunctionDict.lookup tag = some g
  plot : cfg.generateMeshPlot = true → 4 ≤ cfg.nBoundaryPoints
  learningRate : ∀ k ∈ ["initial_learning_rate", "use_lr_scheduler", "decay_steps", "decay_rate"],
    ∃ v, cfg.learningRate.lookup k = some v
  parameters : ∀ k ∈ requiredParams kind, ∃ v, pb.bilinearParams.lookup k = some v

end FastVPINNs.Spec
