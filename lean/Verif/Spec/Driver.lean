import Verif.Spec.Network
import Verif.Spec.Attention
import Verif.Model.Driver
import Verif.Spec.Run
import Verif.Spec.Training
import Verif.Spec.Vtk

/-! # Specification: what a training script should output -/

namespace FastVPINNs.Spec

/-- The epochs of `0, …, n-1` after which a script that reports every `u` epochs and after the last one
reports. -/
def reportEpochs (u : ℤ) (n : ℕ) : List ℕ :=
  (List.range n).filter fun e => decide (u ∣ (e : ℤ) + 1 ∨ e + 1 = n)

/-- The value at `p` of the fully connected network with widths `dims`, activation `σ` and weights `θ`. -/
noncomputable def networkValue (σ : ℝ → ℝ) (dims : List ℕ) (θ : Weights) (p : ℝ × ℝ) : ℝ :=
  outputValue σ (fun k => dims.getD k 0) (fun k i j => θ (.kernel k i j)) (fun k j => θ (.bias k j))
    (dims.length - 2) (fun i => if i = 0 then p.1 else p.2) 0

/-- The mean of the points `pts` with weights proportional to the exponentials of the scalar products with
`p`. -/
noncomputable def attendedPoint (pts : List (ℝ × ℝ)) (p : ℝ × ℝ) : ℝ × ℝ :=
  ((pts.map fun x => Real.exp (dot p x) * x.1).sum / (pts.map fun x => Real.exp (dot p x)).sum,
    (pts.map fun x => Real.exp (dot p x) * x.2).sum / (pts.map fun x => Real.exp (dot p x)).sum)

/-- The value at the point `p` of a batch `pts`: with the attention layer the network sees the mean
`attendedPoint pts p` instead of `p`. -/
noncomputable def batchValue (attention : Bool) (pts : List (ℝ × ℝ)) (σ : ℝ → ℝ) (dims : List ℕ) (θ : Weights)
    (p : ℝ × ℝ) : ℝ :=
  networkValue σ dims θ (if attention then attendedPoint pts p else p)

/-- The errors of `v` against `u` over the points `pts`: root mean square, largest, mean absolute
difference, and the same relative to `u`. -/
structure ErrorsAt (pts : List (ℝ × ℝ)) (u v : ℝ × ℝ → ℝ) (l2 linf l2r linfr l1 l1r : ℝ) : Prop where
  mean : pts.length * l1 = (pts.map fun p => |u p - v p|).sum
  rms_nonneg : 0 ≤ l2
  rms : pts.length * l2 ^ 2 = (pts.map fun p => (u p - v p) ^ 2).sum
  largest : IsGreatest {x | ∃ p ∈ pts, |u p - v p| = x} linf
  relative : (∃ p ∈ pts, u p ≠ 0) →
    l1r * (pts.map fun p => |u p|).sum = (pts.map fun p => |u p - v p|).sum ∧
    0 ≤ l2r ∧ l2r ^ 2 * (pts.map fun p => u p ^ 2).sum = (pts.map fun p => (u p - v p) ^ 2).sum ∧
    ∃ k, IsGreatest {x | ∃ p ∈ pts, |u p| = x} k ∧ linfr * k = linf

open Classical in
/-- `v` is a `q`-quantile of the list: more than `q (n-1)` entries are at most `v`, more than
`(1-q) (n-1)` entries are at least `v`. -/
noncomputable def IsQuantile (q : ℝ) (l : List ℝ) (v : ℝ) : Prop :=
  q * ((l.length : ℝ) - 1) < (l.filter fun t => decide (t ≤ v)).length ∧
    (1 - q) * ((l.length : ℝ) - 1) < (l.filter fun t => decide (v ≤ t)).length

/-- The outputs `R` of a script belong to the training that goes through the states `st` and returns the
losses `outs`, where `value θ` is the network with the weights `θ`, `u` the exact solution and `pts` are the
test points: every report has the losses of the weights before the epoch and the errors of the weights
after it; the files and tables have all losses and times and the values and errors of the final weights. -/
structure IsRecord {α : Type} (mc : Machine) (cfg : ForwardConfig) (pts : List (ℝ × ℝ)) (u : ℝ × ℝ → ℝ)
    (value : Weights → ℝ × ℝ → ℝ) (losses : α → ℝ × ℝ × ℝ) (st : ℕ → TrainState) (outs : List α)
    (R : RunResult) : Prop where
  saved : R.savedWeights = (st cfg.epochs).weights
  reports : List.Forall₂ (fun e r => r.epoch = e ∧
      (∃ out, outs[e]? = some out ∧ (r.lossPde, r.lossDirichlet, r.totalLoss) = losses out) ∧
      (∃ l2 linf l2r linfr l1 l1r, r.errors = (l2, linf, l2r, linfr, l1, l1r) ∧
        ErrorsAt pts u (value (st (e + 1)).weights) l2 linf l2r linfr l1 l1r) ∧
      r.yPred = pts.map (value (st (e + 1)).weights) ∧
      r.error = pts.map fun p => |u p - value (st (e + 1)).weights p|)
    (reportEpochs cfg.updateConsoleOutput cfg.epochs) R.reports
  lossFile : R.files (mc.env.join cfg.outputPath "loss_function.txt")
    = some (outs.map fun o => mc.env.fmt (losses o).2.2)
  predictionFile : R.files (mc.env.join cfg.outputPath "prediction.txt")
    = some (pts.map fun p => mc.env.fmt (value (st cfg.epochs).weights p))
  exactFile : R.files (mc.env.join cfg.outputPath "exact.txt") = some (pts.map fun p => mc.env.fmt (u p))
  errorFile : R.files (mc.env.join cfg.outputPath "error.txt")
    = some (pts.map fun p => mc.env.fmt |u p - value (st cfg.epochs).weights p|)
  timeFile : R.files (mc.env.join cfg.outputPath "time_per_epoch.txt")
    = some ((List.range cfg.epochs).map fun e => mc.env.fmt (mc.elapsed e))
  errorTable : ∃ l2 linf l2r linfr l1 l1r,
    ErrorsAt pts u (value (st cfg.epochs).weights) l2 linf l2r linfr l1 l1r ∧
    R.errorTable = [("L2 Error", mc.fmt4 l2), ("Linf Error", mc.fmt4 linf),
      ("Relative L2 Error", mc.fmt4 l2r), ("Relative Linf Error", mc.fmt4 linfr),
      ("L1 Error", mc.fmt4 l1), ("Relative L1 Error", mc.fmt4 l1r)]
  timeTable : ∃ (med q25 q75 mean total : ℝ) (perSecond : ℤ),
    IsQuantile (1 / 2) ((List.range cfg.epochs).map mc.elapsed) med ∧
    IsQuantile (1 / 4) ((List.range cfg.epochs).map mc.elapsed) q25 ∧
    IsQuantile (3 / 4) ((List.range cfg.epochs).map mc.elapsed) q75 ∧ q25 ≤ med ∧ med ≤ q75 ∧
    total = ∑ e ∈ Finset.range cfg.epochs, mc.elapsed e ∧ cfg.epochs * mean = total ∧
    (0 < total → perSecond * total ≤ cfg.epochs ∧ cfg.epochs < (perSecond + 1) * total) ∧
    R.timeTable = [("Time per Epoch(s) - Median", mc.fmt4 med), ("Time per Epoch(s) IQR-25% ", mc.fmt4 q25),
      ("Time per Epoch(s) IQR-75% ", mc.fmt4 q75), ("Mean (s)", mc.fmt4 mean),
      ("Epochs per second", mc.str perSecond), ("Total Train Time", mc.fmt4 total)]

/-- Function space, data handler, boundary data, learning rate and layers as they result from the
configuration for the given cells and boundary points (with the bilinear transformation). -/
structure Assembled (mc : Machine) (cfg : ForwardConfig) (pb : Problem) (layerDims : List ℕ)
    (meshPoints : List (ℝ × ℝ)) (cells : List Quad) (bd : BdDict) {nq : ℕ}
    (S S' : Fespace2D (ℝ → ℝ → ℝ) ℝ (cfg.feOrder.toNat ^ 2) nq) (D : DataHandler2D (cfg.feOrder.toNat ^ 2) nq)
    (bdv : List (ℝ × ℝ) × List ℝ) (specs : List LayerSpec) : Prop where
  space : fespace2D mc.quad meshPoints cells bd
    ⟨"quadrilateral", cfg.feOrder, cfg.feType, cfg.quadOrder, cfg.quadType, "bilinear"⟩
    pb.boundaryFunctionDict pb.rhs cfg.generateMeshPlot = .ok ⟨nq, S⟩
  handler : dataHandler2D S true = .ok (D, S')
  dirichlet : getDirichletInput S' = .ok bdv
  layers : layerSpecs layerDims cfg.activation = .ok specs

/-- The VTK file `content` has the header of `base` and, as point data, the values of the given functions at
the given points under the given names, if the number format can be read back. -/
def IsSolutionFile (fmt : ℝ → String) (base : List String) (pts : List (ℝ × ℝ))
    (fields : List (String × (ℝ × ℝ → ℝ))) (content : List String) : Prop :=
  ∃ pre body, content = pre ++ body ∧ ((∃ l ∈ base, AnnouncesPointData l) → IsHeader base pre) ∧
    ∀ parse : String → ℝ, (∀ x, parse (fmt x) = x) →
      readFields parse pts.length body.length body = fields.map fun f => (f.1.toList, pts.map f.2)

/-- The factor with which hard constraints are imposed on the unit square. -/
noncomputable def squareFactor (p : ℝ × ℝ) : ℝ :=
  Real.tanh (4 * Real.pi * p.1) * Real.tanh (4 * Real.pi * p.2)
    * Real.tanh (4 * Real.pi * (p.1 - 1)) * Real.tanh (4 * Real.pi * (p.2 - 1))

/-- The parameters of the equation that a forward loss needs. -/
def requiredParams : LossKind → List String
  | .poisson => ["eps"]
  | .cd2d => ["eps", "b_x", "b_y", "c"]
  | .helmholtz => ["eps", "k"]
  | _ => []

/-- A configuration (with internal mesh) with which a script on the rectangle can set up the training and do
its steps; `keys` are the keys needed for the learning rate. -/
structure ValidSetup (pb : Problem) (cfg : ForwardConfig) (kind : LossKind)
    (keys : List String) : Prop where
  dtype : cfg.dtype = "float64" ∨ cfg.dtype = "float32"
  meshType : cfg.meshType = "quadrilateral"
  nCells : 0 < cfg.nCellsX ∧ 0 < cfg.nCellsY
  testPoints : 2 ≤ cfg.nTestPointsX ∧ 2 ≤ cfg.nTestPointsY
  feOrder : 2 ≤ cfg.feOrder ∧ cfg.feOrder < 1000
  feType : cfg.feType ∈ ["legendre", "jacobi", "legendre_special", "chebyshev_2", "jacobi_plain"]
  quadOrder : 3 ≤ cfg.quadOrder ∧ cfg.quadOrder ≤ 9999
  quadType : cfg.quadType = "gauss-legendre" ∨ cfg.quadType = "gauss-jacobi"
  boundary : 4 ≤ cfg.nBoundaryPoints →
    ∀ tag ∈ [(1000 : ℤ), 1001, 1002, 1003], ∃ g, pb.boundaryFunctionDict.lookup tag = some g
  plot : cfg.generateMeshPlot = true → 4 ≤ cfg.nBoundaryPoints
  learningRate : ∀ k ∈ keys, ∃ v, cfg.learningRate.lookup k = some v
  parameters : ∀ k ∈ requiredParams kind, ∃ v, pb.bilinearParams.lookup k = some v

/-- The same for a script on an external mesh with the given cells and boundary points and a network with
widths `dims`. -/
structure ValidExternal (pb : Problem) (cfg : ForwardConfig) (kind : LossKind) (keys : List String)
    (dims : List ℕ) (cells : List Quad) (bd : List (ℤ × List (List ℝ))) : Prop where
  dtype : cfg.dtype = "float64" ∨ cfg.dtype = "float32"
  meshType : cfg.meshType = "quadrilateral"
  cells : cells ≠ []
  feOrder : 2 ≤ cfg.feOrder ∧ cfg.feOrder < 1000
  feType : cfg.feType ∈ ["legendre", "jacobi", "legendre_special", "chebyshev_2", "jacobi_plain"]
  quadOrder : 3 ≤ cfg.quadOrder ∧ cfg.quadOrder ≤ 9999
  quadType : cfg.quadType = "gauss-legendre" ∨ cfg.quadType = "gauss-jacobi"
  boundary : ∀ e ∈ bd, e.2 ≠ [] → ∃ g, pb.boundaryFunctionDict.lookup e.1 = some g
  plot : cfg.generateMeshPlot = true → bd.length < 16 ∧ ∀ e ∈ bd, e.2 ≠ []
  learningRate : ∀ k ∈ keys, ∃ v, cfg.learningRate.lookup k = some v
  parameters : ∀ k ∈ requiredParams kind, ∃ v, pb.bilinearParams.lookup k = some v
  depth : 2 ≤ dims.length
  input : dims.getD 0 0 = 2
  output : dims.getD (dims.length - 1) 0 = 1

end FastVPINNs.Spec
