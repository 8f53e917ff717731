import Verif.Model.DriverDomain
import Verif.Spec.Driver

/-! # Specification: what the scripts for the inverse problem with a space-dependent coefficient leave behind -/

namespace FastVPINNs.Spec

/-- Output `j` at `p` of the fully connected network with widths `dims`, activation `σ` and weights `θ`. -/
noncomputable def networkOutput (σ : ℝ → ℝ) (dims : List ℕ) (θ : Weights) (j : ℕ) (p : ℝ × ℝ) : ℝ :=
  outputValue σ (fun k => dims.getD k 0) (fun k i j => θ (.kernel k i j)) (fun k j => θ (.bias k j))
    (dims.length - 2) (fun i => if i = 0 then p.1 else p.2) j

/-- Output `j` at `p` when the network is applied to the batch `pts`. -/
noncomputable def batchOutput (attention : Bool) (pts : List (ℝ × ℝ)) (σ : ℝ → ℝ) (dims : List ℕ) (θ : Weights)
    (j : ℕ) (p : ℝ × ℝ) : ℝ :=
  networkOutput σ dims θ j (if attention then attendedPoint pts p else p)

/-- The VTK file `content` has the header of `base` and, as point data, the given lists under the given names, if
the number format can be read back. -/
def IsFieldFile (fmt : ℝ → String) (base : List String) (n : ℕ) (fields : List (String × List ℝ))
    (content : List String) : Prop :=
  ∃ pre body, content = pre ++ body ∧ ((∃ l ∈ base, AnnouncesPointData l) → IsHeader base pre) ∧
    ∀ parse : String → ℝ, (∀ x, parse (fmt x) = x) →
      readFields parse n body.length body = fields.map fun f => (f.1.toList, f.2)

/-- What a finished run on a mesh file leaves behind, for a training that goes through the states `st` and whose
steps return `outs`: `u θ` and `k θ` are the solution and the coefficient represented by the weights `θ`, `pts`
the points of the mesh, `exact` the reference values of the solution there, and `actual` is the coefficient sought.
The last two rows of the table of times have the wrong label, and the total is missing. -/
structure IsDomainRecord (mc : Machine) (cfg : InverseConfig) (pts : List (ℝ × ℝ)) (exact : List ℝ)
    (actual : ℝ × ℝ → ℝ) (u k : Weights → ℝ × ℝ → ℝ) (st : ℕ → TrainState) (outs : List (TrainOutInverse 1))
    (R : DomainResult) : Prop where
  saved : R.savedWeights = (st cfg.epochs).weights
  reports : List.Forall₂ (fun e r => r.epoch = e ∧
      (∃ out, outs[e]? = some out ∧ r.lossPde = out.lossPde ∧ r.lossDirichlet = out.lossDirichlet 0 ∧
        r.sensorLoss = out.sensorLoss 0 ∧ r.totalLoss = out.loss 0) ∧
      (∃ l2 linf l2r linfr l1 l1r, r.errors = (l2, linf, l2r, linfr, l1, l1r) ∧
        ErrorsAt (exact.zip (pts.map (u (st (e + 1)).weights))) Prod.fst Prod.snd l2 linf l2r linfr l1 l1r) ∧
      (∃ l2 linf l2r linfr l1 l1r, r.invErrors = (l2, linf, l2r, linfr, l1, l1r) ∧
        ErrorsAt pts actual (k (st (e + 1)).weights) l2 linf l2r linfr l1 l1r) ∧
      r.yPred = pts.map (u (st (e + 1)).weights) ∧ r.invPred = pts.map (k (st (e + 1)).weights) ∧
      (0 < cfg.updateConsoleOutput → ∃ T,
        T = ∑ k ∈ Finset.Ico (e + 1 - cfg.updateConsoleOutput.toNat) (e + 1), mc.elapsed k ∧
        min (e + 1) cfg.updateConsoleOutput.toNat * r.meanTime = T ∧
        (0 < T → r.perSecond * T ≤ cfg.updateConsoleOutput ∧
          cfg.updateConsoleOutput < (r.perSecond + 1) * T)))
    (reportEpochs cfg.updateConsoleOutput cfg.epochs) R.reports
  vtkFiles : ∀ base, R.files (mc.env.join cfg.outputPath "external.vtk") = some base →
    ∀ e ∈ reportEpochs cfg.updateConsoleOutput cfg.epochs, ∃ content,
      R.files (mc.env.join cfg.outputPath ("prediction_" ++ toString (e + 1) ++ ".vtk")) = some content ∧
      IsFieldFile mc.env.fmt base pts.length
        [("Sol", pts.map (u (st (e + 1)).weights)), ("Exact", exact),
         ("Error", List.zipWith (fun a b => |a - b|) exact (pts.map (u (st (e + 1)).weights))),
         ("Inv", pts.map (k (st (e + 1)).weights)), ("ExactInv", pts.map actual),
         ("InvError", pts.map fun p => |actual p - k (st (e + 1)).weights p|)] content
  lossFile : R.files (mc.env.join cfg.outputPath "loss_function.txt")
    = some (outs.map fun o => mc.env.fmt (o.loss 0))
  sensorFile : R.files (mc.env.join cfg.outputPath "sensor_loss.txt")
    = some (outs.map fun o => mc.env.fmt (o.sensorLoss 0))
  predictionFile : R.files (mc.env.join cfg.outputPath "prediction.txt")
    = some (pts.map fun p => mc.env.fmt (u (st cfg.epochs).weights p))
  exactFile : R.files (mc.env.join cfg.outputPath "exact.txt") = some (exact.map mc.env.fmt)
  errorFile : R.files (mc.env.join cfg.outputPath "error.txt")
    = some (List.zipWith (fun a p => mc.env.fmt |a - u (st cfg.epochs).weights p|) exact pts)
  timeFile : R.files (mc.env.join cfg.outputPath "time_per_epoch.txt")
    = some ((List.range cfg.epochs).map fun e => mc.env.fmt (mc.elapsed e))
  coefficientFile : R.files (mc.env.join cfg.outputPath "inverse_prediction.txt")
    = some (pts.map fun p => mc.env.fmt (k (st cfg.epochs).weights p))
  coefficientErrorFile : R.files (mc.env.join cfg.outputPath "inverse_error.txt")
    = some (pts.map fun p => mc.env.fmt |actual p - k (st cfg.epochs).weights p|)
  errorTable : ∃ l2 linf l2r linfr l1 l1r,
    ErrorsAt (exact.zip (pts.map (u (st cfg.epochs).weights))) Prod.fst Prod.snd l2 linf l2r linfr l1 l1r ∧
    R.errorTable = [("L2 Error", mc.fmt4 l2), ("Linf Error", mc.fmt4 linf),
      ("Relative L2 Error", mc.fmt4 l2r), ("Relative Linf Error", mc.fmt4 linfr),
      ("L1 Error", mc.fmt4 l1), ("Relative L1 Error", mc.fmt4 l1r)]
  timeTable : ∃ (med q25 q75 meanRest mean total : ℝ) (perSecond : ℤ),
    IsQuantile (1 / 2) ((List.range (cfg.epochs - 1)).map fun e => mc.elapsed (e + 1)) med ∧
    IsQuantile (1 / 4) ((List.range (cfg.epochs - 1)).map fun e => mc.elapsed (e + 1)) q25 ∧
    IsQuantile (3 / 4) ((List.range (cfg.epochs - 1)).map fun e => mc.elapsed (e + 1)) q75 ∧
    q25 ≤ med ∧ med ≤ q75 ∧
    total = ∑ e ∈ Finset.range cfg.epochs, mc.elapsed e ∧
    mc.elapsed 0 + ((cfg.epochs : ℝ) - 1) * meanRest = total ∧ cfg.epochs * mean = total ∧
    (0 < total → perSecond * total ≤ cfg.epochs ∧ cfg.epochs < (perSecond + 1) * total) ∧
    R.timeTable = [("Time per Epoch(s) - Median", mc.fmt4 med), ("Time per Epoch(s) IQR-25% ", mc.fmt4 q25),
      ("Time per Epoch(s) IQR-75% ", mc.fmt4 q75), ("Mean without first(s)", mc.fmt4 meanRest),
      ("Mean with first(s)Epochs per second", mc.fmt4 mean), ("Total Train Time", mc.str perSecond)]

/-- A configuration with which the scripts on a mesh file with the given cells and boundary points can set up the
training and do its steps. -/
structure ValidDomain (pb : DomainProblem) (cfg : InverseConfig) (cells : List Quad)
    (bd : List (ℤ × List (List ℝ))) : Prop where
  dtype : cfg.dtype = "float64" ∨ cfg.dtype = "float32"
  meshType : cfg.meshType = "quadrilateral"
  cells : cells ≠ []
  feOrder : 2 ≤ cfg.feOrder ∧ cfg.feOrder < 1000
  feType : cfg.feType ∈ ["legendre", "jacobi", "legendre_special", "chebyshev_2", "jacobi_plain"]
  quadOrder : 3 ≤ cfg.quadOrder ∧ cfg.quadOrder ≤ 9999
  quadType : cfg.quadType = "gauss-legendre" ∨ cfg.quadType = "gauss-jacobi"
  boundary : ∀ e ∈ bd, e.2 ≠ [] → ∃ g, pb.boundaryFunctionDict.lookup e.1 = some g
  learningRate : ∀ k ∈ ["initial_learning_rate", "use_lr_scheduler", "decay_steps", "decay_rate"],
    ∃ v, cfg.learningRate.lookup k = some v
  parameters : ∀ k ∈ ["b_x", "b_y", "c"], ∃ v, pb.bilinearParams.lookup k = some v
  input : cfg.modelArchitecture.getD 0 0 = 2
  output : 2 ≤ cfg.modelArchitecture.getD (cfg.modelArchitecture.length - 1) 0

end FastVPINNs.Spec
