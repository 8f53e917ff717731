import Verif.Model.DriverInverse
import Verif.Spec.Driver

/-! # Specification: what the script for the constant inverse problem leaves behind -/

namespace FastVPINNs.Spec

/-- What a finished run of the script leaves behind, for a training that goes through the states `st` and whose
steps return `outs`: `value θ` is the function represented by the weights `θ`, `u` the exact solution. -/
structure IsInverseRecord (mc : Machine) (cfg : InverseConfig) (pts : List (ℝ × ℝ)) (u : ℝ × ℝ → ℝ)
    (value : Weights → ℝ × ℝ → ℝ) (st : ℕ → TrainState) (outs : List (TrainOutInverse 1))
    (R : InverseResult) : Prop where
  saved : R.savedWeights = (st cfg.epochs).weights
  reports : List.Forall₂ (fun e r => r.epoch = e ∧
      (∃ out, outs[e]? = some out ∧ r.lossPde = out.lossPde ∧ r.lossDirichlet = out.lossDirichlet 0 ∧
        r.sensorLoss = out.sensorLoss 0 ∧ r.totalLoss = out.loss 0) ∧
      (∃ l2 linf l2r linfr l1 l1r, r.errors = (l2, linf, l2r, linfr, l1, l1r) ∧
        ErrorsAt pts u (value (st (e + 1)).weights) l2 linf l2r linfr l1 l1r) ∧
      r.yPred = pts.map (value (st (e + 1)).weights) ∧
      r.eps = (st (e + 1)).weights (.inverse "eps") ∧
      (0 < cfg.updateConsoleOutput → ∃ T,
        T = ∑ k ∈ Finset.Ico (e + 1 - cfg.updateConsoleOutput.toNat) (e + 1), mc.elapsed k ∧
        min (e + 1) cfg.updateConsoleOutput.toNat * r.meanTime = T ∧
        (0 < T → r.perSecond * T ≤ cfg.updateConsoleOutput ∧
          cfg.updateConsoleOutput < (r.perSecond + 1) * T)))
    (reportEpochs cfg.updateConsoleOutput cfg.epochs) R.reports
  lossFile : R.files (mc.env.join cfg.outputPath "loss_function.txt")
    = some (outs.map fun o => mc.env.fmt (o.loss 0))
  paramFile : R.files (mc.env.join cfg.outputPath "inverse_params.txt")
    = some ((List.range cfg.epochs).map fun e => mc.env.fmt ((st (e + 1)).weights (.inverse "eps")))
  predictionFile : R.files (mc.env.join cfg.outputPath "prediction.txt")
    = some (List.ofFn fun i : Fin cfg.nTestPointsX => " ".intercalate (List.ofFn fun j : Fin cfg.nTestPointsY =>
        mc.env.fmt (value (st cfg.epochs).weights (pts.getD (i * cfg.nTestPointsY + j) (0, 0)))))
  exactFile : R.files (mc.env.join cfg.outputPath "exact.txt") = some (pts.map fun p => mc.env.fmt (u p))
  errorFile : R.files (mc.env.join cfg.outputPath "error.txt")
    = some (List.ofFn fun i : Fin cfg.nTestPointsX => " ".intercalate (List.ofFn fun j : Fin cfg.nTestPointsY =>
        mc.env.fmt |u (pts.getD (i * cfg.nTestPointsY + j) (0, 0))
          - value (st cfg.epochs).weights (pts.getD (i * cfg.nTestPointsY + j) (0, 0))|))
  timeFile : R.files (mc.env.join cfg.outputPath "time_per_epoch.txt")
    = some ((List.range cfg.epochs).map fun e => mc.env.fmt (mc.elapsed e))
  errorTable : ∃ l2 linf l2r linfr l1 l1r,
    ErrorsAt pts u (value (st cfg.epochs).weights) l2 linf l2r linfr l1 l1r ∧
    R.errorTable = [("L2 Error", mc.fmt4 l2), ("Linf Error", mc.fmt4 linf),
      ("Relative L2 Error", mc.fmt4 l2r), ("Relative Linf Error", mc.fmt4 linfr),
      ("L1 Error", mc.fmt4 l1), ("Relative L1 Error", mc.fmt4 l1r)]
  timeTable : ∃ (med q25 q75 meanRest mean total rest : ℝ) (perSecond : ℤ),
    IsQuantile (1 / 2) ((List.range (cfg.epochs - 1)).map fun e => mc.elapsed (e + 1)) med ∧
    IsQuantile (1 / 4) ((List.range (cfg.epochs - 1)).map fun e => mc.elapsed (e + 1)) q25 ∧
    IsQuantile (3 / 4) ((List.range (cfg.epochs - 1)).map fun e => mc.elapsed (e + 1)) q75 ∧
    q25 ≤ med ∧ med ≤ q75 ∧
    total = ∑ e ∈ Finset.range cfg.epochs, mc.elapsed e ∧ mc.elapsed 0 + rest = total ∧
    ((cfg.epochs : ℝ) - 1) * meanRest = rest ∧ cfg.epochs * mean = total ∧
    (0 < total → perSecond * total ≤ cfg.epochs ∧ cfg.epochs < (perSecond + 1) * total) ∧
    R.timeTable = [("Time per Epoch(s) - Median", mc.fmt4 med), ("Time per Epoch(s) IQR-25% ", mc.fmt4 q25),
      ("Time per Epoch(s) IQR-75% ", mc.fmt4 q75), ("Mean without first(s)", mc.fmt4 meanRest),
      ("Mean with first(s)", mc.fmt4 mean), ("Epochs per second", mc.str perSecond),
      ("Total Train Time", mc.fmt4 rest)]

/-- A configuration (with internal mesh) with which the script can set up the training and do its steps. -/
structure ValidInverse (pb : InverseProblem) (cfg : InverseConfig) : Prop where
  setup : ValidSetup pb.toProblem cfg.forward .poissonInverse
    ["initial_learning_rate", "use_lr_scheduler", "decay_steps", "decay_rate", "staircase"]
  guess : ∃ v, pb.inverseParams.lookup "eps" = some v
  target : ∃ v, pb.inverseActual.lookup "eps" = some v
  depth : 2 ≤ cfg.modelArchitecture.length
  input : cfg.modelArchitecture.getD 0 0 = 2
  output : cfg.modelArchitecture.getD (cfg.modelArchitecture.length - 1) 0 = 1

end FastVPINNs.Spec
