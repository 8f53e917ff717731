import Verif.Spec.DriverDomain

/-! # Specification: the scripts for a space-dependent coefficient on the rectangle -/

namespace FastVPINNs.Spec

/-- The lines of a text file with a matrix with one row for each `i < nTestPointsX` and one column for each
`j < nTestPointsY`, its entry being that for number `i * nTestPointsY + j`. -/
def gridLines (cfg : InverseConfig) (entry : ℕ → String) : List String :=
  List.ofFn fun i : Fin cfg.nTestPointsX => " ".intercalate (List.ofFn fun j : Fin cfg.nTestPointsY =>
    entry (i * cfg.nTestPointsY + j))

/-- What a finished run on an internal mesh leaves behind: as `IsDomainRecord`, except that there are no VTK files, and
prediction, coefficient and their errors are written as matrices, the exact values as a list. -/
structure IsDomainGridRecord (mc : Machine) (cfg : InverseConfig) (pts : List (ℝ × ℝ)) (exact : List ℝ)
    (actual : ℝ × ℝ → ℝ) (u k : Weights → ℝ × ℝ → ℝ) (st : ℕ → TrainState) (outs : List (TrainOutInverse 1))
    (R : DomainResult) : Prop where
  saved : R.savedWeights = (st cfg.epochs).weights
  reports : List.Forall₂ (fun e r => r.epoch = e ∧
      (∃ out, outs[e]? = some out ∧ r.lossPde = out.lossPde ∧ r.lossDirichlet = out.lossDirichlet 0 ∧
        r.sensorLoss = out.sensorLoss 0 ∧ r.totalLoss = out.loss 0) ∧
      (∃ l2 linf l2r linfr l1 l1r, r.errors = (l2, linf, l2r, linfr, l1, l1r) ∧
        ErrorsAt (exact.zip (pts.map (u (st (e + 1)).weights))) Prod.fst Prod.snd l2 linf l2r linfr l1 l1r) ∧
      (∃ l2 linf l2r linfr l1 l1r, r.invErrors = (l2, linf, l2r, linfr, l1, l1r) ∧
        ErrorsAt pts actual (k (st (e + 1)).weights) l2 linf l2r linfr l1 l1r) ∧
      r.yPred = pts.map (u (st (e + 1)).weights) ∧ r.invPred = pts.map (k (st (e + 1)).weights) ∧
      (0 < cfg.updateConsoleOutput → ∃ T,
        T = ∑ k ∈ Finset.Ico (e + 1 - cfg.updateConsoleOutput.toNat) (e + 1), mc.elapsed k ∧
        min (e + 1) cfg.updateConsoleOutput.toNat * r.meanTime = T ∧
        (0 < T → r.perSecond * T ≤ cfg.updateConsoleOutput ∧
          cfg.updateConsoleOutput < (r.perSecond + 1) * T)))
    (reportEpochs cfg.updateConsoleOutput cfg.epochs) R.reports
  lossFile : R.files (mc.env.join cfg.outputPath "loss_function.txt")
    = some (outs.map fun o => mc.env.fmt (o.loss 0))
  sensorFile : R.files (mc.env.join cfg.outputPath "sensor_loss.txt")
    = some (outs.map fun o => mc.env.fmt (o.sensorLoss 0))
  predictionFile : R.files (mc.env.join cfg.outputPath "prediction.txt")
    = some (gridLines cfg fun n => mc.env.fmt (u (st cfg.epochs).weights (pts.getD n (0, 0))))
  exactFile : R.files (mc.env.join cfg.outputPath "exact.txt") = some (exact.map mc.env.fmt)
  errorFile : R.files (mc.env.join cfg.outputPath "error.txt")
    = some (gridLines cfg fun n => mc.env.fmt |exact.getD n 0 - u (st cfg.epochs).weights (pts.getD n (0, 0))|)
  timeFile : R.files (mc.env.join cfg.outputPath "time_per_epoch.txt")
    = some ((List.range cfg.epochs).map fun e => mc.env.fmt (mc.elapsed e))
  coefficientFile : R.files (mc.env.join cfg.outputPath "inverse_prediction.txt")
    = some (gridLines cfg fun n => mc.env.fmt (k (st cfg.epochs).weights (pts.getD n (0, 0))))
  coefficientErrorFile : R.files (mc.env.join cfg.outputPath "inverse_error.txt")
    = some (gridLines cfg fun n => mc.env.fmt |actual (pts.getD n (0, 0)) - k (st cfg.epochs).weights (pts.getD n (0, 0))|)
  errorTable : ∃ l2 linf l2r linfr l1 l1r,
    ErrorsAt (exact.zip (pts.map (u (st cfg.epochs).weights))) Prod.fst Prod.snd l2 linf l2r linfr l1 l1r ∧
    R.errorTable = [("L2 Error", mc.fmt4 l2), ("Linf Error", mc.fmt4 linf),
      ("Relative L2 Error", mc.fmt4 l2r), ("Relative Linf Error", mc.fmt4 linfr),
      ("L1 Error", mc.fmt4 l1), ("Relative L1 Error", mc.fmt4 l1r)]
  timeTable : ∃ (med q25 q75 meanRest mean total : ℝ) (perSecond : ℤ),
    IsQuantile (1 / 2) ((List.range (cfg.epochs - 1)).map fun e => mc.elapsed (e + 1)) med ∧
    IsQuantile (1 / 4) ((List.range (cfg.epochs - 1)).map fun e => mc.elapsed (e + 1)) q25 ∧
    IsQuantile (3 / 4) ((List.range (cfg.epochs - 1)).map fun e => mc.elapsed (e + 1)) q75 ∧
    q25 ≤ med ∧ med ≤ q75 ∧
    total = ∑ e ∈ Finset.range cfg.epochs, mc.elapsed e ∧
    mc.elapsed 0 + ((cfg.epochs : ℝ) - 1) * meanRest = total ∧ cfg.epochs * mean = total ∧
    (0 < total → perSecond * total ≤ cfg.epochs ∧ cfg.epochs < (perSecond + 1) * total) ∧
    R.timeTable = [("Time per Epoch(s) - Median", mc.fmt4 med), ("Time per Epoch(s) IQR-25% ", mc.fmt4 q25),
      ("Time per Epoch(s) IQR-75% ", mc.fmt4 q75), ("Mean without first(s)", mc.fmt4 meanRest),
      ("Mean with first(s)Epochs per second", mc.fmt4 mean), ("Total Train Time", mc.str perSecond)]

/-- A configuration (with internal mesh) with which the scripts can set up the training and do its steps. -/
structure ValidDomainGrid (pb : DomainProblem) (cfg : InverseConfig) : Prop where
  setup : ValidSetup pb.toProblem cfg.forward .cd2dInverseDomain
    ["initial_learning_rate", "use_lr_scheduler", "decay_steps", "decay_rate"]
  parameters : ∀ k ∈ ["b_x", "b_y", "c"], ∃ v, pb.bilinearParams.lookup k = some v
  input : cfg.modelArchitecture.getD 0 0 = 2
  output : 2 ≤ cfg.modelArchitecture.getD (cfg.modelArchitecture.length - 1) 0

end FastVPINNs.Spec
