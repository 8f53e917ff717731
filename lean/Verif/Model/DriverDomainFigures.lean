import Verif.Model.DriverDomain
import Verif.Model.DriverFigures

/-! # The figures of the scripts for a coefficient field

As in `Model/DriverFigures.lean`: the plotting commands change no other variable, so the figures are a function of the
losses and the reports of the run, and the training loop is repeated here to obtain them. -/

namespace FastVPINNs

open Pyplot

/-- `main_inverse_domain_usa.py:343-404`, `main_inverse_domain_circle.py:347-408`: the figures of a report. -/
noncomputable def plotDomainReport (cfg : InverseConfig) (points : List (ℝ × ℝ)) (yExact actual lossArray
    testLossArray : List ℝ) (r : DomainReport) (s : Pyplot) : Except PyErr Pyplot :=
  let s := plotLossFunction lossArray cfg.outputPath s
  let s := plotTestLossFunction testLossArray cfg.outputPath "" s
  if cfg.meshGenerationMethod = "internal" then do
    let X ← reshapeMatrix cfg.nTestPointsX cfg.nTestPointsY (points.map Prod.fst)
    let Y ← reshapeMatrix cfg.nTestPointsX cfg.nTestPointsY (points.map Prod.snd)
    let YExact ← reshapeMatrix cfg.nTestPointsX cfg.nTestPointsY yExact
    let yPred ← reshapeMatrix cfg.nTestPointsX cfg.nTestPointsY r.yPred
    let error : Fin cfg.nTestPointsX → Fin cfg.nTestPointsY → ℝ := fun i j => |YExact i j - yPred i j|
    let invPred ← reshapeMatrix cfg.nTestPointsX cfg.nTestPointsY r.invPred
    let actual ← reshapeMatrix cfg.nTestPointsX cfg.nTestPointsY actual
    let invError : Fin cfg.nTestPointsX → Fin cfg.nTestPointsY → ℝ := fun i j => |actual i j - invPred i j|
    let s ← plotContour X Y yPred cfg.outputPath ("prediction_" ++ toString (r.epoch + 1)) "Prediction" s
    let s ← plotContour X Y error cfg.outputPath ("error_" ++ toString (r.epoch + 1)) "Error" s
    let s ← plotContour X Y invPred cfg.outputPath ("inverse_prediction_" ++ toString (r.epoch + 1))
      "Inverse Parameter Prediction" s
    plotContour X Y invError cfg.outputPath ("inverse_error_" ++ toString (r.epoch + 1)) "Inverse Parameter Error" s
  else .ok s

/-- The figures of all reports; `tested` are the L1 errors so far (`test_loss_array`), `losses` all losses of the run,
of which `loss_array` has those up to the epoch. -/
noncomputable def plotDomainReports (cfg : InverseConfig) (points : List (ℝ × ℝ)) (yExact actual losses : List ℝ) :
    List ℝ → List DomainReport → Pyplot → Except PyErr Pyplot
  | _, [], s => .ok s
  | tested, r :: rest, s =>
    match plotDomainReport cfg points yExact actual (losses.take (r.epoch + 1)) (tested ++ [r.errors.2.2.2.2.1]) r s with
    | .error e => .error e
    | .ok s => plotDomainReports cfg points yExact actual losses (tested ++ [r.errors.2.2.2.2.1]) rest s

/-- Lines 213-228: the contour plot of the exact solution (internal mesh). -/
def plotDomainExact (cfg : InverseConfig) (points : List (ℝ × ℝ)) (yExact : List ℝ) (s : Pyplot) :
    Except PyErr Pyplot :=
  if cfg.meshGenerationMethod = "internal" then do
    let X ← reshapeMatrix cfg.nTestPointsX cfg.nTestPointsY (points.map Prod.fst)
    let Y ← reshapeMatrix cfg.nTestPointsX cfg.nTestPointsY (points.map Prod.snd)
    let Z ← reshapeMatrix cfg.nTestPointsX cfg.nTestPointsY yExact
    plotContour X Y Z cfg.outputPath "exact_solution" "Exact Solution" s
  else .ok s

/-- Lines 207-404: the figures. -/
noncomputable def figuresRunDomain (mc : Machine) (cfg : InverseConfig) (pb : DomainProblem)
    (src : DomainSource cfg.numSensorPoints) (P : PreparedDomain) (M : DriverModel (TrainOutInverse 1))
    (θ : Weights) (s : Pyplot) : Except PyErr Pyplot :=
  match P.geometry.getTestPoints mc.env P.base.files with
  | (.error e, _, _) => .error e
  | (.ok (.points points), o, files) => do
    let yExact ← src.exact pb points
    let s ← plotDomainExact cfg points yExact s
    let actual := points.map fun p => pb.actualEps p.1 p.2
    let run ← epochLoop M.step (reportDomain mc cfg P.base.lr o M points yExact actual) cfg.updateConsoleOutput
      cfg.epochs (List.range cfg.epochs) ⟨⟨θ, AdamState.init⟩, [], [], files⟩
    let losses ← run.losses.mapM M.floats
    plotDomainReports cfg points yExact actual (losses.map fun l => l.2.2) [] run.reports s
  | (.ok _, _, _) => .error .typeError

/-- The figures of the two scripts (`mainUsa`, `mainCircle`). -/
noncomputable def figuresDomain (mc : Machine) (pb : DomainProblem) (cfg : InverseConfig)
    (src : DomainSource cfg.numSensorPoints) (sample : Fin 4 → Fin (cfg.nBoundaryPoints / 4) → ℝ)
    (lhs : ℕ → Fin (2 ^ cfg.boundaryRefinementLevel + 1) → ℝ × ℝ) (θ : Weights) (files : Files) (s : Pyplot) :
    Except PyErr Pyplot :=
  match prepareDomain mc cfg pb src sample lhs files with
  | .error e => .error e
  | .ok P => figuresRunDomain mc cfg pb src P (P.model mc cfg pb (outDim P.base.specs)) θ s

end FastVPINNs
