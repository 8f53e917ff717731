import Verif.Model.DriverInverse

/-! # The figures of the scripts

The plotting commands of a script read the other variables and change none of them, so the figures of a run are a
function of the losses and the reports of that run; `Model/Driver.lean` and `Model/DriverInverse.lean` have the run
without figures, and the definitions below repeat its training loop to obtain the values that are drawn.
The mesh plot of the constructor of the space (`generatePlotFigure`) and the sensor plot (`drawSensors`) are made
before; they are part of the given state of `pyplot`. -/

namespace FastVPINNs

open Pyplot

/-- `examples/**/utility.py:69-113` (`plot_results`), and the same commands in `main_inverse.py:326-358`. -/
noncomputable def plotResults {nx ny : ℕ} (lossArray testLossArray yPred : List ℝ) (X Y YExact : Fin nx → Fin ny → ℝ)
    (outputPath : String) (epoch : ℕ) (s : Pyplot) : Except PyErr Pyplot := do
  let s := plotLossFunction lossArray outputPath s
  let s := plotTestLossFunction testLossArray outputPath "" s
  let yPred ← reshapeMatrix nx ny yPred
  let error : Fin nx → Fin ny → ℝ := fun i j => |YExact i j - yPred i j|
  let s ← plotContour X Y yPred outputPath ("prediction_" ++ toString (epoch + 1)) "Prediction" s
  plotContour X Y error outputPath ("error_" ++ toString (epoch + 1)) "Error" s

/-- The calls of `plot_results` for the reports of a run, each given as epoch, L1 error and values; `tested` are the L1
errors so far (`test_loss_array`), `losses` all losses of the run, of which `loss_array` has those up to the epoch. -/
noncomputable def plotReports {nx ny : ℕ} (losses : List ℝ) (X Y YExact : Fin nx → Fin ny → ℝ) (outputPath : String) :
    List ℝ → List (ℕ × ℝ × List ℝ) → Pyplot → Except PyErr Pyplot
  | _, [], s => .ok s
  | tested, (epoch, l1, yPred) :: rest, s =>
    match plotResults (losses.take (epoch + 1)) (tested ++ [l1]) yPred X Y YExact outputPath epoch s with
    | .error e => .error e
    | .ok s => plotReports losses X Y YExact outputPath (tested ++ [l1]) rest s

/-- What `plot_results` takes from a report. -/
def Report.plotted (r : Report) : ℕ × ℝ × List ℝ := (r.epoch, r.errors.2.2.2.2.1, r.yPred)

/-- `uniform_mesh/poisson_2d/main_poisson2d.py:171-268`: the figures. -/
noncomputable def figuresRun {α : Type} (mc : Machine) (cfg : ForwardConfig) (pb : Problem) (P : Prepared)
    (M : DriverModel α) (θ : Weights) (s : Pyplot) : Except PyErr Pyplot :=
  match P.geometry.getTestPoints mc.env P.files with
  | (.error e, _, _) => .error e
  | (.ok (.points points), _, files) => do
    let m ← contourMatrices cfg.nTestPointsX cfg.nTestPointsY pb.exactSolution points
    let s ← plotContour m.1 m.2.1 m.2.2 cfg.outputPath "exact_solution" "Exact Solution" s
    let run ← epochLoop M.step (reportBlock M points (points.map fun p => pb.exactSolution p.1 p.2))
      cfg.updateConsoleOutput cfg.epochs (List.range cfg.epochs) ⟨⟨θ, AdamState.init⟩, [], [], files⟩
    let losses ← run.losses.mapM M.floats
    plotReports (losses.map fun l => l.2.2) m.1 m.2.1 m.2.2 cfg.outputPath [] (run.reports.map Report.plotted) s
  | (.ok _, _, _) => .error .typeError

/-- The figures of `mainUniform`. -/
noncomputable def figuresUniform (mc : Machine) (pb : Problem) (cfg : ForwardConfig)
    (sample : Fin 4 → Fin (cfg.nBoundaryPoints / 4) → ℝ) (θ : Weights) (files : Files) (s : Pyplot) :
    Except PyErr Pyplot :=
  match prepareUniform mc cfg pb fixedLayers learningRateFn sample files with
  | .error e => .error e
  | .ok P => figuresRun mc cfg pb P (P.dense mc cfg pb (outDim P.specs)) θ s

/-- The figures of `mainHard` (`main_poisson2d_hard.py:190-287`). -/
noncomputable def figuresHard (mc : Machine) (pb : Problem) (cfg : ForwardConfig)
    (sample : Fin 4 → Fin (cfg.nBoundaryPoints / 4) → ℝ) (θ : Weights) (files : Files) (s : Pyplot) :
    Except PyErr Pyplot :=
  match prepareUniform mc cfg pb fixedLayers learningRateFnStaircase sample files with
  | .error e => .error e
  | .ok P => figuresRun mc cfg pb P (P.hard mc cfg pb (outDim P.specs)) θ s

/-- `main_inverse.py:381-425`: the figures after the loop (internal mesh).  `png` is
`str(Path(i_output_path) / "inverse_eps_prediction.png")`. -/
noncomputable def plotFinal {nx ny : ℕ} (losses yPred eps : List ℝ) (actual : ℝ) (X Y YExact : Fin nx → Fin ny → ℝ)
    (outputPath png : String) (s : Pyplot) : Except PyErr Pyplot := do
  let s := plotLossFunction losses outputPath s
  let yPred ← reshapeMatrix nx ny yPred
  let error : Fin nx → Fin ny → ℝ := fun i j => |YExact i j - yPred i j|
  let s ← plotContour X Y yPred outputPath "final_prediction" "Prediction" s
  let s ← plotContour X Y error outputPath "final_error" "Error" s
  return s |> closeAll |> figure |> plot (some "Predicted Epsilon") eps |> draw (.axhline actual "Actual Epsilon")
    |> xLabel "Epochs" |> yLabel "Epsilon" |> legend |> title "Inverse Parameter Prediction" |> tightLayout
    |> savefig png |> closeAll

/-- `main_inverse.py:216-425`: the figures (internal mesh). -/
noncomputable def figuresRunInverse {dout : ℕ} (mc : Machine) (cfg : InverseConfig) (pb : InverseProblem)
    (P : PreparedInverse) (M : DriverModel (TrainOutInverse dout × ℝ)) (θ : Weights) (s : Pyplot) :
    Except PyErr Pyplot :=
  match P.base.geometry.getTestPoints mc.env P.base.files with
  | (.error e, _, _) => .error e
  | (.ok (.points points), _, files) => do
    let m ← contourMatrices cfg.nTestPointsX cfg.nTestPointsY pb.exactSolution points
    let s ← plotContour m.1 m.2.1 m.2.2 cfg.outputPath "exact_solution" "Exact Solution" s
    let run ← epochLoop M.step (reportInverse mc cfg P.base.lr M points (points.map fun p => pb.exactSolution p.1 p.2))
      cfg.updateConsoleOutput cfg.epochs (List.range cfg.epochs) ⟨⟨θ, AdamState.init⟩, [], [], files⟩
    let losses ← run.losses.mapM M.floats
    let s ← plotReports (losses.map fun l => l.2.2) m.1 m.2.1 m.2.2 cfg.outputPath []
      (run.reports.map fun r => r.toReport.plotted) s
    let yPred ← M.predict run.model.weights points
    plotFinal (losses.map fun l => l.2.2) yPred (run.losses.map Prod.snd) P.actual m.1 m.2.1 m.2.2 cfg.outputPath
      (mc.env.join cfg.outputPath "inverse_eps_prediction.png") s
  | (.ok _, _, _) => .error .typeError

/-- The figures of `mainInverse`. -/
noncomputable def figuresInverse (mc : Machine) (pb : InverseProblem) (cfg : InverseConfig)
    (sample : Fin 4 → Fin (cfg.nBoundaryPoints / 4) → ℝ)
    (lhs : ℕ → Fin (2 ^ cfg.boundaryRefinementLevel + 1) → ℝ × ℝ) (sensorLhs : (k : ℕ) → Fin k → ℝ × ℝ)
    (randint : ℕ → Fin cfg.numSensorPoints → ℤ) (θ : Weights) (files : Files) (s : Pyplot) : Except PyErr Pyplot :=
  match prepareInverse mc cfg pb sample lhs sensorLhs randint files with
  | .error e => .error e
  | .ok P => figuresRunInverse mc cfg pb P (P.model mc cfg pb (outDim P.base.specs))
      (initialInverse θ (paramsAsTensors pb.inverseParams)) s

end FastVPINNs
