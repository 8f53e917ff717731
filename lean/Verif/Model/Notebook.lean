import Verif.Model.Driver

/-! # The two notebooks, `/repo/examples/notebooks/poisson_training.ipynb` and `custom_training_poisson.ipynb`

References are to the numbers of the cells, counted from 0 (markdown cells included).  The numbers of the two notebooks
agree up to cell 20; where they differ they are marked `poisson` and `custom`.

Not modelled: creation of the output folder (cell 12), progress bar, summary of the model, the measured times (which
are collected and not used), the colour bars and layout of the figure, the notebook
`inverse_problems_2d/domain_inverse_cd2d/USA/rhs.ipynb` (computations with sympy). -/

namespace FastVPINNs

/-! ## The problem, cell 10 -/

/-- Cell 10: `left_boundary`, `right_boundary`, `top_boundary`, `bottom_boundary` (the same formula). -/
def notebookSide (_x _y : ℝ) : ℝ := 1 * 0.0

/-- Cell 10 (`rhs`); the factor `k` is `2.0` in `poisson_training` and `4.0` in `custom_training_poisson`. -/
noncomputable def notebookRhs (k x y : ℝ) : ℝ :=
  let omegaX := k * Real.pi
  let omegaY := k * Real.pi
  (-2.0) * omegaX ^ 2 * (Real.sin (omegaX * x) * Real.sin (omegaY * y))

/-- Cell 10 (`exact_solution`). -/
noncomputable def notebookExact (k x y : ℝ) : ℝ :=
  let omegaX := k * Real.pi
  let omegaY := k * Real.pi
  (-1.0) * Real.sin (omegaX * x) * Real.sin (omegaY * y)

/-- Cell 10 (`get_boundary_function_dict`). -/
def notebookBoundaryDict : List (ℤ × (ℝ → ℝ → ℝ)) :=
  [(1000, notebookSide), (1001, notebookSide), (1002, notebookSide), (1003, notebookSide)]

/-- Cell 10 (`get_bilinear_params_dict`). -/
noncomputable def notebookBilinear : List (String × ℝ) := [("eps", 1.0)]

/-! ## The loss function and the model class of `custom_training_poisson.ipynb` -/

/-- `custom` cell 25, the body of `pde_loss_poisson`. -/
noncomputable def notebookPdeLoss {nc nt nq : ℕ} (_V GX GY : Fin nc → Fin nt → Fin nq → ℝ)
    (_u ux uy : Fin nc → Fin nq → ℝ) (F : Fin nt → Fin nc → ℝ) (params : ParamDict) : Except PyErr (Fin nc → ℝ) :=
  let pdeDiffusionX := transpose (matvec GX ux)
  let pdeDiffusionY := transpose (matvec GY uy)
  match paramGet params "eps" with
  | .error e => .error e
  | .ok eps =>
    let pdeDiffusion := fun t c => eps * (pdeDiffusionX t c + pdeDiffusionY t c)
    let residualMatrix := fun t c => pdeDiffusion t c - F t c
    .ok (meanSquare0 residualMatrix)

/-- `custom` cell 25, the signature. -/
noncomputable def notebookLoss (nc nt nq : ℕ) : LossFunction nc nt nq where
  params := ["test_shape_val_mat", "test_grad_x_mat", "test_grad_y_mat", "pred_nn", "pred_grad_x_nn", "pred_grad_y_nn",
    "forcing_function", "bilinear_params"]
  body
    | [.mat V, .mat GX, .mat GY, .pred u, .pred ux, .pred uy, .force F, .params p] => notebookPdeLoss V GX GY u ux uy F p
    | _ => .error .typeError

/-- `custom` cell 22, the part of `__init__` on the learning rate (`staircase` is not read). -/
noncomputable def customLearningRate (d : List (String × PyVal)) : Except PyErr LearningRate := do
  let initial ← strGet d "initial_learning_rate"
  let use ← strGet d "use_lr_scheduler"
  let steps ← strGet d "decay_steps"
  let rate ← strGet d "decay_rate"
  return if use.truthy then .exponentialDecay initial.toReal steps.toReal rate.toReal true else .constant initial.toReal

/-- `custom` cell 22, the loops over the layers in `__init__`. -/
def customLayers (dims : List ℕ) (activation : String) : Except PyErr (List LayerSpec) := do
  let hidden ← (List.range (dims.length - 2)).mapM fun dim =>
    return ⟨← pyIndex dims ((dim + 1 : ℕ) : ℤ), some activation⟩
  let last ← pyIndex dims (-1)
  return hidden ++ [⟨last, none⟩]

/-- `custom` cell 22 (`call`). -/
def customCall (act : String → ℝ → ℝ) : List DenseLayer → Batch → Except PyErr Batch
  | [], x => .ok x
  | layer :: rest, x =>
    match mapE (applyLayer act layer) x with
    | .error e => .error e
    | .ok y => customCall act rest y

/-- `self(X)` in `train_step`. -/
noncomputable def customNetwork (act : String → ℝ → ℝ) (layers : List DenseLayer) (dout : ℕ) : Network dout :=
  fun _ X r j => batchEntry (customCall act layers (pointRows X)) r j

/-- `custom` cell 22 (`train_step`) up to the total loss. -/
noncomputable def customTrainStep {nc nt nq nIn nBd dout : ℕ} (L : LossFunction nc nt nq)
    (M : ModelData nc nt nq nIn nBd) (net : Network dout) (beta : ℝ) (bilinear : ParamDict) :
    Except PyErr (TrainOut dout) :=
  let predictedDirichlet := net _ M.dirichletInput
  let predicted := net _ M.inputTensor
  let gradients := tapeGradient (ι := Fin nIn × Fin dout) (fun X i => net _ X i.1 i.2) M.inputTensor
  match reshapeCells nc nq M.nCells (fun r => (gradients r).1),
      reshapeCells nc nq M.nCells (fun r => (gradients r).2),
      reshapeCells nc nq M.nCells (flatten predicted) with
  | .ok gx, .ok gy, .ok v =>
    match L.call [("test_shape_val_mat", .mat M.preMultiplierVal), ("test_grad_x_mat", .mat M.preMultiplierGradX),
        ("test_grad_y_mat", .mat M.preMultiplierGradY), ("pred_nn", .pred v), ("pred_grad_x_nn", .pred gx),
        ("pred_grad_y_nn", .pred gy), ("forcing_function", .force M.forceMatrix),
        ("bilinear_params", .params bilinear)] with
    | .error e => .error e
    | .ok residuals =>
      let totalPde := 0.0 + ∑ c, residuals c
      let boundary := meanSquare0 fun r j => predictedDirichlet r j - M.dirichletActual r
      .ok ⟨totalPde, boundary, fun j => totalPde + beta * boundary j⟩
  | .error e, _, _ => .error e
  | _, .error e, _ => .error e
  | _, _, .error e => .error e

/-- The `DenseModel` of `custom` cell 22 with `dout` outputs; the rest of `train_step` (gradients and optimizer) is
that of `trainStepWith`. -/
noncomputable def Prepared.custom (P : Prepared) (mc : Machine) (cfg : ForwardConfig) (pb : Problem) (dout : ℕ) :
    DriverModel (TrainOut dout) where
  step := fun s =>
    if P.inDim = 2 then
      trainStepWith (fun θ =>
        match customTrainStep (pb.loss P.data.nCells P.nt P.nq) (modelDataOf P.data P.dirichlet P.nCells)
            (customNetwork mc.act (layersAt θ 0 P.inDim P.specs) dout) cfg.beta
            (some (paramsAsTensors pb.bilinearParams)) with
        | .error e => .error e
        | .ok out => .ok (out, ∑ j, out.loss j)) (trainableVariables P.inDim P.specs []) P.lr s
    else .error .valueError
  call := fun θ => customCall mc.act (layersAt θ 0 P.inDim P.specs)
  lossLine := fun fmt out => " ".intercalate (List.ofFn fun j => fmt (out.loss j))
  floats := fun out =>
    match floatOf out.lossDirichlet, floatOf out.loss with
    | .ok b, .ok l => .ok (out.lossPde, b, l)
    | .error e, _ => .error e
    | _, .error e => .error e

/-! ## Training and results -/

/-- What is drawn in one of the four axes of the figure. -/
inductive Panel
  /-- `axs[…].plot(a)` with a logarithmic vertical axis. -/
  | curve (values : List (List ℝ))
  /-- `axs[…].tricontourf(points[:, 0], points[:, 1], values, 100)`. -/
  | tricontour (points : List (ℝ × ℝ)) (values : List ℝ)

/-- The variables of a notebook at its end: the trained weights, the array of losses, the figure with the titles of its
axes (row by row), the table of errors. -/
structure NotebookResult where
  weights : Weights
  lossArray : List (List ℝ)
  yExact : List ℝ
  yPred : List ℝ
  error : List ℝ
  panels : List (String × Panel)
  table : List (String × ℝ)

/-- Cells 24-26 (`custom`: 31-33).  `triangulate` is the part of `tricontourf` that may fail (fewer than three points
or points on a line); its three calls are with the same points.  The quotients of the relative errors are those of
`ℝ`. -/
noncomputable def runNotebook {dout : ℕ} (mc : Machine) (triangulate : List (ℝ × ℝ) → Except PyErr Unit)
    (cfg : ForwardConfig) (pb : Problem) (P : Prepared) (M : DriverModel (TrainOut dout)) (θ : Weights) :
    Except PyErr NotebookResult :=
  match trainEpochs M.step cfg.epochs ⟨θ, AdamState.init⟩ with
  | .error e => .error e
  | .ok (outs, s) =>
    let lossArray := outs.map fun out => List.ofFn out.loss
    match P.geometry.getTestPoints mc.env P.files with
    | (.error e, _, _) => .error e
    | (.ok (.points testPoints), _, _) =>
      let yExact := testPoints.map fun p => pb.exactSolution p.1 p.2
      match M.predict s.weights testPoints with
      | .error e => .error e
      | .ok yPred =>
        match npSub yExact yPred with
        | .error e => .error e
        | .ok diff =>
          let error := diff.map (|·|)
          match triangulate testPoints with
          | .error e => .error e
          | .ok () =>
            let l2 := Real.sqrt (npMean (error.map (· ^ 2)))
            let l1 := npMean (error.map (|·|))
            match npMax (error.map (|·|)), npMax (yExact.map (|·|)) with
            | .error e, _ => .error e
            | _, .error e => .error e
            | .ok linf, .ok largest =>
              let relL2 := l2 / Real.sqrt (npMean (yExact.map (· ^ 2)))
              let relL1 := l1 / npMean (yExact.map (|·|))
              let relLinf := linf / largest
              .ok { weights := s.weights
                    lossArray := lossArray
                    yExact := yExact
                    yPred := yPred
                    error := error
                    panels := [("Loss Plot", .curve lossArray), ("Exact Solution", .tricontour testPoints yExact),
                      ("Predicted Solution", .tricontour testPoints yPred), ("Error", .tricontour testPoints error)]
                    table := [("L2 Error", l2), ("L1 Error", l1), ("L_inf Error", linf), ("Relative L2 Error", relL2),
                      ("Relative L1 Error", relL1), ("Relative L_inf Error", relLinf)] }
    | (.ok _, _, _) => .error .typeError

/-! ## The notebooks -/

/-- The settings of cell 8, completed by what the other cells fix: no attention layer, a plot of the mesh (cell 18),
the layers of `poisson` cell 22 and `custom` cell 29.  (The notebooks are meant to be edited; the theorems are for all
settings.)  `i_dtype` is a TensorFlow type and needs no check. -/
def notebookSettings (cfg : ForwardConfig) : ForwardConfig :=
  { cfg with useAttention := false, generateMeshPlot := true, dtype := "float32" }

/-- Cell 8; `n` is the number of cells in each direction, 2 in `poisson_training` and 4 in `custom_training_poisson`.
The names that do not occur in the notebooks get empty values. -/
noncomputable def notebookShipped (n : ℕ) : ForwardConfig where
  outputPath := "output/poisson_2d"
  meshGenerationMethod := "internal"
  generateMeshPlot := true
  meshType := "quadrilateral"
  xMin := 0
  xMax := 1
  yMin := 0
  yMax := 1
  nCellsX := n
  nCellsY := n
  nBoundaryPoints := 400
  nTestPointsX := 100
  nTestPointsY := 100
  meshFileName := ""
  boundaryRefinementLevel := 0
  boundarySamplingMethod := ""
  feOrder := 6
  feType := "legendre"
  quadOrder := 10
  quadType := "gauss-jacobi"
  modelArchitecture := []
  activation := "tanh"
  useAttention := false
  epochs := 20000
  dtype := "float32"
  learningRate := [("initial_learning_rate", .num 0.001), ("use_lr_scheduler", .bool false),
    ("decay_steps", .num 1000), ("decay_rate", .num 0.96), ("staircase", .bool true)]
  beta := 10
  updateConsoleOutput := 0

/-- `poisson_training.ipynb`, cells 14-26, for the problem `pb`. -/
noncomputable def notebookTraining (mc : Machine) (triangulate : List (ℝ × ℝ) → Except PyErr Unit) (pb : Problem)
    (cfg : ForwardConfig) (sample : Fin 4 → Fin (cfg.nBoundaryPoints / 4) → ℝ) (θ : Weights) (files : Files) :
    Except PyErr NotebookResult :=
  match prepareUniform mc (notebookSettings cfg) pb [2, 30, 30, 30, 1] learningRateFn sample files with
  | .error e => .error e
  | .ok P => runNotebook mc triangulate (notebookSettings cfg) pb P
      (P.dense mc (notebookSettings cfg) pb (outDim P.specs)) θ

/-- `custom_training_poisson.ipynb`, cells 14-33, for the problem `pb`. -/
noncomputable def notebookCustom (mc : Machine) (triangulate : List (ℝ × ℝ) → Except PyErr Unit) (pb : Problem)
    (cfg : ForwardConfig) (sample : Fin 4 → Fin (cfg.nBoundaryPoints / 4) → ℝ) (θ : Weights) (files : Files) :
    Except PyErr NotebookResult :=
  match prepareUniform mc (notebookSettings cfg) pb [2, 30, 30, 30, 1] customLearningRate sample files with
  | .error e => .error e
  | .ok P =>
    match customLayers [2, 30, 30, 30, 1] cfg.activation with
    | .error e => .error e
    | .ok specs =>
      let P := { P with specs := specs }
      runNotebook mc triangulate (notebookSettings cfg) pb P
        (P.custom mc (notebookSettings cfg) pb (outDim P.specs)) θ

/-- The problem of `poisson_training.ipynb`, cells 10 and 22 (the loss function of the library). -/
noncomputable def problemTraining : Problem where
  loss := lossPoisson
  boundaryFunctionDict := notebookBoundaryDict
  rhs := notebookRhs 2.0
  exactSolution := notebookExact 2.0
  bilinearParams := notebookBilinear

/-- The problem of `custom_training_poisson.ipynb`, cells 10 and 25. -/
noncomputable def problemCustom : Problem where
  loss := notebookLoss
  boundaryFunctionDict := notebookBoundaryDict
  rhs := notebookRhs 4.0
  exactSolution := notebookExact 4.0
  bilinearParams := notebookBilinear

end FastVPINNs
