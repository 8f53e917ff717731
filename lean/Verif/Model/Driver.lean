import Verif.Model.Examples
import Verif.Model.GeometryObject
import Verif.Model.Pyplot
import Verif.Model.Training
import Verif.Model.Utils

/-! # The driver scripts for forward problems, `/repo/examples/forward_problems_2d/*/*/main_*.py`

The three kinds are: uniform mesh (`uniform_mesh/poisson_2d/main_poisson2d.py`,
`uniform_mesh/helmholtz_2d/main_helmholtz.py`), uniform mesh with hard boundary constraints
(`hard_boundary_constraints/poisson_2d/main_poisson2d_hard.py`), and external mesh
(`complex_mesh/*/main_*.py`).  Line numbers without file name are those of
`uniform_mesh/poisson_2d/main_poisson2d.py`.

The figures (`plot_contour`, `plot_results`) are in `Model/DriverFigures.lean`: they only read the other variables.
Not modelled here: parsing of the YAML file (see `Model/ConfigFile.lean`), creation of the output folder,
progress bar, layout of the console output, the CSV file that `cd2d_gear/main_gear_cd2d.py` may read instead of
calling `exact_solution` (see `Model/DriverGear.lean`). -/

namespace FastVPINNs

/-! ## The loop over the epochs -/

/-- The variables that the loop over the epochs changes: the model, the values returned by `train_step`
(`loss_array` is a column of them), the variables bound in the report block, one entry per report, and
the files. -/
structure LoopState (α ρ : Type) where
  model : TrainState
  losses : List α
  reports : List ρ
  files : Files

/-- Line 221: `(epoch + 1) % i_update_console_output == 0 or epoch == num_epochs - 1`. -/
def reportDue (update : ℤ) (numEpochs epoch : ℕ) : Except PyErr Bool :=
  if update = 0 then .error .zeroDivisionError
  else .ok (decide (((epoch : ℤ) + 1) % update = 0) || decide ((epoch : ℤ) = numEpochs - 1))

section
variable {α ρ : Type} (step : TrainState → Except PyErr (α × TrainState))
  (report : ℕ → α → TrainState → Files → Except PyErr (ρ × Files)) (update : ℤ) (numEpochs : ℕ)

/-- Lines 210-265: the body of the loop. -/
def epochBody (epoch : ℕ) (s : LoopState α ρ) : Except PyErr (LoopState α ρ) :=
  match step s.model with
  | .error e => .error e
  | .ok (loss, model) =>
    match reportDue update numEpochs epoch with
    | .error e => .error e
    | .ok false => .ok ⟨model, s.losses ++ [loss], s.reports, s.files⟩
    | .ok true =>
      match report epoch loss model s.files with
      | .error e => .error e
      | .ok (r, files) => .ok ⟨model, s.losses ++ [loss], s.reports ++ [r], files⟩

/-- Line 208: `for epoch in …`. -/
def epochLoop : List ℕ → LoopState α ρ → Except PyErr (LoopState α ρ)
  | [], s => .ok s
  | epoch :: rest, s =>
    match epochBody step report update numEpochs epoch s with
    | .error e => .error e
    | .ok s' => epochLoop rest s'

end

/-! ## A report -/

/-- The six values returned by `compute_errors_combined`, in its order. -/
abbrev ErrorValues := ℝ × ℝ × ℝ × ℝ × ℝ × ℝ

/-- What lines 222-252 bind and print. -/
structure Report where
  epoch : ℕ
  lossPde : ℝ
  lossDirichlet : ℝ
  totalLoss : ℝ
  errors : ErrorValues
  yPred : List ℝ
  error : List ℝ

/-- A model as the driver uses it: `train_step`, `model(points)`, the line `np.savetxt` writes for
`loss['loss']`, and `float(loss[…].numpy())` of the three losses. -/
structure DriverModel (α : Type) where
  step : TrainState → Except PyErr (α × TrainState)
  call : Weights → Batch → Except PyErr Batch
  lossLine : (ℝ → String) → α → String
  floats : α → Except PyErr (ℝ × ℝ × ℝ)

/-- `model(points).numpy().reshape(-1)` (lines 222-223). -/
def DriverModel.predict {α : Type} (M : DriverModel α) (θ : Weights) (points : List (ℝ × ℝ)) :
    Except PyErr (List ℝ) :=
  match M.call θ (points.map fun p => [p.1, p.2]) with
  | .error e => .error e
  | .ok b => .ok b.flatten

/-- A one-dimensional array. -/
def array1 (l : List ℝ) : NDArray := ⟨[l.length], l⟩

/-- Lines 222-252 (uniform mesh); `yExact` is `y_exact`. -/
noncomputable def reportBlock {α : Type} (M : DriverModel α) (points : List (ℝ × ℝ)) (yExact : List ℝ)
    (epoch : ℕ) (loss : α) (model : TrainState) (files : Files) : Except PyErr (Report × Files) := do
  let yPred ← M.predict model.weights points
  let diff ← npSub yExact yPred
  let errors ← computeErrorsCombined (array1 yExact) (array1 yPred)
  let l ← M.floats loss
  return (⟨epoch, l.1, l.2.1, l.2.2, errors, yPred, diff.map (|·|)⟩, files)

/-- `np.c_[y_pred, y_exact, np.abs(y_exact - y_pred)]`; the two arrays must have the same length. -/
noncomputable def solutionArray (yPred yExact : List ℝ) :
    Except PyErr (Fin yPred.length → Fin 3 → ℝ) :=
  if yPred.length = yExact.length then
    .ok fun k => ![yPred.getD k 0, yExact.getD k 0, |yExact.getD k 0 - yPred.getD k 0|]
  else .error .valueError

/-- `domain.write_vtk(solution_array, output_path=…, filename=f"prediction_{epoch+1}.vtk",
data_names=["Sol", "Exact", "Error"])`: `complex_mesh/cd2d/main_cd2d.py:235-241, 258-264` (the same in the
other drivers with external mesh). -/
noncomputable def writePrediction (env : MeshFiles) (o : GeometryObject) (outputPath : String)
    (yPred yExact : List ℝ) (epoch : ℕ) (files : Files) : Except PyErr Files :=
  match solutionArray yPred yExact with
  | .error e => .error e
  | .ok solution =>
    match o.writeVtk env files solution outputPath ("prediction_" ++ toString (epoch + 1) ++ ".vtk")
        ["Sol", "Exact", "Error"] with
    | (.error e, _, _) => .error e
    | (.ok _, _, files) => .ok files

/-- `complex_mesh/cd2d/main_cd2d.py:213-251` (external mesh). -/
noncomputable def reportBlockVtk {α : Type} (env : MeshFiles) (o : GeometryObject) (outputPath : String)
    (M : DriverModel α) (points : List (ℝ × ℝ)) (yExact : List ℝ) (epoch : ℕ) (loss : α)
    (model : TrainState) (files : Files) : Except PyErr (Report × Files) := do
  let r ← reportBlock M points yExact epoch loss model files
  let files ← writePrediction env o outputPath r.1.yPred yExact epoch r.2
  return (r.1, files)

/-! ## The tables -/

/-- `np.percentile(a, q)` with the default linear interpolation, for a non-empty array. -/
noncomputable def npPercentile (a : List ℝ) (q : ℝ) : ℝ :=
  let s := a.mergeSort (fun x y => decide (x ≤ y))
  let v := q / 100 * (a.length - 1 : ℕ)
  let i := ⌊v⌋₊
  s.getD i 0 + (v - i) * (s.getD (min (i + 1) (a.length - 1)) 0 - s.getD i 0)

/-- `np.median(a)` for a non-empty array: the middle entry of the sorted array, or the mean of the two
middle entries. -/
noncomputable def npMedian (a : List ℝ) : ℝ :=
  let s := a.mergeSort (fun x y => decide (x ≤ y))
  if a.length % 2 = 1 then s.getD (a.length / 2) 0
  else (s.getD (a.length / 2 - 1) 0 + s.getD (a.length / 2) 0) / 2

/-- `int(x)` of a float. -/
noncomputable def pyInt (x : ℝ) : ℤ := if 0 ≤ x then ⌊x⌋ else ⌈x⌉

/-- `int(i_epochs / np.sum(time_array))` (line 304): the quotient is a numpy float, so a zero sum gives an
infinity, of which `int` is an `OverflowError` (or NaN and a `ValueError`). -/
noncomputable def epochsPerSecond (epochs : ℕ) (times : List ℝ) : Except PyErr ℤ :=
  if times.sum = 0 then (if epochs = 0 then .error .valueError else .error .overflowError)
  else .ok (pyInt (epochs / times.sum))

/-- The labels of the table of errors, lines 276-283. -/
def errorLabels : List String :=
  ["L2 Error", "Linf Error", "Relative L2 Error", "Relative Linf Error", "L1 Error", "Relative L1 Error"]

/-- Line 284. -/
def errorColumn (e : ErrorValues) : List TableVal :=
  [.float e.1, .float e.2.1, .float e.2.2.1, .float e.2.2.2.1, .float e.2.2.2.2.1, .float e.2.2.2.2.2]

/-- The labels of the table of times, lines 291-298. -/
def timeLabels : List String :=
  ["Time per Epoch(s) - Median", "Time per Epoch(s) IQR-25% ", "Time per Epoch(s) IQR-75% ", "Mean (s)",
   "Epochs per second", "Total Train Time"]

/-- Lines 299-306. -/
noncomputable def timeColumn (str : ℤ → String) (epochs : ℕ) (times : List ℝ) :
    Except PyErr (List TableVal) :=
  match epochsPerSecond epochs times with
  | .error e => .error e
  | .ok k =>
    .ok [.float (npMedian times), .float (npPercentile times 25), .float (npPercentile times 75),
      .float (npMean times), .other (str k), .float times.sum]

/-! ## The whole script -/

/-- The values read from the YAML file, lines 46-94 (`dtype` as a string). -/
structure ForwardConfig where
  outputPath : String
  meshGenerationMethod : String
  generateMeshPlot : Bool
  meshType : String
  xMin : ℝ
  xMax : ℝ
  yMin : ℝ
  yMax : ℝ
  nCellsX : ℕ
  nCellsY : ℕ
  nBoundaryPoints : ℕ
  nTestPointsX : ℕ
  nTestPointsY : ℕ
  meshFileName : String
  boundaryRefinementLevel : ℕ
  boundarySamplingMethod : String
  feOrder : ℤ
  feType : String
  quadOrder : ℤ
  quadType : String
  modelArchitecture : List ℕ
  activation : String
  useAttention : Bool
  epochs : ℕ
  dtype : String
  learningRate : List (String × PyVal)
  beta : ℝ
  updateConsoleOutput : ℤ

/-- The problem: what the driver imports from the example file, and the loss it uses. -/
structure Problem where
  loss : (nc nt nq : ℕ) → LossFunction nc nt nq
  boundaryFunctionDict : List (ℤ × (ℝ → ℝ → ℝ))
  rhs : ℝ → ℝ → ℝ
  exactSolution : ℝ → ℝ → ℝ
  bilinearParams : List (String × ℝ)

/-- The libraries and the clock. -/
structure Machine where
  quad : QuadRoutines
  env : MeshFiles
  /-- The activation functions of keras by name. -/
  act : String → ℝ → ℝ
  /-- keras' `Attention()([x, x])`. -/
  attention : Batch → Except PyErr Batch
  /-- The format specification `.4f`. -/
  fmt4 : ℝ → String
  /-- `str` of an integer. -/
  str : ℤ → String
  /-- The measured duration of each epoch. -/
  elapsed : ℕ → ℝ
  /-- `model.optimizer.lr.numpy()` (only its success is modelled): the optimizers of TensorFlow 2.9 and 2.10 return
  the schedule object itself as `lr`, which has no method `numpy`; later ones the current value. -/
  lrNumpy : LearningRate → Except PyErr Unit

/-- The objects built before the training. -/
structure Prepared where
  nt : ℕ
  nq : ℕ
  data : DataHandler2D nt nq
  dirichlet : List (ℝ × ℝ) × List ℝ
  nCells : ℕ
  inDim : ℕ
  specs : List LayerSpec
  lr : LearningRate
  geometry : GeometryObject
  files : Files

/-- The points of a boundary dictionary as pairs (`Fespace2D` reads `pt[0]` and `pt[1]`). -/
def bdPairs (d : List (ℤ × List (List ℝ))) : BdDict :=
  d.map fun e => (e.1, e.2.map fun r => (r.getD 0 0, r.getD 1 0))

/-- `domain.mesh.points[:, 0:2]`, the only use made of `domain.mesh`. -/
def StoredMesh.planePoints : StoredMesh → List (ℝ × ℝ)
  | .read m => m.points.map MeshioMesh.xy
  | .internal points _ => points

/-- Lines 122-169 (and `main_poisson2d_hard.py:119-188`, `main_cd2d.py:127-174`): function space, data
handler, boundary data and model.  `layerDims` is the argument `layer_dims`, `lrFn` the part of the
constructor on the learning rate (which differs for the hard model); the other arguments of the
constructor are taken from the data handler unchanged (`modelDataOf`). -/
noncomputable def prepareModel (mc : Machine) (cfg : ForwardConfig) (pb : Problem) (layerDims : List ℕ)
    (lrFn : List (String × PyVal) → Except PyErr LearningRate) (o : GeometryObject) (files : Files)
    (cells : List Quad) (bd : BdDict) : Except PyErr Prepared :=
  match fespace2D mc.quad ((o.mesh.map StoredMesh.planePoints).getD []) cells bd
      ⟨o.meshType, cfg.feOrder, cfg.feType, cfg.quadOrder, cfg.quadType, "bilinear"⟩
      pb.boundaryFunctionDict pb.rhs cfg.generateMeshPlot with
  | .error e => .error e
  | .ok ⟨nq, S⟩ =>
    match dataHandler2D S true with
    | .error e => .error e
    | .ok (D, S') =>
      match getDirichletInput S' with
      | .error e => .error e
      | .ok bdv =>
        match lrFn cfg.learningRate with
        | .error e => .error e
        | .ok lr =>
          match layerSpecs layerDims cfg.activation with
          | .error e => .error e
          | .ok specs =>
            match pyIndex layerDims 0 with
            | .error e => .error e
            | .ok inDim => .ok ⟨_, nq, D, bdv, S'.nCells, inDim, specs, lr, o, files⟩

/-- Lines 81-137: the check of the data type, geometry and internal mesh, then the model.  `sample` are the
four draws of boundary points. -/
noncomputable def prepareUniform (mc : Machine) (cfg : ForwardConfig) (pb : Problem) (layerDims : List ℕ)
    (lrFn : List (String × PyVal) → Except PyErr LearningRate)
    (sample : Fin 4 → Fin (cfg.nBoundaryPoints / 4) → ℝ) (files : Files) : Except PyErr Prepared :=
  if cfg.dtype ∉ ["float64", "float32"] then .error .valueError
  else
    match newGeometry cfg.meshType cfg.meshGenerationMethod cfg.nTestPointsX cfg.nTestPointsY
        cfg.outputPath false with
    | .error e => .error e.1
    | .ok o =>
      match o.generateInternal mc.env files (cfg.xMin, cfg.xMax) (cfg.yMin, cfg.yMax) cfg.nCellsX
          cfg.nCellsY cfg.nBoundaryPoints sample with
      | (.error e, _, _) => .error e
      | (.ok (.mesh cells bd), o, files) =>
        prepareModel mc cfg pb layerDims lrFn o files cells (bdPairs bd)
      | (.ok _, _, _) => .error .typeError

/-- `complex_mesh/cd2d/main_cd2d.py:81-174`: the same with `read_mesh`.  `lhs` are the draws of the
sampler, one per boundary edge. -/
noncomputable def prepareExternal (mc : Machine) (cfg : ForwardConfig) (pb : Problem) (layerDims : List ℕ)
    (lhs : ℕ → Fin (2 ^ cfg.boundaryRefinementLevel + 1) → ℝ × ℝ) (files : Files) :
    Except PyErr Prepared :=
  if cfg.dtype ∉ ["float64", "float32"] then .error .valueError
  else
    match newGeometry cfg.meshType cfg.meshGenerationMethod cfg.nTestPointsX cfg.nTestPointsY
        cfg.outputPath false with
    | .error e => .error e.1
    | .ok o =>
      match o.readMesh mc.env files cfg.meshFileName cfg.boundaryRefinementLevel
          cfg.boundarySamplingMethod lhs with
      | (.error e, _, _) => .error e
      | (.ok (.mesh cells bd), o, files) =>
        prepareModel mc cfg pb layerDims learningRateFn o files cells (bdPairs bd)
      | (.ok _, _, _) => .error .typeError

/-- `float(t.numpy())` of a tensor with one axis: a `TypeError` unless it has exactly one entry. -/
def floatOf {n : ℕ} (v : Fin n → ℝ) : Except PyErr ℝ :=
  if h : n = 1 then .ok (v ⟨0, by omega⟩) else .error .typeError

/-- The number of outputs: the units of the last layer. -/
def outDim (specs : List LayerSpec) : ℕ := (specs.getLast?.map LayerSpec.units).getD 0

/-- A `DenseModel` with `dout` outputs in the driver.  Calling it with points when `layer_dims[0]` is not 2
is a `ValueError` of keras, raised by the first `train_step`. -/
noncomputable def Prepared.dense (P : Prepared) (mc : Machine) (cfg : ForwardConfig) (pb : Problem)
    (dout : ℕ) : DriverModel (TrainOut dout) where
  step := fun s =>
    if P.inDim = 2 then
      trainStepWith (forwardDense (pb.loss P.data.nCells P.nt P.nq) (modelDataOf P.data P.dirichlet P.nCells)
        mc.act mc.attention cfg.useAttention P.inDim P.specs dout cfg.beta
        (some (paramsAsTensors pb.bilinearParams))) (trainableVariables P.inDim P.specs []) P.lr s
    else .error .valueError
  call := fun θ => callDense mc.act mc.attention cfg.useAttention (layersAt θ 0 P.inDim P.specs)
  lossLine := fun fmt out => " ".intercalate (List.ofFn fun j => fmt (out.loss j))
  floats := fun out =>
    match floatOf out.lossDirichlet, floatOf out.loss with
    | .ok b, .ok l => .ok (out.lossPde, b, l)
    | .error e, _ => .error e
    | _, .error e => .error e

/-- A `DenseModel_Hard` with `dout` outputs in the driver `main_poisson2d_hard.py`. -/
noncomputable def Prepared.hard (P : Prepared) (mc : Machine) (cfg : ForwardConfig) (pb : Problem)
    (dout : ℕ) : DriverModel TrainOutHard where
  step := fun s =>
    if P.inDim = 2 then
      trainStepWith (forwardHard (pb.loss P.data.nCells P.nt P.nq) (modelDataOf P.data P.dirichlet P.nCells)
        mc.act mc.attention cfg.useAttention P.inDim P.specs dout cfg.beta
        (some (paramsAsTensors pb.bilinearParams)) applyHardBoundaryConstraints)
        (trainableVariables P.inDim P.specs []) P.lr s
    else .error .valueError
  call := fun θ => callHard mc.act mc.attention cfg.useAttention (layersAt θ 0 P.inDim P.specs)
    applyHardBoundaryConstraints
  lossLine := fun fmt out => fmt out.loss
  floats := fun out => .ok (out.lossPde, out.lossDirichlet, out.loss)

/-- What a run leaves behind: the saved weights, the reports on the console, the two tables, the files. -/
structure RunResult where
  savedWeights : Weights
  reports : List Report
  errorTable : List (String × String)
  timeTable : List (String × String)
  files : Files

/-- `np.savetxt(str(Path(i_output_path) / name), …)` of lines. -/
def saveText (env : MeshFiles) (outputPath name : String) (lines : List String) (files : Files) : Files :=
  writeFile files (env.join outputPath name) lines

/-- Lines 309-314: the five text files. -/
def saveAll {α : Type} (env : MeshFiles) (outputPath : String) (M : DriverModel α) (losses : List α)
    (r : Report) (yExact times : List ℝ) (files : Files) : Files :=
  saveText env outputPath "time_per_epoch.txt" (times.map env.fmt)
    (saveText env outputPath "error.txt" (r.error.map env.fmt)
      (saveText env outputPath "exact.txt" (yExact.map env.fmt)
        (saveText env outputPath "prediction.txt" (r.yPred.map env.fmt)
          (saveText env outputPath "loss_function.txt" (losses.map (M.lossLine env.fmt)) files))))

/-- Lines 269-314 after the loop; the variables of the report block are unbound (`NameError`) if there
has been no report. -/
noncomputable def finishRun {α : Type} (mc : Machine) (cfg : ForwardConfig) (M : DriverModel α)
    (yExact : List ℝ) (s : LoopState α Report) : Except PyErr RunResult :=
  match s.reports.getLast? with
  | none => .error .nameError
  | some r =>
    let times := (List.range s.losses.length).map mc.elapsed
    match timeColumn mc.str cfg.epochs times with
    | .error e => .error e
    | .ok column =>
      .ok { savedWeights := s.model.weights
            reports := s.reports
            errorTable := printTableRows mc.fmt4 errorLabels (errorColumn r.errors)
            timeTable := printTableRows mc.fmt4 timeLabels column
            files := saveAll mc.env cfg.outputPath M s.losses r yExact times s.files }

/-- Lines 171-314 (uniform mesh) from the model with initial weights `θ` on. -/
noncomputable def runUniform {α : Type} (mc : Machine) (cfg : ForwardConfig) (pb : Problem) (P : Prepared)
    (M : DriverModel α) (θ : Weights) : Except PyErr RunResult :=
  match P.geometry.getTestPoints mc.env P.files with
  | (.error e, _, _) => .error e
  | (.ok (.points points), _, files) =>
    let yExact := points.map fun p => pb.exactSolution p.1 p.2
    match contourMatrices cfg.nTestPointsX cfg.nTestPointsY pb.exactSolution points with
    | .error e => .error e
    | .ok m =>
      -- lines 181-188; the figures are in `Model/DriverFigures.lean`, only an exception matters here
      match plotContour m.1 m.2.1 m.2.2 cfg.outputPath "exact_solution" "Exact Solution" ⟨[], fun _ => none⟩ with
      | .error e => .error e
      | .ok _ =>
        match epochLoop M.step (reportBlock M points yExact) cfg.updateConsoleOutput cfg.epochs
            (List.range cfg.epochs) ⟨⟨θ, AdamState.init⟩, [], [], files⟩ with
        | .error e => .error e
        | .ok s => finishRun mc cfg M yExact s
  | (.ok _, _, _) => .error .typeError

/-- `complex_mesh/cd2d/main_cd2d.py:176-307` (external mesh).  After the loop the last prediction is
written once more. -/
noncomputable def runExternal {α : Type} (mc : Machine) (cfg : ForwardConfig) (pb : Problem) (P : Prepared)
    (M : DriverModel α) (θ : Weights) : Except PyErr RunResult :=
  match P.geometry.getTestPoints mc.env P.files with
  | (.error e, _, _) => .error e
  | (.ok (.points points), o, files) =>
    let yExact := points.map fun p => pb.exactSolution p.1 p.2
    match epochLoop M.step (reportBlockVtk mc.env o cfg.outputPath M points yExact)
        cfg.updateConsoleOutput cfg.epochs (List.range cfg.epochs)
        ⟨⟨θ, AdamState.init⟩, [], [], files⟩ with
    | .error e => .error e
    | .ok s =>
      match s.reports.getLast? with
      | none => .error .nameError
      | some r =>
        match writePrediction mc.env o cfg.outputPath r.yPred yExact (cfg.epochs - 1) s.files with
        | .error e => .error e
        | .ok files => finishRun mc cfg M yExact { s with files := files }
  | (.ok _, _, _) => .error .typeError

/-- The layers written in the uniform-mesh drivers: `main_poisson2d.py:154`,
`main_helmholtz.py:154`, `main_poisson2d_hard.py:172` (and `complex_mesh/poisson2d/main_poisson2d.py:159`,
`complex_mesh/USA/main_poisson2d.py:159`); `model_architecture` of the YAML file is read and not used. -/
def fixedLayers : List ℕ := [2, 30, 30, 30, 1]

/-- `uniform_mesh/poisson_2d/main_poisson2d.py`, `uniform_mesh/helmholtz_2d/main_helmholtz.py`. -/
noncomputable def mainUniform (mc : Machine) (pb : Problem) (cfg : ForwardConfig)
    (sample : Fin 4 → Fin (cfg.nBoundaryPoints / 4) → ℝ) (θ : Weights) (files : Files) :
    Except PyErr RunResult :=
  match prepareUniform mc cfg pb fixedLayers learningRateFn sample files with
  | .error e => .error e
  | .ok P => runUniform mc cfg pb P (P.dense mc cfg pb (outDim P.specs)) θ

/-- `hard_boundary_constraints/poisson_2d/main_poisson2d_hard.py`. -/
noncomputable def mainHard (mc : Machine) (pb : Problem) (cfg : ForwardConfig)
    (sample : Fin 4 → Fin (cfg.nBoundaryPoints / 4) → ℝ) (θ : Weights) (files : Files) :
    Except PyErr RunResult :=
  match prepareUniform mc cfg pb fixedLayers learningRateFnStaircase sample files with
  | .error e => .error e
  | .ok P => runUniform mc cfg pb P (P.hard mc cfg pb (outDim P.specs)) θ

/-- `complex_mesh/*/main_*.py`; `layerDims` is `fixedLayers` for the two Poisson examples and
`i_model_architecture` for the others. -/
noncomputable def mainExternal (mc : Machine) (pb : Problem) (layerDims : ForwardConfig → List ℕ)
    (cfg : ForwardConfig) (lhs : ℕ → Fin (2 ^ cfg.boundaryRefinementLevel + 1) → ℝ × ℝ) (θ : Weights)
    (files : Files) : Except PyErr RunResult :=
  match prepareExternal mc cfg pb (layerDims cfg) lhs files with
  | .error e => .error e
  | .ok P => runExternal mc cfg pb P (P.dense mc cfg pb (outDim P.specs)) θ

end FastVPINNs
