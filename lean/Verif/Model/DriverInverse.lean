import Verif.Model.DriverShipped

/-! # The driver script for the inverse problem with a constant coefficient

`/repo/examples/inverse_problems_2d/const_inverse_poisson2d/main_inverse.py`; line numbers without file name
are those of this file.  What the script has in common with the scripts for forward problems is taken from
`Model/Driver.lean`, with the same parts left out. -/

namespace FastVPINNs

/-- The values read from the YAML file, lines 54-101; `generateMeshPlot` is not read. -/
structure InverseConfig extends ForwardConfig where
  numSensorPoints : ℕ

/-- The configuration as the function space sees it: `Fespace2D` (lines 138-152) is called without
`generate_mesh_plot`, which is `False` by default. -/
def InverseConfig.forward (cfg : InverseConfig) : ForwardConfig :=
  { cfg.toForwardConfig with generateMeshPlot := false }

/-- What the driver imports from `inverse_uniform.py`, and the loss. -/
structure InverseProblem extends Problem where
  inverseParams : List (String × ℝ)
  inverseActual : List (String × ℝ)

/-- The objects built before the training: those of a forward problem, the sensor data and the target
coefficient. -/
structure PreparedInverse where
  base : Prepared
  sensor : List (ℝ × ℝ) × List ℝ
  actual : ℝ

/-- Lines 138-200: function space, data handler, boundary data, sensor data (without file name), target
coefficient and model. -/
noncomputable def prepareInverseModel (mc : Machine) (cfg : InverseConfig) (pb : InverseProblem)
    (sensorLhs : (k : ℕ) → Fin k → ℝ × ℝ) (randint : ℕ → Fin cfg.numSensorPoints → ℤ) (o : GeometryObject)
    (files : Files) (cells : List Quad) (bd : BdDict) : Except PyErr PreparedInverse :=
  match fespace2D mc.quad ((o.mesh.map StoredMesh.planePoints).getD []) cells bd
      ⟨o.meshType, cfg.feOrder, cfg.feType, cfg.quadOrder, cfg.quadType, "bilinear"⟩
      pb.boundaryFunctionDict pb.rhs false with
  | .error e => .error e
  | .ok ⟨nq, S⟩ =>
    match dataHandler2D S true with
    | .error e => .error e
    | .ok (D, S') =>
      match getDirichletInput S' with
      | .error e => .error e
      | .ok bdv =>
        match getSensorData S' pb.exactSolution cfg.numSensorPoints cfg.meshGenerationMethod sensorLhs none
            randint with
        | .error e => .error e
        | .ok sensor =>
          match pb.inverseActual.lookup "eps" with
          | none => .error .keyError
          | some actual =>
            match learningRateFnStaircase cfg.learningRate with
            | .error e => .error e
            | .ok lr =>
              match layerSpecs cfg.modelArchitecture cfg.activation with
              | .error e => .error e
              | .ok specs =>
                match pyIndex cfg.modelArchitecture 0 with
                | .error e => .error e
                | .ok inDim =>
                  .ok ⟨⟨_, nq, D, bdv, S'.nCells, inDim, specs, lr, o, files⟩, sensor, actual⟩

/-- Lines 86-200.  `sample` are the draws of boundary points on the rectangle, `lhs` those on the edges of a
mesh file, `sensorLhs` and `randint` the draws for the sensor data. -/
noncomputable def prepareInverse (mc : Machine) (cfg : InverseConfig) (pb : InverseProblem)
    (sample : Fin 4 → Fin (cfg.nBoundaryPoints / 4) → ℝ)
    (lhs : ℕ → Fin (2 ^ cfg.boundaryRefinementLevel + 1) → ℝ × ℝ) (sensorLhs : (k : ℕ) → Fin k → ℝ × ℝ)
    (randint : ℕ → Fin cfg.numSensorPoints → ℤ) (files : Files) : Except PyErr PreparedInverse :=
  if cfg.dtype ∉ ["float64", "float32"] then .error .valueError
  else
    match newGeometry cfg.meshType cfg.meshGenerationMethod cfg.nTestPointsX cfg.nTestPointsY
        cfg.outputPath false with
    | .error e => .error e.1
    | .ok o =>
      match (if cfg.meshGenerationMethod = "external" then
          o.readMesh mc.env files cfg.meshFileName cfg.boundaryRefinementLevel cfg.boundarySamplingMethod lhs
        else if cfg.meshGenerationMethod = "internal" then
          o.generateInternal mc.env files (cfg.xMin, cfg.xMax) (cfg.yMin, cfg.yMax) cfg.nCellsX
            cfg.nCellsY cfg.nBoundaryPoints sample
        else (.error .nameError, o, files)) with
      | (.error e, _, _) => .error e
      | (.ok (.mesh cells bd), o, files) =>
        prepareInverseModel mc cfg pb sensorLhs randint o files cells (bdPairs bd)
      | (.ok _, _, _) => .error .typeError

/-- A `DenseModel_Inverse` with `dout` outputs in the driver.  A step gives the dictionary returned by
`train_step` and `loss['inverse_params']['eps'].numpy()` (lines 262-270). -/
noncomputable def PreparedInverse.model (P : PreparedInverse) (mc : Machine) (cfg : InverseConfig)
    (pb : InverseProblem) (dout : ℕ) : DriverModel (TrainOutInverse dout × ℝ) where
  step := fun s =>
    if P.base.inDim = 2 then
      match trainStepInverseFull (pb.loss P.base.data.nCells P.base.nt P.base.nq)
          (modelDataOf P.base.data P.base.dirichlet P.base.nCells) mc.act mc.attention cfg.useAttention
          P.base.inDim P.base.specs dout cfg.beta (some (paramsAsTensors pb.bilinearParams))
          (fun i => P.sensor.1.get i) (fun i => P.sensor.2.getD i.val 0)
          ((paramsAsTensors pb.inverseParams).map Prod.fst) P.base.lr s with
      | .error e => .error e
      | .ok (out, s') =>
        match paramGet out.inverseParams "eps" with
        | .error e => .error e
        | .ok eps => .ok ((out, eps), s')
    else .error .valueError
  call := fun θ => callDense mc.act mc.attention cfg.useAttention (layersAt θ 0 P.base.inDim P.base.specs)
  lossLine := fun fmt out => " ".intercalate (List.ofFn fun j => fmt (out.1.loss j))
  floats := fun out =>
    match floatOf out.1.lossDirichlet, floatOf out.1.loss with
    | .ok b, .ok l => .ok (out.1.lossPde, b, l)
    | .error e, _ => .error e
    | _, .error e => .error e

/-- The variables of a new `DenseModel_Inverse`: the weights of the layers are drawn, the variables of the
dictionary have the given values (`model_inverse.py:74-78`). -/
def initialInverse (θ : Weights) (inverseParams : List (String × ℝ)) : Weights
  | .inverse k => (inverseParams.lookup k).getD 0
  | v => θ v

/-- `a[-u:]` of a list. -/
def pyTail (a : List ℝ) (u : ℤ) : List ℝ :=
  if 0 < u then a.drop (a.length - u.toNat) else a.drop (-u).toNat

/-- `int(u / np.sum(times))` (lines 286, 309). -/
noncomputable def ratePerSecond (u : ℤ) (times : List ℝ) : Except PyErr ℤ :=
  if times.sum = 0 then (if u = 0 then .error .valueError else .error .overflowError)
  else .ok (pyInt (u / times.sum))

/-- What lines 280-358 bind and print. -/
structure InverseReport extends Report where
  meanTime : ℝ
  perSecond : ℤ
  eps : ℝ
  sensorLoss : ℝ

/-- Lines 280-358 (internal mesh; the other branch is never reached, see `C78_external`). -/
noncomputable def reportInverse {dout : ℕ} (mc : Machine) (cfg : InverseConfig) (lr : LearningRate)
    (M : DriverModel (TrainOutInverse dout × ℝ)) (points : List (ℝ × ℝ)) (yExact : List ℝ) (epoch : ℕ)
    (loss : TrainOutInverse dout × ℝ) (model : TrainState) (files : Files) :
    Except PyErr (InverseReport × Files) := do
  let times := pyTail ((List.range (epoch + 1)).map mc.elapsed) cfg.updateConsoleOutput
  let r ← reportBlock M points yExact epoch loss model files
  let rate ← ratePerSecond cfg.updateConsoleOutput times
  let _ ← mc.lrNumpy lr
  let sensor ← floatOf loss.1.sensorLoss
  let _ ← reshapeMatrix cfg.nTestPointsX cfg.nTestPointsY r.1.yPred
  return (⟨r.1, npMean times, rate, loss.2, sensor⟩, r.2)

/-- The labels of the table of times, lines 457-463. -/
def timeLabelsInverse : List String :=
  ["Time per Epoch(s) - Median", "Time per Epoch(s) IQR-25% ", "Time per Epoch(s) IQR-75% ",
   "Mean without first(s)", "Mean with first(s)", "Epochs per second", "Total Train Time"]

/-- Lines 466-472; `np.percentile` of an empty array raises `IndexError` (numpy 1.22 and 1.23; `np.median`
before it gives NaN). -/
noncomputable def timeColumnInverse (str : ℤ → String) (epochs : ℕ) (times : List ℝ) :
    Except PyErr (List TableVal) :=
  let rest := times.drop 1
  if rest.length = 0 then .error .indexError
  else
    match epochsPerSecond epochs times with
    | .error e => .error e
    | .ok k =>
      .ok [.float (npMedian rest), .float (npPercentile rest 25), .float (npPercentile rest 75),
        .float (npMean rest), .float (npMean times), .other (str k), .float rest.sum]

/-- The lines `np.savetxt` writes for a matrix. -/
def matrixLines (fmt : ℝ → String) {nx ny : ℕ} (A : Fin nx → Fin ny → ℝ) : List String :=
  List.ofFn fun i => " ".intercalate (List.ofFn fun j => fmt (A i j))

/-- What a run leaves behind; `savedWeights` includes the variables of the dictionary. -/
structure InverseResult where
  savedWeights : Weights
  reports : List InverseReport
  errorTable : List (String × String)
  timeTable : List (String × String)
  files : Files

/-- Lines 477-482: the six text files. -/
def saveAllInverse {dout nx ny : ℕ} (env : MeshFiles) (outputPath : String)
    (M : DriverModel (TrainOutInverse dout × ℝ)) (losses : List (TrainOutInverse dout × ℝ))
    (yPred : Fin nx → Fin ny → ℝ) (yExact : List ℝ) (error : Fin nx → Fin ny → ℝ) (times : List ℝ)
    (files : Files) : Files :=
  saveText env outputPath "inverse_params.txt" (losses.map fun l => env.fmt l.2)
    (saveText env outputPath "time_per_epoch.txt" (times.map env.fmt)
      (saveText env outputPath "error.txt" (matrixLines env.fmt error)
        (saveText env outputPath "exact.txt" (yExact.map env.fmt)
          (saveText env outputPath "prediction.txt" (matrixLines env.fmt yPred)
            (saveText env outputPath "loss_function.txt" (losses.map (M.lossLine env.fmt)) files)))))

/-- Lines 373-482 after the loop (internal mesh): prediction and errors are computed again. -/
noncomputable def finishInverse {dout : ℕ} (mc : Machine) (cfg : InverseConfig)
    (M : DriverModel (TrainOutInverse dout × ℝ)) (points : List (ℝ × ℝ)) (yExact : List ℝ)
    (s : LoopState (TrainOutInverse dout × ℝ) InverseReport) : Except PyErr InverseResult := do
  let times := (List.range s.losses.length).map mc.elapsed
  let yPred ← M.predict s.model.weights points
  let errors ← computeErrorsCombined (array1 yExact) (array1 yPred)
  let _ ← solutionArray yPred yExact
  let exact ← reshapeMatrix cfg.nTestPointsX cfg.nTestPointsY yExact
  let pred ← reshapeMatrix cfg.nTestPointsX cfg.nTestPointsY yPred
  let column ← timeColumnInverse mc.str cfg.epochs times
  return { savedWeights := s.model.weights
           reports := s.reports
           errorTable := printTableRows mc.fmt4 errorLabels (errorColumn errors)
           timeTable := printTableRows mc.fmt4 timeLabelsInverse column
           files := saveAllInverse mc.env cfg.outputPath M s.losses pred yExact
             (fun i j => |exact i j - pred i j|) times s.files }

/-- Lines 216-482 (internal mesh) from the model with initial variables `θ` on. -/
noncomputable def runInverse {dout : ℕ} (mc : Machine) (cfg : InverseConfig) (pb : InverseProblem)
    (P : PreparedInverse) (M : DriverModel (TrainOutInverse dout × ℝ)) (θ : Weights) :
    Except PyErr InverseResult :=
  match P.base.geometry.getTestPoints mc.env P.base.files with
  | (.error e, _, _) => .error e
  | (.ok (.points points), _, files) =>
    let yExact := points.map fun p => pb.exactSolution p.1 p.2
    match contourMatrices cfg.nTestPointsX cfg.nTestPointsY pb.exactSolution points with
    | .error e => .error e
    | .ok m =>
      match plotContour m.1 m.2.1 m.2.2 cfg.outputPath "exact_solution" "Exact Solution" ⟨[], fun _ => none⟩ with
      | .error e => .error e
      | .ok _ =>
        match epochLoop M.step (reportInverse mc cfg P.base.lr M points yExact) cfg.updateConsoleOutput cfg.epochs
            (List.range cfg.epochs) ⟨⟨θ, AdamState.init⟩, [], [], files⟩ with
        | .error e => .error e
        | .ok s => finishInverse mc cfg M points yExact s
  | (.ok _, _, _) => .error .typeError

/-- `main_inverse.py` with network weights `θ` drawn for the layers. -/
noncomputable def mainInverse (mc : Machine) (pb : InverseProblem) (cfg : InverseConfig)
    (sample : Fin 4 → Fin (cfg.nBoundaryPoints / 4) → ℝ)
    (lhs : ℕ → Fin (2 ^ cfg.boundaryRefinementLevel + 1) → ℝ × ℝ) (sensorLhs : (k : ℕ) → Fin k → ℝ × ℝ)
    (randint : ℕ → Fin cfg.numSensorPoints → ℤ) (θ : Weights) (files : Files) : Except PyErr InverseResult :=
  match prepareInverse mc cfg pb sample lhs sensorLhs randint files with
  | .error e => .error e
  | .ok P =>
    runInverse mc cfg pb P (P.model mc cfg pb (outDim P.base.specs))
      (initialInverse θ (paramsAsTensors pb.inverseParams))

/-- `input_inverse.yaml` beside the script (numbers as reals; `generateMeshPlot` is not in the file and not used). -/
noncomputable def configInverse : InverseConfig where
  outputPath := "output/inv_test"
  meshGenerationMethod := "internal"
  generateMeshPlot := false
  meshType := "quadrilateral"
  xMin := -1
  xMax := 1
  yMin := -1
  yMax := 1
  nCellsX := 2
  nCellsY := 2
  nBoundaryPoints := 2000
  nTestPointsX := 100
  nTestPointsY := 100
  meshFileName := "meshes/rect_quad.mesh"
  boundaryRefinementLevel := 8
  boundarySamplingMethod := "uniform"
  feOrder := 10
  feType := "jacobi"
  quadOrder := 40
  quadType := "gauss-jacobi"
  modelArchitecture := [2, 30, 30, 30, 1]
  activation := "tanh"
  useAttention := false
  epochs := 10000
  dtype := "float32"
  learningRate := [("initial_learning_rate", .num 0.001), ("use_lr_scheduler", .bool false),
    ("decay_steps", .num 1000), ("decay_rate", .num 0.9), ("staircase", .bool false)]
  beta := 10
  updateConsoleOutput := 5000
  numSensorPoints := 50

/-- What the script imports: `inverse_uniform.py` and the loss of `poisson2d_inverse.py`. -/
noncomputable def problemInverse : InverseProblem where
  loss := lossPoissonInverse
  boundaryFunctionDict := ConstInverse.boundaryFunctionDict
  rhs := ConstInverse.rhs
  exactSolution := ConstInverse.exactSolution
  bilinearParams := ConstInverse.bilinearParamsDict
  inverseParams := ConstInverse.inverseParamsDict
  inverseActual := ConstInverse.inverseParamsActualDict

end FastVPINNs
