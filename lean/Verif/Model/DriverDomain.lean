import Verif.Model.DriverInverse

/-! # The driver scripts for the inverse problem with a space-dependent coefficient

`/repo/examples/inverse_problems_2d/domain_inverse_cd2d/USA/main_inverse_domain_usa.py` and
`circle/main_inverse_domain_circle.py`.  Line numbers without file name are those of the first; those of the
second are larger by 2 from line 173 on and by 4 from line 213 on.  What the scripts have in common with the others
is taken from `Model/Driver.lean` and `Model/DriverInverse.lean`, with the same parts left out. -/

namespace FastVPINNs

/-- What the drivers import from the example file, and the loss; `actualEps` is the entry `eps` of
`get_inverse_params_actual_dict`. -/
structure DomainProblem extends Problem where
  actualEps : ℝ → ℝ → ℝ

/-- Where the two scripts take sensors and exact values from.  `usa`: from the test points, in the order produced by
`tf.random.shuffle`.  `circle`: from the lines of the CSV file (columns 0 to 2), with the draws of
`get_sensor_data`. -/
inductive DomainSource (n : ℕ)
  | usa (shuffle : List (ℝ × ℝ) → List (ℝ × ℝ))
  | circle (csv : List (ℝ × ℝ × ℝ)) (lhs : (k : ℕ) → Fin k → ℝ × ℝ) (randint : ℕ → Fin n → ℤ)

/-- Lines 167-172 (with `datahandler2d.py:131-140`, `get_test_points`) and `main_inverse_domain_circle.py:169-174`;
the geometry is returned as `get_test_points` leaves it. -/
noncomputable def DomainSource.sensors {n : ℕ} (src : DomainSource n) (env : MeshFiles) (method : String)
    (pb : DomainProblem) {nt nq : ℕ} (S : Fespace2D (ℝ → ℝ → ℝ) ℝ nt nq) (o : GeometryObject) (files : Files) :
    Except PyErr ((List (ℝ × ℝ) × List ℝ) × GeometryObject) :=
  match src with
  | .usa shuffle =>
    match o.getTestPoints env files with
    | (.error e, _, _) => .error e
    | (.ok (.points points), o, _) =>
      let points := (shuffle points).take n
      .ok ((points, points.map fun p => pb.exactSolution p.1 p.2), o)
    | (.ok _, _, _) => .error .typeError
  | .circle csv lhs randint =>
    match getSensorData S pb.exactSolution n method lhs (some csv) randint with
    | .error e => .error e
    | .ok sensor => .ok (sensor, o)

/-- `y_exact`: line 211 and `main_inverse_domain_circle.py:213-214` (`pd.read_csv(…, header=None).iloc[:, 2]`;
`EmptyDataError`, a `ValueError`, if there is no line). -/
noncomputable def DomainSource.exact {n : ℕ} (src : DomainSource n) (pb : DomainProblem)
    (points : List (ℝ × ℝ)) : Except PyErr (List ℝ) :=
  match src with
  | .usa _ => .ok (points.map fun p => pb.exactSolution p.1 p.2)
  | .circle csv _ _ => if csv = [] then .error .valueError else .ok (csv.map fun r => r.2.2)

/-- The objects built before the training; `geometry` is the geometry after the sensors have been chosen. -/
structure PreparedDomain where
  base : Prepared
  sensor : List (ℝ × ℝ) × List ℝ
  geometry : GeometryObject

/-- Lines 134-193: function space, data handler, boundary data, sensors and model. -/
noncomputable def prepareDomainModel (mc : Machine) (cfg : InverseConfig) (pb : DomainProblem)
    (src : DomainSource cfg.numSensorPoints) (o : GeometryObject)
    (files : Files) (cells : List Quad) (bd : BdDict) : Except PyErr PreparedDomain :=
  match fespace2D mc.quad ((o.mesh.map StoredMesh.planePoints).getD []) cells bd
      ⟨o.meshType, cfg.feOrder, cfg.feType, cfg.quadOrder, cfg.quadType, "bilinear"⟩
      pb.boundaryFunctionDict pb.rhs false with
  | .error e => .error e
  | .ok ⟨nq, S⟩ =>
    match dataHandler2D S true with
    | .error e => .error e
    | .ok (D, S') =>
      match getDirichletInput S' with
      | .error e => .error e
      | .ok bdv =>
        match src.sensors mc.env cfg.meshGenerationMethod pb S' o files with
        | .error e => .error e
        | .ok (sensor, o') =>
          match learningRateFn cfg.learningRate with
          | .error e => .error e
          | .ok lr =>
            match layerSpecs cfg.modelArchitecture cfg.activation with
            | .error e => .error e
            | .ok specs =>
              match pyIndex cfg.modelArchitecture 0 with
              | .error e => .error e
              | .ok inDim => .ok ⟨⟨_, nq, D, bdv, S'.nCells, inDim, specs, lr, o, files⟩, sensor, o'⟩

/-- Lines 81-193.  `sample` are the draws of boundary points on the rectangle, `lhs` those on the edges of a mesh
file. -/
noncomputable def prepareDomain (mc : Machine) (cfg : InverseConfig) (pb : DomainProblem)
    (src : DomainSource cfg.numSensorPoints) (sample : Fin 4 → Fin (cfg.nBoundaryPoints / 4) → ℝ)
    (lhs : ℕ → Fin (2 ^ cfg.boundaryRefinementLevel + 1) → ℝ × ℝ) (files : Files) :
    Except PyErr PreparedDomain :=
  if cfg.dtype ∉ ["float64", "float32"] then .error .valueError
  else
    match newGeometry cfg.meshType cfg.meshGenerationMethod cfg.nTestPointsX cfg.nTestPointsY
        cfg.outputPath false with
    | .error e => .error e.1
    | .ok o =>
      match (if cfg.meshGenerationMethod = "external" then
          o.readMesh mc.env files cfg.meshFileName cfg.boundaryRefinementLevel cfg.boundarySamplingMethod lhs
        else if cfg.meshGenerationMethod = "internal" then
          o.generateInternal mc.env files (cfg.xMin, cfg.xMax) (cfg.yMin, cfg.yMax) cfg.nCellsX
            cfg.nCellsY cfg.nBoundaryPoints sample
        else (.error .nameError, o, files)) with
      | (.error e, _, _) => .error e
      | (.ok (.mesh cells bd), o, files) => prepareDomainModel mc cfg pb src o files cells (bdPairs bd)
      | (.ok _, _, _) => .error .typeError

/-- A `DenseModel_Inverse_Domain` with `dout` outputs in the driver. -/
noncomputable def PreparedDomain.model (P : PreparedDomain) (mc : Machine) (cfg : InverseConfig)
    (pb : DomainProblem) (dout : ℕ) : DriverModel (TrainOutInverse 1) where
  step := fun s =>
    if P.base.inDim = 2 then
      trainStepWith (forwardInverseDomain (pb.loss P.base.data.nCells P.base.nt P.base.nq)
        (modelDataOf P.base.data P.base.dirichlet P.base.nCells) mc.act mc.attention cfg.useAttention
        P.base.inDim P.base.specs dout cfg.beta (some (paramsAsTensors pb.bilinearParams))
        (fun i => P.sensor.1.get i) (fun i => P.sensor.2.getD i.val 0))
        (trainableVariables P.base.inDim P.base.specs []) P.base.lr s
    else .error .valueError
  call := fun θ => callDense mc.act mc.attention cfg.useAttention (layersAt θ 0 P.base.inDim P.base.specs)
  lossLine := fun fmt out => " ".intercalate (List.ofFn fun j => fmt (out.loss j))
  floats := fun out =>
    match floatOf out.lossDirichlet, floatOf out.loss with
    | .ok b, .ok l => .ok (out.lossPde, b, l)
    | .error e, _ => .error e
    | _, .error e => .error e

/-- `y[:, j]` of a two-dimensional array. -/
def batchColumn (b : Batch) (j : ℕ) : Except PyErr (List ℝ) :=
  mapE (fun r : List ℝ =>
    match r[j]? with
    | some v => .ok v
    | none => .error .indexError) b

/-- What lines 277-421 bind and print. -/
structure DomainReport extends Report where
  meanTime : ℝ
  perSecond : ℤ
  sensorLoss : ℝ
  invErrors : ErrorValues
  invPred : List ℝ

/-- Lines 407-414: the columns of `np.c_[…]` (lists of the same length). -/
noncomputable def domainArray (yPred yExact invPred actual : List ℝ) :
    Except PyErr (Fin yPred.length → Fin 6 → ℝ) :=
  if yExact.length = yPred.length ∧ invPred.length = yPred.length ∧ actual.length = yPred.length then
    .ok fun k => ![yPred.getD k 0, yExact.getD k 0, |yExact.getD k 0 - yPred.getD k 0|,
      invPred.getD k 0, actual.getD k 0, |actual.getD k 0 - invPred.getD k 0|]
  else .error .valueError

/-- Lines 406-421. -/
noncomputable def writeDomain (env : MeshFiles) (o : GeometryObject) (outputPath : String)
    (yPred yExact invPred actual : List ℝ) (epoch : ℕ) (files : Files) : Except PyErr Files :=
  match domainArray yPred yExact invPred actual with
  | .error e => .error e
  | .ok solution =>
    match o.writeVtk env files solution outputPath ("prediction_" ++ toString (epoch + 1) ++ ".vtk")
        ["Sol", "Exact", "Error", "Inv", "ExactInv", "InvError"] with
    | (.error e, _, _) => .error e
    | (.ok _, _, files) => .ok files

/-- Lines 352-421: the reshapes (internal mesh) or the VTK file (external mesh); for another method `error` stays
unbound (line 474).  The reshaped arrays are kept flat here: they enter later computations only entry by entry or
flattened (`compute_errors_combined`), and `np.savetxt`, see `arrayLines`. -/
noncomputable def outputDomain (mc : Machine) (cfg : InverseConfig) (o : GeometryObject)
    (yPred yExact invPred actual : List ℝ) (epoch : ℕ) (files : Files) : Except PyErr Files :=
  if cfg.meshGenerationMethod = "internal" then do
    let _ ← reshapeMatrix cfg.nTestPointsX cfg.nTestPointsY yPred
    let _ ← reshapeMatrix cfg.nTestPointsX cfg.nTestPointsY invPred
    let _ ← reshapeMatrix cfg.nTestPointsX cfg.nTestPointsY actual
    return files
  else if cfg.meshGenerationMethod = "external" then
    writeDomain mc.env o cfg.outputPath yPred yExact invPred actual epoch files
  else .error .nameError

/-- Lines 277-421. -/
noncomputable def reportDomain (mc : Machine) (cfg : InverseConfig) (lr : LearningRate) (o : GeometryObject)
    (M : DriverModel (TrainOutInverse 1)) (points : List (ℝ × ℝ)) (yExact actual : List ℝ) (epoch : ℕ)
    (loss : TrainOutInverse 1) (model : TrainState) (files : Files) : Except PyErr (DomainReport × Files) := do
  let times := pyTail ((List.range (epoch + 1)).map mc.elapsed) cfg.updateConsoleOutput
  let b ← M.call model.weights (points.map fun p => [p.1, p.2])
  let yPred ← batchColumn b 0
  let invPred ← batchColumn b 1
  let errors ← computeErrorsCombined (array1 yExact) (array1 yPred)
  let invErrors ← computeErrorsCombined (array1 actual) (array1 invPred)
  let sensor ← floatOf loss.sensorLoss
  let l ← M.floats loss
  let rate ← ratePerSecond cfg.updateConsoleOutput times
  let _ ← mc.lrNumpy lr
  let diff ← npSub yExact yPred
  let files ← outputDomain mc cfg o yPred yExact invPred actual epoch files
  return (⟨⟨epoch, l.1, l.2.1, l.2.2, errors, yPred, diff.map (|·|)⟩, npMean times, rate, sensor, invErrors,
    invPred⟩, files)

/-- The labels of the table of times, lines 450-457: a comma is missing on line 455, so that two of them are one
string. -/
def timeLabelsDomain : List String :=
  ["Time per Epoch(s) - Median", "Time per Epoch(s) IQR-25% ", "Time per Epoch(s) IQR-75% ",
   "Mean without first(s)", "Mean with first(s)" ++ "Epochs per second", "Total Train Time"]

/-- The lines `np.savetxt` writes for an array of values at the test points: a matrix for an internal mesh (lines
354-363), else a vector. -/
def arrayLines (fmt : ℝ → String) (cfg : InverseConfig) (a : List ℝ) : Except PyErr (List String) :=
  if cfg.meshGenerationMethod = "internal" then
    match reshapeMatrix cfg.nTestPointsX cfg.nTestPointsY a with
    | .error e => .error e
    | .ok A => .ok (matrixLines fmt A)
  else .ok (a.map fmt)

/-- What a run leaves behind. -/
structure DomainResult where
  savedWeights : Weights
  reports : List DomainReport
  errorTable : List (String × String)
  timeTable : List (String × String)
  files : Files

/-- Lines 427-479: nothing is computed again; the variables of the report block are unbound if there has been no
report. -/
noncomputable def finishDomain (mc : Machine) (cfg : InverseConfig) (M : DriverModel (TrainOutInverse 1))
    (yExact actual : List ℝ) (s : LoopState (TrainOutInverse 1) DomainReport) : Except PyErr DomainResult :=
  match s.reports.getLast? with
  | none => .error .nameError
  | some r => do
    let times := (List.range s.losses.length).map mc.elapsed
    let column ← timeColumnInverse mc.str cfg.epochs times
    let pred ← arrayLines mc.env.fmt cfg r.yPred
    let error ← arrayLines mc.env.fmt cfg r.error
    let inv ← arrayLines mc.env.fmt cfg r.invPred
    let invDiff ← npSub actual r.invPred
    let invError ← arrayLines mc.env.fmt cfg (invDiff.map (|·|))
    return { savedWeights := s.model.weights
             reports := s.reports
             errorTable := printTableRows mc.fmt4 errorLabels (errorColumn r.errors)
             timeTable := printTableRows mc.fmt4 timeLabelsDomain column
             files := saveText mc.env cfg.outputPath "inverse_error.txt" invError
               (saveText mc.env cfg.outputPath "inverse_prediction.txt" inv
               (saveText mc.env cfg.outputPath "time_per_epoch.txt" (times.map mc.env.fmt)
               (saveText mc.env cfg.outputPath "error.txt" error
               (saveText mc.env cfg.outputPath "exact.txt" (yExact.map mc.env.fmt)
               (saveText mc.env cfg.outputPath "prediction.txt" pred
               (saveText mc.env cfg.outputPath "sensor_loss.txt"
                 (s.losses.map fun l => " ".intercalate (List.ofFn fun j => mc.env.fmt (l.sensorLoss j)))
               (saveText mc.env cfg.outputPath "loss_function.txt" (s.losses.map (M.lossLine mc.env.fmt))
                 s.files))))))) }

/-- Lines 213-228: the contour plot of the exact solution (internal mesh); here only its exceptions. -/
def domainContour (cfg : InverseConfig) (points : List (ℝ × ℝ)) (yExact : List ℝ) : Except PyErr Unit :=
  if cfg.meshGenerationMethod = "internal" then do
    let X ← reshapeMatrix cfg.nTestPointsX cfg.nTestPointsY (points.map Prod.fst)
    let Y ← reshapeMatrix cfg.nTestPointsX cfg.nTestPointsY (points.map Prod.snd)
    let Z ← reshapeMatrix cfg.nTestPointsX cfg.nTestPointsY yExact
    let _ ← plotContour X Y Z cfg.outputPath "exact_solution" "Exact Solution" ⟨[], fun _ => none⟩
    return ()
  else .ok ()

/-- Lines 207-479 from the model with initial weights `θ` on. -/
noncomputable def runDomain (mc : Machine) (cfg : InverseConfig) (pb : DomainProblem)
    (src : DomainSource cfg.numSensorPoints) (P : PreparedDomain) (M : DriverModel (TrainOutInverse 1))
    (θ : Weights) : Except PyErr DomainResult :=
  match P.geometry.getTestPoints mc.env P.base.files with
  | (.error e, _, _) => .error e
  | (.ok (.points points), o, files) =>
    match src.exact pb points with
    | .error e => .error e
    | .ok yExact =>
      match domainContour cfg points yExact with
      | .error e => .error e
      | .ok _ =>
        let actual := points.map fun p => pb.actualEps p.1 p.2
        match epochLoop M.step (reportDomain mc cfg P.base.lr o M points yExact actual) cfg.updateConsoleOutput
            cfg.epochs (List.range cfg.epochs) ⟨⟨θ, AdamState.init⟩, [], [], files⟩ with
        | .error e => .error e
        | .ok s => finishDomain mc cfg M yExact actual s
  | (.ok _, _, _) => .error .typeError

/-- The two scripts with network weights `θ` drawn for the layers. -/
noncomputable def mainDomain (mc : Machine) (pb : DomainProblem) (cfg : InverseConfig)
    (src : DomainSource cfg.numSensorPoints) (sample : Fin 4 → Fin (cfg.nBoundaryPoints / 4) → ℝ)
    (lhs : ℕ → Fin (2 ^ cfg.boundaryRefinementLevel + 1) → ℝ × ℝ) (θ : Weights) (files : Files) :
    Except PyErr DomainResult :=
  match prepareDomain mc cfg pb src sample lhs files with
  | .error e => .error e
  | .ok P => runDomain mc cfg pb src P (P.model mc cfg pb (outDim P.base.specs)) θ

/-- `main_inverse_domain_usa.py`. -/
noncomputable def mainUsa (mc : Machine) (pb : DomainProblem) (cfg : InverseConfig)
    (shuffle : List (ℝ × ℝ) → List (ℝ × ℝ)) (sample : Fin 4 → Fin (cfg.nBoundaryPoints / 4) → ℝ)
    (lhs : ℕ → Fin (2 ^ cfg.boundaryRefinementLevel + 1) → ℝ × ℝ) (θ : Weights) (files : Files) :
    Except PyErr DomainResult :=
  mainDomain mc pb cfg (.usa shuffle) sample lhs θ files

/-- `main_inverse_domain_circle.py`; `csv` are the lines of the sensor data file. -/
noncomputable def mainCircle (mc : Machine) (pb : DomainProblem) (cfg : InverseConfig)
    (csv : List (ℝ × ℝ × ℝ)) (sensorLhs : (k : ℕ) → Fin k → ℝ × ℝ) (randint : ℕ → Fin cfg.numSensorPoints → ℤ)
    (sample : Fin 4 → Fin (cfg.nBoundaryPoints / 4) → ℝ)
    (lhs : ℕ → Fin (2 ^ cfg.boundaryRefinementLevel + 1) → ℝ × ℝ) (θ : Weights) (files : Files) :
    Except PyErr DomainResult :=
  mainDomain mc pb cfg (.circle csv sensorLhs randint) sample lhs θ files

/-- `USA/input_inverse_domain.yaml` (numbers as reals; `generateMeshPlot` is not in the file and not used). -/
noncomputable def configDomainUsa : InverseConfig where
  outputPath := "output/usa_2"
  meshGenerationMethod := "external"
  generateMeshPlot := false
  meshType := "quadrilateral"
  xMin := 0
  xMax := 1
  yMin := 0
  yMax := 1
  nCellsX := 20
  nCellsY := 20
  nBoundaryPoints := 1500
  nTestPointsX := 100
  nTestPointsY := 100
  meshFileName := "usa.mesh"
  boundaryRefinementLevel := 2
  boundarySamplingMethod := "uniform"
  feOrder := 4
  feType := "jacobi"
  quadOrder := 5
  quadType := "gauss-jacobi"
  modelArchitecture := [2, 30, 30, 30, 2]
  activation := "tanh"
  useAttention := false
  epochs := 20000
  dtype := "float32"
  learningRate := [("initial_learning_rate", .num 0.002), ("use_lr_scheduler", .bool true),
    ("decay_steps", .num 1000), ("decay_rate", .num 0.99), ("staircase", .bool true)]
  beta := 10
  updateConsoleOutput := 5000
  numSensorPoints := 500

/-- `circle/input_inverse_domain.yaml`. -/
noncomputable def configDomainCircle : InverseConfig :=
  { configDomainUsa with
    outputPath := "output/inverse/circle_1"
    meshFileName := "circle_quad.mesh"
    feOrder := 3
    epochs := 50000
    learningRate := [("initial_learning_rate", .num 0.003), ("use_lr_scheduler", .bool false),
      ("decay_steps", .num 1000), ("decay_rate", .num 0.98), ("staircase", .bool true)] }

/-- What the first script imports: `cd2d_inverse_usa_example.py` and the loss of `cd2d_inverse_domain.py`. -/
noncomputable def problemDomainUsa : DomainProblem where
  loss := lossCd2dInverseDomain
  boundaryFunctionDict := DomainInverseUSA.boundaryFunctionDict
  rhs := DomainInverseUSA.rhs
  exactSolution := DomainInverseUSA.exactSolution
  bilinearParams := DomainInverseUSA.bilinearParamsDict
  actualEps := DomainInverseUSA.actualEps

/-- What the second script imports: `cd2d_inverse_circle_example.py` and the same loss. -/
noncomputable def problemDomainCircle : DomainProblem where
  loss := lossCd2dInverseDomain
  boundaryFunctionDict := DomainInverseCircle.boundaryFunctionDict
  rhs := DomainInverseCircle.rhs
  exactSolution := DomainInverseCircle.exactSolution
  bilinearParams := DomainInverseCircle.bilinearParamsDict
  actualEps := DomainInverseCircle.actualEps

end FastVPINNs
