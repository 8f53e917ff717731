import Verif.Model.Models
import Verif.Model.Examples
import Verif.Model.Utils

/-! # `fastvpinns/hyperparameter_tuning/*.py`

Optuna and TensorFlow are external.  A trial is the point of the search space it draws; a study is a list
of numbered trials executed by a pool of workers. -/

namespace FastVPINNs

/-! ## The objective -/

/-- The objects passed to the model constructor. -/
inductive TensorObj (nc nt nq nIn nBd : ℕ)
  | loss (L : LossFunction nc nt nq)
  | mat (m : Fin nc → Fin nt → Fin nq → ℝ)
  | force (f : Fin nt → Fin nc → ℝ)
  | input (x : Fin nIn → ℝ × ℝ)
  | bdPoints (x : Fin nBd → ℝ × ℝ)
  | bdValues (v : Fin nBd → ℝ)

/-- The attributes `train_step` reads from the model object (`model.py:77-95, 110-123`), with the loss
function; a value of another kind stands for TensorFlow's shape errors. -/
def modelTensors {nc nt nq nIn nBd : ℕ} (m : DenseModel (TensorObj nc nt nq nIn nBd)) :
    Except PyErr (LossFunction nc nt nq × ModelData nc nt nq nIn nBd) :=
  match m.core.lossFunction, m.core.preMultiplierVal, m.core.preMultiplierGradX, m.core.preMultiplierGradY,
      m.core.forceMatrix, m.core.inputTensor, m.core.dirichletInput, m.core.dirichletActual with
  | .loss L, .mat v, .mat gx, .mat gy, .force f, .input x, .bdPoints b, .bdValues w =>
    .ok (L, ⟨v, gx, gy, f, x, b, w, m.core.nCells⟩)
  | _, _, _, _, _, _, _, _ => .error .valueError

/-- The hyper-parameters one trial draws (`objective.py:35-68`). -/
structure SearchPoint where
  nCellsX : ℕ
  nCellsY : ℕ
  nBoundaryPoints : ℕ
  feOrder : ℤ
  feType : String
  quadOrder : ℤ
  quadType : String
  hidden : List ℕ
  initialLearningRate : ℝ
  decaySteps : ℕ
  decayRate : ℝ

/-- The values `trial.suggest_*` may return (`objective.py:38-64`; both ends are included). -/
structure SearchPoint.InSpace (p : SearchPoint) : Prop where
  cellsX : 2 ≤ p.nCellsX ∧ p.nCellsX ≤ 10
  cellsY : 2 ≤ p.nCellsY ∧ p.nCellsY ≤ 10
  boundary : 100 ≤ p.nBoundaryPoints ∧ p.nBoundaryPoints ≤ 1000
  order : 2 ≤ p.feOrder ∧ p.feOrder ≤ 8
  type : p.feType ∈ ["legendre", "jacobi"]
  quadrature : 3 ≤ p.quadOrder ∧ p.quadOrder ≤ 15
  quadratureType : p.quadType ∈ ["gauss-legendre", "gauss-jacobi"]
  layers : 1 ≤ p.hidden.length ∧ p.hidden.length ≤ 5 ∧ ∀ n ∈ p.hidden, 10 ≤ n ∧ n ≤ 100
  learningRate : 1e-5 ≤ p.initialLearningRate ∧ p.initialLearningRate ≤ 1e-2
  steps : 1000 ≤ p.decaySteps ∧ p.decaySteps ≤ 10000
  rate : 0.9 ≤ p.decayRate ∧ p.decayRate ≤ 0.99

/-- `config["model"]["model_architecture"]`, `objective.py:50-55`. -/
def SearchPoint.architecture (p : SearchPoint) : List ℕ := [2] ++ p.hidden ++ [1]

/-- `config["model"]["learning_rate"]`, `objective.py:58-65`. -/
def SearchPoint.learningRate (p : SearchPoint) : List (String × PyVal) :=
  [("initial_learning_rate", .num p.initialLearningRate), ("use_lr_scheduler", .bool true),
   ("decay_steps", .num p.decaySteps), ("decay_rate", .num p.decayRate)]

/-- The keyword arguments of `DenseModel(…)`, `objective.py:111-131`; `bd` is the result of
`get_dirichlet_input` (two lists of the same length). -/
noncomputable def objectiveKwargs (p : SearchPoint) {nt nq : ℕ} (D : DataHandler2D nt nq)
    (bd : List (ℝ × ℝ) × List ℝ) (nCells : ℕ) :
    List (String × MVal (TensorObj D.nCells nt nq (D.nCells * nq) bd.1.length)) :=
  [("layer_dims", .dims p.architecture), ("learning_rate_dict", .lr p.learningRate),
   ("params_dict", .params [("n_cells", nCells)]),
   ("loss_function", .obj (.loss (lossPoisson _ _ _))),
   ("input_tensors_list", .objs [.input D.xPde, .bdPoints fun i => bd.1.get i,
     .bdValues fun i => bd.2.getD i.val 0]),
   ("orig_factor_matrices", .objs [.mat D.shapeValMat, .mat D.gradXMat, .mat D.gradYMat]),
   ("force_function_list", .obj (.force D.forcing)), ("tensor_dtype", .dtype true "float32"),
   ("use_attention", .bool false), ("activation", .str "tanh"), ("hessian", .bool false)]

/-- What the trial takes from outside: the quadrature routines, the Latin hypercube samples, the
activations, the attention layer, the initial weights, and the change of the weights by the optimizer in
each epoch (`model.py:293-295`). -/
structure TrialEnv where
  ext : QuadRoutines
  sample : (k : ℕ) → Fin 4 → Fin k → ℝ
  act : String → ℝ → ℝ
  attention : Batch → Except PyErr Batch
  init : ℕ → (i o : ℕ) → Fin i → Fin o → ℝ
  update : ℕ → List DenseLayer → List DenseLayer
  externalVtk : Except PyErr (List (ℝ × ℝ × ℝ))

/-- `for epoch in range(num_epochs): model.train_step(…)`, `objective.py:136-137`: the weights after the
loop; an exception in a step ends it. -/
def trainLoop (step : List DenseLayer → Except PyErr Unit) (update : ℕ → List DenseLayer → List DenseLayer) :
    List ℕ → List DenseLayer → Except PyErr (List DenseLayer)
  | [], layers => .ok layers
  | k :: ks, layers =>
    match step layers with
    | .error e => .error e
    | .ok _ => trainLoop step update ks (update k layers)

/-- The result without its value. -/
def discard {ε α : Type} : Except ε α → Except ε Unit
  | .ok _ => .ok ()
  | .error e => .error e

/-- `hyperparameter_tuning/objective.py:33-145`.  Directories and devices (72-81) are not modelled; the
functions of `sin_cos` are those of `examples/optuna_examples/sin_cos.py`. -/
noncomputable def objective (env : TrialEnv) (p : SearchPoint) (numEpochs : ℕ) : Except PyErr ℝ := do
  -- lines 83-90
  let domain ← (geometry2D "quadrilateral" "internal" 100 100 true).mapError Prod.fst
  let mesh := generateQuadMeshInternal domain (0, 1) (0, 1) p.nCellsX p.nCellsY p.nBoundaryPoints
    (env.sample (p.nBoundaryPoints / 4))
  -- lines 92-107
  let fes ← fespace2D env.ext mesh.meshPoints mesh.cells mesh.bdDict
    ⟨mesh.geometry.meshType, p.feOrder, p.feType, p.quadOrder, p.quadType, "bilinear"⟩
    UniformPoisson.boundaryFunctionDict UniformPoisson.rhs false
  -- line 109
  let dh ← dataHandler2D fes.2 true
  -- lines 111-113
  let bd ← getDirichletInput dh.2
  let bilinear := paramsAsTensors UniformPoisson.bilinearParamsDict
  -- lines 115-131
  let model ← initDense (objectiveKwargs p dh.1 bd dh.2.nCells)
  let dim0 ← pyIndex model.core.layerDims 0
  let tensors ← modelTensors model
  -- lines 134-137
  let layers ← trainLoop
    (fun w => discard (trainStepDense tensors.1 tensors.2
      (networkDense env.act env.attention model.core.useAttention w 1) 10 (some bilinear)))
    env.update (List.range numEpochs) (buildLayers env.init 0 dim0 model.core.layerList)
  -- lines 139-141
  let testPoints ← getTestPoints mesh.geometry env.externalVtk
  let yExact := testPoints.map fun z => UniformPoisson.exactSolution z.1 z.2
  let yPred ← callDense env.act env.attention model.core.useAttention layers
    (testPoints.map fun z => [z.1, z.2])
  -- lines 143-145
  let errors ← computeErrorsCombined ⟨[yExact.length], yExact⟩ ⟨[yPred.flatten.length], yPred.flatten⟩
  return errors.2.2.1

/-! ## The tuner -/

/-- `optuna_tuner.py:43` with `len(self.gpus) = gpus`. -/
def gpuId (trialNumber gpus : ℕ) : Except PyErr ℕ :=
  if gpus = 0 then .error .zeroDivisionError else .ok (trialNumber % gpus)

/-- `optuna_tuner.py:38-45` (`objective_wrapper`): the GPU chosen and the value of the objective; where the
operations are placed does not change the result. -/
noncomputable def objectiveWrapper (env : TrialEnv) (gpus nEpochs trialNumber : ℕ) (p : SearchPoint) :
    Except PyErr (ℕ × ℝ) :=
  match gpuId trialNumber gpus with
  | .error e => .error e
  | .ok i =>
    match objective env p nEpochs with
    | .error e => .error e
    | .ok v => .ok (i, v)

/-- `optuna_tuner.py:55`: the argument `n_jobs` of `study.optimize`. -/
def nJobs (gpus : ℕ) (nJobs : ℤ) : ℤ := min (gpus : ℤ) nJobs

/-- The number of trials Optuna's `study.optimize(n_jobs=n)` runs at the same time: one thread for 1, the
number of CPUs for -1, otherwise the size given to `ThreadPoolExecutor`, which must be positive. -/
def optunaWorkers (cpus : ℕ) (n : ℤ) : Except PyErr ℕ :=
  if n = 1 then .ok 1
  else if n = -1 then .ok cpus
  else if n ≤ 0 then .error .valueError
  else .ok n.toNat

/-- `optuna_tuner.py:47-56` (`run`) up to the trials: how many run at the same time. -/
def tunerWorkers (gpus cpus : ℕ) (jobs : ℤ) : Except PyErr ℕ := optunaWorkers cpus (nJobs gpus jobs)

/-- A study in progress: the trials now running, and the number of the next trial. -/
structure StudyState where
  running : List ℕ
  next : ℕ

/-- One event of a study with `workers` workers and `nTrials` trials: a worker that is free starts the next
trial, or a running trial ends. -/
inductive StudyStep (workers nTrials : ℕ) : StudyState → StudyState → Prop
  | start {s : StudyState} : s.running.length < workers → s.next < nTrials →
      StudyStep workers nTrials s ⟨s.next :: s.running, s.next + 1⟩
  | finish {s : StudyState} (t : ℕ) : t ∈ s.running →
      StudyStep workers nTrials s ⟨s.running.erase t, s.next⟩

/-- The states a study can get into.  The number of the first trial is the number of trials already in the
storage (`load_if_exists=True`). -/
inductive StudyReachable (workers nTrials first : ℕ) : StudyState → Prop
  | init : StudyReachable workers nTrials first ⟨[], first⟩
  | step {s s' : StudyState} : StudyReachable workers nTrials first s →
      StudyStep workers (first + nTrials) s s' → StudyReachable workers nTrials first s'

end FastVPINNs
