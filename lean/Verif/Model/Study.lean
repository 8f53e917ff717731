import Verif.Model.Tuning
import Verif.Model.ConfigFile
import Verif.Model.DriverShipped

/-! # A whole hyper-parameter study, `hyperparameter_tuning/*.py` and `examples/optuna_examples/main.py`

`Model/Tuning.lean` has the objective for arbitrary changes of the weights.  Here the weights are changed by
`train_step`, and the trials of a study run side by side and are stored.

Not modelled: the sampler of Optuna (the points it suggests are arbitrary points of the search space), its
storage (a list of trials), `argparse` (the parsed arguments are given), console output. -/

namespace FastVPINNs

/-- `hyperparameter_tuning/objective.py:33-145` with the initial weights `θ` and the optimizer.  `sample` are the
draws of the boundary points. -/
noncomputable def trainedObjective (mc : Machine) (p : SearchPoint) (numEpochs : ℕ)
    (sample : Fin 4 → Fin (p.nBoundaryPoints / 4) → ℝ) (θ : Weights) : Except PyErr ℝ := do
  -- lines 83-90
  let domain ← (geometry2D "quadrilateral" "internal" 100 100 true).mapError Prod.fst
  let mesh := generateQuadMeshInternal domain (0, 1) (0, 1) p.nCellsX p.nCellsY p.nBoundaryPoints sample
  -- lines 92-107
  let fes ← fespace2D mc.quad mesh.meshPoints mesh.cells mesh.bdDict
    ⟨mesh.geometry.meshType, p.feOrder, p.feType, p.quadOrder, p.quadType, "bilinear"⟩
    UniformPoisson.boundaryFunctionDict UniformPoisson.rhs false
  -- line 109
  let dh ← dataHandler2D fes.2 true
  -- lines 111-113
  let bd ← getDirichletInput dh.2
  let bilinear := paramsAsTensors UniformPoisson.bilinearParamsDict
  -- lines 115-131
  let model ← initDense (objectiveKwargs p dh.1 bd dh.2.nCells)
  let dim0 ← pyIndex model.core.layerDims 0
  let tensors ← modelTensors model
  -- lines 134-137
  let trained ← trainEpochs
    (trainStepWith (forwardDense tensors.1 tensors.2 mc.act mc.attention model.core.useAttention dim0
        model.core.layerList 1 10 (some bilinear))
      (trainableVariables dim0 model.core.layerList []) model.core.learningRate)
    numEpochs ⟨θ, AdamState.init⟩
  -- lines 139-141; the VTK file is read for external meshes only
  let testPoints ← getTestPoints mesh.geometry (.error .valueError)
  let yExact := testPoints.map fun z => UniformPoisson.exactSolution z.1 z.2
  let yPred ← callDense mc.act mc.attention model.core.useAttention
    (layersAt trained.2.weights 0 dim0 model.core.layerList) (testPoints.map fun z => [z.1, z.2])
  -- lines 143-145
  let errors ← computeErrorsCombined (array1 yExact) (array1 yPred.flatten)
  return errors.2.2.1

/-! ## The study -/

/-- The random numbers a trial draws: boundary points and initial weights. -/
structure TrialDraws where
  sample : (n : ℕ) → Fin 4 → Fin n → ℝ
  weights : Weights

/-- `optuna_tuner.py:38-45` (`objective_wrapper`) for the trial with number `t`. -/
noncomputable def trialValue (mc : Machine) (gpus nEpochs : ℕ) (draws : ℕ → TrialDraws) (t : ℕ)
    (p : SearchPoint) : Except PyErr ℝ :=
  match gpuId t gpus with
  | .error e => .error e
  | .ok _ => trainedObjective mc p nEpochs ((draws t).sample _) (draws t).weights

/-- A trial in the storage; the value of a failed trial is `none`. -/
structure StoredTrial where
  number : ℕ
  params : SearchPoint
  value : Option ℝ

/-- A study while `study.optimize` runs: the running trials with their parameters, the finished trials in the
storage (with those of earlier runs), and the number of the next trial. -/
structure TunerState where
  running : List (ℕ × SearchPoint)
  stored : List StoredTrial
  next : ℕ

/-- One event of `study.optimize` with `workers` workers up to the trial number `last`: a free worker starts a
trial with parameters of the search space, or a trial ends with a value and is stored. -/
inductive TunerStep (workers last : ℕ) (value : ℕ → SearchPoint → Except PyErr ℝ) : TunerState → TunerState → Prop
  | start {s : TunerState} (p : SearchPoint) : s.running.length < workers → s.next < last → p.InSpace →
      TunerStep workers last value s ⟨(s.next, p) :: s.running, s.stored, s.next + 1⟩
  | finish {s : TunerState} (l l' : List (ℕ × SearchPoint)) (t : ℕ) (p : SearchPoint) (v : ℝ) :
      s.running = l ++ (t, p) :: l' → value t p = .ok v →
      TunerStep workers last value s ⟨l ++ l', s.stored ++ [⟨t, p, some v⟩], s.next⟩

/-- The states `study.optimize(n_trials=nTrials)` can get into.  `earlier` are the trials that
`create_study(load_if_exists=True)` has found in the storage (`optuna_tuner.py:48-53`). -/
inductive TunerReachable (workers nTrials : ℕ) (value : ℕ → SearchPoint → Except PyErr ℝ)
    (earlier : List StoredTrial) : TunerState → Prop
  | init : TunerReachable workers nTrials value earlier ⟨[], earlier, earlier.length⟩
  | step {s s' : TunerState} : TunerReachable workers nTrials value earlier s →
      TunerStep workers (earlier.length + nTrials) value s s' → TunerReachable workers nTrials value earlier s'

/-- `optuna_tuner.py:47-65` (`run`): what it may return.  An exception of a trial is raised again by
`study.optimize`; without any completed trial `study.best_trial` is a `ValueError`; of several best trials any may
be returned. -/
inductive TunerReturns (gpus cpus : ℕ) (jobs nTrials : ℤ) (value : ℕ → SearchPoint → Except PyErr ℝ)
    (earlier : List StoredTrial) : Except PyErr SearchPoint → Prop
  | pool {e : PyErr} : tunerWorkers gpus cpus jobs = .error e →
      TunerReturns gpus cpus jobs nTrials value earlier (.error e)
  | trial {w : ℕ} {s : TunerState} {t : ℕ} {p : SearchPoint} {e : PyErr} :
      tunerWorkers gpus cpus jobs = .ok w → TunerReachable w nTrials.toNat value earlier s → (t, p) ∈ s.running →
      value t p = .error e → TunerReturns gpus cpus jobs nTrials value earlier (.error e)
  | noTrial {w : ℕ} {s : TunerState} : tunerWorkers gpus cpus jobs = .ok w →
      TunerReachable w nTrials.toNat value earlier s → s.running = [] →
      s.next = earlier.length + nTrials.toNat → (∀ t ∈ s.stored, t.value = none) →
      TunerReturns gpus cpus jobs nTrials value earlier (.error .valueError)
  | best {w : ℕ} {s : TunerState} {t : StoredTrial} {v : ℝ} : tunerWorkers gpus cpus jobs = .ok w →
      TunerReachable w nTrials.toNat value earlier s → s.running = [] →
      s.next = earlier.length + nTrials.toNat → t ∈ s.stored → t.value = some v →
      (∀ t' ∈ s.stored, ∀ v', t'.value = some v' → v ≤ v') →
      TunerReturns gpus cpus jobs nTrials value earlier (.ok t.params)

/-! ## The script `examples/optuna_examples/main.py` -/

/-- The parsed command line, `main.py:38-54`. -/
structure OptunaArgs where
  config : String := "input.yaml"
  optimized : Bool := false
  nTrials : ℤ := 100
  nEpochs : ℤ := 5000

/-- `main.py:99-149`: the same entries as in the other scripts for forward problems, in another order. -/
def readsOptuna : ConfigReads where
  before :=
    [("i_output_path", ["experimentation", "output_path"]),
     ("i_mesh_generation_method", ["geometry", "mesh_generation_method"]),
     ("i_generate_mesh_plot", ["geometry", "generate_mesh_plot"]),
     ("i_mesh_type", ["geometry", "mesh_type"]),
     ("i_x_min", ["geometry", "internal_mesh_params", "x_min"]),
     ("i_x_max", ["geometry", "internal_mesh_params", "x_max"]),
     ("i_y_min", ["geometry", "internal_mesh_params", "y_min"]),
     ("i_y_max", ["geometry", "internal_mesh_params", "y_max"]),
     ("i_n_test_points_x", ["geometry", "internal_mesh_params", "n_test_points_x"]),
     ("i_n_test_points_y", ["geometry", "internal_mesh_params", "n_test_points_y"]),
     ("i_exact_solution_generation", ["geometry", "exact_solution", "exact_solution_generation"]),
     ("i_exact_solution_file_name", ["geometry", "exact_solution", "exact_solution_file_name"]),
     ("i_mesh_file_name", ["geometry", "external_mesh_params", "mesh_file_name"]),
     ("i_boundary_refinement_level", ["geometry", "external_mesh_params", "boundary_refinement_level"]),
     ("i_boundary_sampling_method", ["geometry", "external_mesh_params", "boundary_sampling_method"]),
     ("i_epochs", ["model", "epochs"]),
     ("i_set_memory_growth", ["model", "set_memory_growth"]),
     ("i_update_console_output", ["logging", "update_console_output"]),
     ("i_dtype", ["model", "dtype"])]
  after :=
    [("i_n_cells_x", ["geometry", "internal_mesh_params", "n_cells_x"]),
     ("i_n_cells_y", ["geometry", "internal_mesh_params", "n_cells_y"]),
     ("i_n_boundary_points", ["geometry", "internal_mesh_params", "n_boundary_points"]),
     ("i_fe_order", ["fe", "fe_order"]),
     ("i_fe_type", ["fe", "fe_type"]),
     ("i_quad_order", ["fe", "quad_order"]),
     ("i_quad_type", ["fe", "quad_type"]),
     ("i_model_architecture", ["model", "model_architecture"]),
     ("i_activation", ["model", "activation"]),
     ("i_use_attention", ["model", "use_attention"]),
     ("i_learning_rate_dict", ["model", "learning_rate"]),
     ("i_beta", ["pde", "beta"])]

/-- What the script does: it prints the best parameters and ends, or it trains. -/
inductive OptunaOutcome
  /-- `sys.exit(0)` after the parameters have been printed (`main.py:70-71`). -/
  | printed (best : SearchPoint)
  /-- The end of the script after the training. -/
  | trained (R : RunResult)
  /-- An early end. -/
  | stopped (s : Stop)

/-- `main.py:72-365`: the training with the configuration file.  `exists_` stands for `Path.exists`. -/
noncomputable def optunaTraining (mc : Machine) (exists_ : String → Bool) (load : String → Except PyErr Yaml)
    (config : String) (ω : Draws) (θ : Weights) (files : Files) : OptunaOutcome :=
  if config = "" then .stopped (.exit 1)
  else if exists_ config = false then .stopped (.exit 1)
  else
    match load config with
    | .error e => .stopped (.raised e)
    | .ok y =>
      match readsOptuna.run y with
      | .error e => .stopped (.raised e)
      | .ok vars =>
        match forwardConfigOf vars (typedVar vars Yaml.asBool "i_generate_mesh_plot") with
        | none => .stopped .unexpectedType
        | some cfg =>
          match mainUniform mc problemUniformPoisson cfg (ω.sample _) θ files with
          | .error e => .stopped (.raised e)
          | .ok R => .trained R

/-- `main.py:35-365`: what the script may do with the given arguments. -/
inductive OptunaMain (mc : Machine) (gpus cpus : ℕ) (draws : ℕ → TrialDraws) (earlier : List StoredTrial)
    (exists_ : String → Bool) (load : String → Except PyErr Yaml) (ω : Draws) (θ : Weights) (files : Files)
    (args : OptunaArgs) : OptunaOutcome → Prop
  | tuned {best : SearchPoint} : args.optimized = true →
      TunerReturns gpus cpus gpus args.nTrials (trialValue mc gpus args.nEpochs.toNat draws) earlier (.ok best) →
      OptunaMain mc gpus cpus draws earlier exists_ load ω θ files args (.printed best)
  | failed {e : PyErr} : args.optimized = true →
      TunerReturns gpus cpus gpus args.nTrials (trialValue mc gpus args.nEpochs.toNat draws) earlier (.error e) →
      OptunaMain mc gpus cpus draws earlier exists_ load ω θ files args (.stopped (.raised e))
  | training : args.optimized = false →
      OptunaMain mc gpus cpus draws earlier exists_ load ω θ files args
        (optunaTraining mc exists_ load args.config ω θ files)

end FastVPINNs
