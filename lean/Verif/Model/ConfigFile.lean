import Verif.Model.DriverGear

/-! # Reading the configuration file

The start of every script: the command line, the YAML file and the assignments `i_… = config[…][…]`.
Line numbers without file name are those of
`examples/forward_problems_2d/uniform_mesh/poisson_2d/main_poisson2d.py`; the start of the other scripts for
forward problems is the same text.  What `yaml.safe_load` returns is a tree; the creation of the output folder
(lines 96-100) is left out, and so is what Python does with entries of an unexpected type. -/

namespace FastVPINNs

/-- What `yaml.safe_load` returns.  The keys of a mapping are distinct strings; numbers are integers or floats. -/
inductive Yaml
  | null
  | bool (b : Bool)
  | int (n : ℤ)
  | float (x : ℝ)
  | str (s : String)
  | list (l : List Yaml)
  | dict (d : List (String × Yaml))

/-- `y[k]` for a string `k`: a `KeyError` for a mapping without this key, a `TypeError` for anything that is not a
mapping. -/
def Yaml.get : Yaml → String → Except PyErr Yaml
  | .dict d, k =>
    match d.lookup k with
    | some v => .ok v
    | none => .error .keyError
  | _, _ => .error .typeError

/-- `y[k₁][k₂]…`. -/
def Yaml.getPath (y : Yaml) : List String → Except PyErr Yaml
  | [] => .ok y
  | k :: path =>
    match y.get k with
    | .error e => .error e
    | .ok v => v.getPath path

/-- Assignments `name = config[k₁][k₂]…`, executed in order: the variables bound. -/
def readVars (config : Yaml) : List (String × List String) → Except PyErr (List (String × Yaml))
  | [] => .ok []
  | (name, path) :: rest =>
    match config.getPath path with
    | .error e => .error e
    | .ok v =>
      match readVars config rest with
      | .error e => .error e
      | .ok vars => .ok ((name, v) :: vars)

/-- The assignments of a script, before and after the check of the data type. -/
structure ConfigReads where
  before : List (String × List String)
  after : List (String × List String)

/-- Lines 51-59. -/
def readsInternal : List (String × List String) :=
  [("i_x_min", ["geometry", "internal_mesh_params", "x_min"]),
   ("i_x_max", ["geometry", "internal_mesh_params", "x_max"]),
   ("i_y_min", ["geometry", "internal_mesh_params", "y_min"]),
   ("i_y_max", ["geometry", "internal_mesh_params", "y_max"]),
   ("i_n_cells_x", ["geometry", "internal_mesh_params", "n_cells_x"]),
   ("i_n_cells_y", ["geometry", "internal_mesh_params", "n_cells_y"]),
   ("i_n_boundary_points", ["geometry", "internal_mesh_params", "n_boundary_points"]),
   ("i_n_test_points_x", ["geometry", "internal_mesh_params", "n_test_points_x"]),
   ("i_n_test_points_y", ["geometry", "internal_mesh_params", "n_test_points_y"])]

/-- Lines 60-61. -/
def readsExact : List (String × List String) :=
  [("i_exact_solution_generation", ["geometry", "exact_solution", "exact_solution_generation"]),
   ("i_exact_solution_file_name", ["geometry", "exact_solution", "exact_solution_file_name"])]

/-- Lines 63-79. -/
def readsRest : List (String × List String) :=
  [("i_mesh_file_name", ["geometry", "external_mesh_params", "mesh_file_name"]),
   ("i_boundary_refinement_level", ["geometry", "external_mesh_params", "boundary_refinement_level"]),
   ("i_boundary_sampling_method", ["geometry", "external_mesh_params", "boundary_sampling_method"]),
   ("i_fe_order", ["fe", "fe_order"]),
   ("i_fe_type", ["fe", "fe_type"]),
   ("i_quad_order", ["fe", "quad_order"]),
   ("i_quad_type", ["fe", "quad_type"]),
   ("i_model_architecture", ["model", "model_architecture"]),
   ("i_activation", ["model", "activation"]),
   ("i_use_attention", ["model", "use_attention"]),
   ("i_epochs", ["model", "epochs"]),
   ("i_dtype", ["model", "dtype"])]

/-- Lines 46-80 and 89-94. -/
def readsForward : ConfigReads where
  before :=
    [("i_output_path", ["experimentation", "output_path"]),
     ("i_mesh_generation_method", ["geometry", "mesh_generation_method"]),
     ("i_generate_mesh_plot", ["geometry", "generate_mesh_plot"]),
     ("i_mesh_type", ["geometry", "mesh_type"])] ++ readsInternal ++ readsExact ++ readsRest
  after :=
    [("i_set_memory_growth", ["model", "set_memory_growth"]),
     ("i_learning_rate_dict", ["model", "learning_rate"]),
     ("i_beta", ["pde", "beta"]),
     ("i_update_console_output", ["logging", "update_console_output"])]

/-- `hard_boundary_constraints/poisson_2d/main_poisson2d_hard.py:46-92`: without the two entries on the exact
solution. -/
def readsHard : ConfigReads where
  before :=
    [("i_output_path", ["experimentation", "output_path"]),
     ("i_mesh_generation_method", ["geometry", "mesh_generation_method"]),
     ("i_generate_mesh_plot", ["geometry", "generate_mesh_plot"]),
     ("i_mesh_type", ["geometry", "mesh_type"])] ++ readsInternal ++ readsRest
  after := readsForward.after

/-- `inverse_problems_2d/const_inverse_poisson2d/main_inverse.py:54-101` and
`domain_inverse_cd2d/USA/main_inverse_domain_usa.py:51-99`: also without `generate_mesh_plot`, and with the number
of sensors. -/
def readsInverse : ConfigReads where
  before :=
    [("i_output_path", ["experimentation", "output_path"]),
     ("i_mesh_generation_method", ["geometry", "mesh_generation_method"]),
     ("i_mesh_type", ["geometry", "mesh_type"])] ++ readsInternal ++ readsRest
  after :=
    [("i_set_memory_growth", ["model", "set_memory_growth"]),
     ("i_learning_rate_dict", ["model", "learning_rate"]),
     ("i_num_sensor_points", ["inverse", "num_sensor_points"]),
     ("i_beta", ["pde", "beta"]),
     ("i_update_console_output", ["logging", "update_console_output"])]

/-- `domain_inverse_cd2d/circle/main_inverse_domain_circle.py:51-99`: also the name of the sensor file. -/
def readsCircle : ConfigReads where
  before := readsInverse.before
  after :=
    [("i_set_memory_growth", ["model", "set_memory_growth"]),
     ("i_learning_rate_dict", ["model", "learning_rate"]),
     ("i_num_sensor_points", ["inverse", "num_sensor_points"]),
     ("i_sensor_data_file", ["inverse", "sensor_data_file"]),
     ("i_beta", ["pde", "beta"]),
     ("i_update_console_output", ["logging", "update_console_output"])]

/-- Lines 46-94 of a script: the variables, with the check of the data type (lines 81-87) in between. -/
def ConfigReads.run (r : ConfigReads) (config : Yaml) : Except PyErr (List (String × Yaml)) :=
  match readVars config r.before with
  | .error e => .error e
  | .ok vars =>
    match vars.lookup "i_dtype" with
    | some (.str dtype) =>
      if dtype = "float64" ∨ dtype = "float32" then
        match readVars config r.after with
        | .error e => .error e
        | .ok vars' => .ok (vars ++ vars')
      else .error .valueError
    | _ => .error .valueError

/-! ## The variables with the types of the configurations -/

/-- A number. -/
def Yaml.asNum : Yaml → Option ℝ
  | .int n => some n
  | .float x => some x
  | _ => none

/-- A non-negative integer. -/
def Yaml.asNat : Yaml → Option ℕ
  | .int n => if 0 ≤ n then some n.toNat else none
  | _ => none

/-- An integer. -/
def Yaml.asInt : Yaml → Option ℤ
  | .int n => some n
  | _ => none

/-- A string. -/
def Yaml.asStr : Yaml → Option String
  | .str s => some s
  | _ => none

/-- A truth value. -/
def Yaml.asBool : Yaml → Option Bool
  | .bool b => some b
  | _ => none

/-- A list of non-negative integers. -/
def Yaml.asNats : Yaml → Option (List ℕ)
  | .list l => l.mapM Yaml.asNat
  | _ => none

/-- A value of the learning-rate dictionary. -/
def Yaml.asPyVal : Yaml → Option PyVal
  | .int n => some (.num n)
  | .float x => some (.num x)
  | .bool b => some (.bool b)
  | _ => none

/-- The learning-rate dictionary. -/
def Yaml.asRates : Yaml → Option (List (String × PyVal))
  | .dict d => d.mapM fun e => e.2.asPyVal.map fun v => (e.1, v)
  | _ => none

/-- A variable of the script with a type. -/
def typedVar {α : Type} (vars : List (String × Yaml)) (as : Yaml → Option α) (name : String) : Option α :=
  (vars.lookup name).bind as

/-- The configuration used by the rest of the script; `plot` is the variable `i_generate_mesh_plot`, or `False` in
the scripts that do not have it. -/
def forwardConfigOf (vars : List (String × Yaml)) (plot : Option Bool) : Option ForwardConfig := do
  return {
    outputPath := ← typedVar vars Yaml.asStr "i_output_path"
    meshGenerationMethod := ← typedVar vars Yaml.asStr "i_mesh_generation_method"
    generateMeshPlot := ← plot
    meshType := ← typedVar vars Yaml.asStr "i_mesh_type"
    xMin := ← typedVar vars Yaml.asNum "i_x_min"
    xMax := ← typedVar vars Yaml.asNum "i_x_max"
    yMin := ← typedVar vars Yaml.asNum "i_y_min"
    yMax := ← typedVar vars Yaml.asNum "i_y_max"
    nCellsX := ← typedVar vars Yaml.asNat "i_n_cells_x"
    nCellsY := ← typedVar vars Yaml.asNat "i_n_cells_y"
    nBoundaryPoints := ← typedVar vars Yaml.asNat "i_n_boundary_points"
    nTestPointsX := ← typedVar vars Yaml.asNat "i_n_test_points_x"
    nTestPointsY := ← typedVar vars Yaml.asNat "i_n_test_points_y"
    meshFileName := ← typedVar vars Yaml.asStr "i_mesh_file_name"
    boundaryRefinementLevel := ← typedVar vars Yaml.asNat "i_boundary_refinement_level"
    boundarySamplingMethod := ← typedVar vars Yaml.asStr "i_boundary_sampling_method"
    feOrder := ← typedVar vars Yaml.asInt "i_fe_order"
    feType := ← typedVar vars Yaml.asStr "i_fe_type"
    quadOrder := ← typedVar vars Yaml.asInt "i_quad_order"
    quadType := ← typedVar vars Yaml.asStr "i_quad_type"
    modelArchitecture := ← typedVar vars Yaml.asNats "i_model_architecture"
    activation := ← typedVar vars Yaml.asStr "i_activation"
    useAttention := ← typedVar vars Yaml.asBool "i_use_attention"
    epochs := ← typedVar vars Yaml.asNat "i_epochs"
    dtype := ← typedVar vars Yaml.asStr "i_dtype"
    learningRate := ← typedVar vars Yaml.asRates "i_learning_rate_dict"
    beta := ← typedVar vars Yaml.asNum "i_beta"
    updateConsoleOutput := ← typedVar vars Yaml.asInt "i_update_console_output" }

/-- The configuration of the gear script. -/
def gearConfigOf (vars : List (String × Yaml)) : Option GearConfig := do
  let cfg ← forwardConfigOf vars (typedVar vars Yaml.asBool "i_generate_mesh_plot")
  let generation ← typedVar vars Yaml.asStr "i_exact_solution_generation"
  let file ← typedVar vars Yaml.asStr "i_exact_solution_file_name"
  return { cfg with exactSolutionGeneration := generation, exactSolutionFileName := file }

/-- The configuration of the scripts for inverse problems. -/
def inverseConfigOf (vars : List (String × Yaml)) : Option InverseConfig := do
  let cfg ← forwardConfigOf vars (some false)
  let sensors ← typedVar vars Yaml.asNat "i_num_sensor_points"
  return { cfg with numSensorPoints := sensors }

/-! ## The scripts with their command line -/

/-- How a script can stop early. -/
inductive Stop
  /-- `sys.exit(code)`. -/
  | exit (code : ℤ)
  /-- An exception. -/
  | raised (e : PyErr)
  /-- An entry of the configuration has an unexpected type: what happens then is not modelled. -/
  | unexpectedType

/-- An exception of the part of the script after the configuration. -/
def Stop.of {α : Type} : Except PyErr α → Except Stop α
  | .error e => .error (.raised e)
  | .ok a => .ok a

/-- Lines 37-94: the command line (`sys.argv`, with the name of the script first) and the file.  `load` stands for
`open` and `yaml.safe_load`. -/
def startScript (r : ConfigReads) (load : String → Except PyErr Yaml) (argv : List String) :
    Except Stop (List (String × Yaml)) :=
  match argv with
  | [_, path] =>
    match load path with
    | .error e => .error (.raised e)
    | .ok config => Stop.of (r.run config)
  | _ => .error (.exit 1)

/-- The random draws of a script: boundary points (for every number per side), `pyDOE.lhs` of the mesh file (for
every refinement level), those of the sensor data and the shuffling of the points. -/
structure Draws where
  sample : (n : ℕ) → Fin 4 → Fin n → ℝ
  lhs : (level : ℕ) → ℕ → Fin (2 ^ level + 1) → ℝ × ℝ
  sensorLhs : (k : ℕ) → Fin k → ℝ × ℝ
  randint : (n : ℕ) → ℕ → Fin n → ℤ
  shuffle : List (ℝ × ℝ) → List (ℝ × ℝ)

section
variable (mc : Machine) (load : String → Except PyErr Yaml) (argv : List String) (ω : Draws) (θ : Weights)
  (files : Files)

/-- `uniform_mesh/poisson_2d/main_poisson2d.py`, `uniform_mesh/helmholtz_2d/main_helmholtz.py`. -/
noncomputable def scriptUniform (pb : Problem) : Except Stop RunResult :=
  match startScript readsForward load argv with
  | .error s => .error s
  | .ok vars =>
    match forwardConfigOf vars (typedVar vars Yaml.asBool "i_generate_mesh_plot") with
    | none => .error .unexpectedType
    | some cfg => Stop.of (mainUniform mc pb cfg (ω.sample _) θ files)

/-- `hard_boundary_constraints/poisson_2d/main_poisson2d_hard.py`. -/
noncomputable def scriptHard (pb : Problem) : Except Stop RunResult :=
  match startScript readsHard load argv with
  | .error s => .error s
  | .ok vars =>
    match forwardConfigOf vars (typedVar vars Yaml.asBool "i_generate_mesh_plot") with
    | none => .error .unexpectedType
    | some cfg => Stop.of (mainHard mc pb cfg (ω.sample _) θ files)

/-- `complex_mesh/*/main_*.py` without the gear. -/
noncomputable def scriptExternal (pb : Problem) (layerDims : ForwardConfig → List ℕ) : Except Stop RunResult :=
  match startScript readsForward load argv with
  | .error s => .error s
  | .ok vars =>
    match forwardConfigOf vars (typedVar vars Yaml.asBool "i_generate_mesh_plot") with
    | none => .error .unexpectedType
    | some cfg => Stop.of (mainExternal mc pb layerDims cfg (ω.lhs _) θ files)

/-- `complex_mesh/cd2d_gear/main_gear_cd2d.py`; `csv` stands for `pd.read_csv`. -/
noncomputable def scriptGear (csv : String → Except PyErr CsvTable) (pb : Problem) : Except Stop RunResult :=
  match startScript readsForward load argv with
  | .error s => .error s
  | .ok vars =>
    match gearConfigOf vars with
    | none => .error .unexpectedType
    | some cfg => Stop.of (mainGear mc pb cfg csv (ω.lhs _) θ files)

/-- `const_inverse_poisson2d/main_inverse.py`. -/
noncomputable def scriptInverse (pb : InverseProblem) : Except Stop InverseResult :=
  match startScript readsInverse load argv with
  | .error s => .error s
  | .ok vars =>
    match inverseConfigOf vars with
    | none => .error .unexpectedType
    | some cfg => Stop.of (mainInverse mc pb cfg (ω.sample _) (ω.lhs _) ω.sensorLhs (ω.randint _) θ files)

/-- `domain_inverse_cd2d/USA/main_inverse_domain_usa.py`. -/
noncomputable def scriptUsa (pb : DomainProblem) : Except Stop DomainResult :=
  match startScript readsInverse load argv with
  | .error s => .error s
  | .ok vars =>
    match inverseConfigOf vars with
    | none => .error .unexpectedType
    | some cfg => Stop.of (mainUsa mc pb cfg ω.shuffle (ω.sample _) (ω.lhs _) θ files)

/-- `domain_inverse_cd2d/circle/main_inverse_domain_circle.py`; `csv` are the lines of the sensor data file with
the given name (a file that cannot be read is not modelled). -/
noncomputable def scriptCircle (csv : String → List (ℝ × ℝ × ℝ)) (pb : DomainProblem) : Except Stop DomainResult :=
  match startScript readsCircle load argv with
  | .error s => .error s
  | .ok vars =>
    match inverseConfigOf vars, typedVar vars Yaml.asStr "i_sensor_data_file" with
    | some cfg, some file =>
      Stop.of (mainCircle mc pb cfg (csv file) ω.sensorLhs (ω.randint _) (ω.sample _) (ω.lhs _) θ files)
    | _, _ => .error .unexpectedType

end

end FastVPINNs
