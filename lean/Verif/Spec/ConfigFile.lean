import Verif.Model.ConfigFile

/-! # What a configuration file says -/

namespace FastVPINNs.Spec

/-- The entry of a tree under a sequence of keys. -/
inductive At : Yaml → List String → Yaml → Prop
  | here (y : Yaml) : At y [] y
  | step {d : List (String × Yaml)} {k : String} {v w : Yaml} {path : List String} :
      d.lookup k = some v → At v path w → At (.dict d) (k :: path) w

/-- An entry that is a number; the file may write it as an integer or as a float. -/
def IsNumber (v : Yaml) (x : ℝ) : Prop :=
  (∃ n : ℤ, v = .int n ∧ x = n) ∨ v = .float x

/-- An entry of the learning-rate dictionary. -/
inductive IsRate : Yaml → PyVal → Prop
  | number {v : Yaml} {x : ℝ} : IsNumber v x → IsRate v (.num x)
  | flag (b : Bool) : IsRate (.bool b) (.bool b)

/-- The file has the entries common to all scripts, and `cfg` are their values. -/
structure CommonFile (y : Yaml) (cfg : ForwardConfig) : Prop where
  outputPath : At y ["experimentation", "output_path"] (.str cfg.outputPath)
  meshGenerationMethod : At y ["geometry", "mesh_generation_method"] (.str cfg.meshGenerationMethod)
  meshType : At y ["geometry", "mesh_type"] (.str cfg.meshType)
  xMin : ∃ v, At y ["geometry", "internal_mesh_params", "x_min"] v ∧ IsNumber v cfg.xMin
  xMax : ∃ v, At y ["geometry", "internal_mesh_params", "x_max"] v ∧ IsNumber v cfg.xMax
  yMin : ∃ v, At y ["geometry", "internal_mesh_params", "y_min"] v ∧ IsNumber v cfg.yMin
  yMax : ∃ v, At y ["geometry", "internal_mesh_params", "y_max"] v ∧ IsNumber v cfg.yMax
  nCellsX : At y ["geometry", "internal_mesh_params", "n_cells_x"] (.int cfg.nCellsX)
  nCellsY : At y ["geometry", "internal_mesh_params", "n_cells_y"] (.int cfg.nCellsY)
  nBoundaryPoints : At y ["geometry", "internal_mesh_params", "n_boundary_points"] (.int cfg.nBoundaryPoints)
  nTestPointsX : At y ["geometry", "internal_mesh_params", "n_test_points_x"] (.int cfg.nTestPointsX)
  nTestPointsY : At y ["geometry", "internal_mesh_params", "n_test_points_y"] (.int cfg.nTestPointsY)
  meshFileName : At y ["geometry", "external_mesh_params", "mesh_file_name"] (.str cfg.meshFileName)
  boundaryRefinementLevel :
    At y ["geometry", "external_mesh_params", "boundary_refinement_level"] (.int cfg.boundaryRefinementLevel)
  boundarySamplingMethod :
    At y ["geometry", "external_mesh_params", "boundary_sampling_method"] (.str cfg.boundarySamplingMethod)
  feOrder : At y ["fe", "fe_order"] (.int cfg.feOrder)
  feType : At y ["fe", "fe_type"] (.str cfg.feType)
  quadOrder : At y ["fe", "quad_order"] (.int cfg.quadOrder)
  quadType : At y ["fe", "quad_type"] (.str cfg.quadType)
  modelArchitecture : At y ["model", "model_architecture"] (.list (cfg.modelArchitecture.map fun n => .int n))
  activation : At y ["model", "activation"] (.str cfg.activation)
  useAttention : At y ["model", "use_attention"] (.bool cfg.useAttention)
  epochs : At y ["model", "epochs"] (.int cfg.epochs)
  dtype : At y ["model", "dtype"] (.str cfg.dtype)
  supported : cfg.dtype = "float64" ∨ cfg.dtype = "float32"
  setMemoryGrowth : ∃ v, At y ["model", "set_memory_growth"] v
  learningRate : ∃ d, At y ["model", "learning_rate"] (.dict d) ∧
    List.Forall₂ (fun e r => e.1 = r.1 ∧ IsRate e.2 r.2) d cfg.learningRate
  beta : ∃ v, At y ["pde", "beta"] v ∧ IsNumber v cfg.beta
  updateConsoleOutput : At y ["logging", "update_console_output"] (.int cfg.updateConsoleOutput)

/-- A file for the hard-constraint script. -/
structure HardFile (y : Yaml) (cfg : ForwardConfig) : Prop extends CommonFile y cfg where
  plot : At y ["geometry", "generate_mesh_plot"] (.bool cfg.generateMeshPlot)

/-- A file for the other scripts for forward problems: there are two entries on the exact solution. -/
structure ForwardFile (y : Yaml) (cfg : ForwardConfig) : Prop extends HardFile y cfg where
  exactGeneration : ∃ v, At y ["geometry", "exact_solution", "exact_solution_generation"] v
  exactFileName : ∃ v, At y ["geometry", "exact_solution", "exact_solution_file_name"] v

/-- A file for the gear script. -/
structure GearFile (y : Yaml) (cfg : GearConfig) : Prop extends HardFile y cfg.toForwardConfig where
  exactGeneration : At y ["geometry", "exact_solution", "exact_solution_generation"] (.str cfg.exactSolutionGeneration)
  exactFileName : At y ["geometry", "exact_solution", "exact_solution_file_name"] (.str cfg.exactSolutionFileName)

/-- A file for the scripts for inverse problems, which never plot the mesh. -/
structure InverseFile (y : Yaml) (cfg : InverseConfig) : Prop extends CommonFile y cfg.toForwardConfig where
  plot : cfg.generateMeshPlot = false
  numSensorPoints : At y ["inverse", "num_sensor_points"] (.int cfg.numSensorPoints)

/-- A file for the script on the circle: also the name of the sensor data file. -/
structure CircleFile (y : Yaml) (cfg : InverseConfig) (file : String) : Prop extends InverseFile y cfg where
  sensorDataFile : At y ["inverse", "sensor_data_file"] (.str file)

/-- The entries every script needs. -/
def commonEntries : List (List String) :=
  [["experimentation", "output_path"], ["geometry", "mesh_generation_method"], ["geometry", "mesh_type"],
   ["geometry", "internal_mesh_params", "x_min"], ["geometry", "internal_mesh_params", "x_max"],
   ["geometry", "internal_mesh_params", "y_min"], ["geometry", "internal_mesh_params", "y_max"],
   ["geometry", "internal_mesh_params", "n_cells_x"], ["geometry", "internal_mesh_params", "n_cells_y"],
   ["geometry", "internal_mesh_params", "n_boundary_points"], ["geometry", "internal_mesh_params", "n_test_points_x"],
   ["geometry", "internal_mesh_params", "n_test_points_y"], ["geometry", "external_mesh_params", "mesh_file_name"],
   ["geometry", "external_mesh_params", "boundary_refinement_level"],
   ["geometry", "external_mesh_params", "boundary_sampling_method"],
   ["fe", "fe_order"], ["fe", "fe_type"], ["fe", "quad_order"], ["fe", "quad_type"],
   ["model", "model_architecture"], ["model", "activation"], ["model", "use_attention"], ["model", "epochs"],
   ["model", "dtype"], ["model", "set_memory_growth"], ["model", "learning_rate"],
   ["pde", "beta"], ["logging", "update_console_output"]]

/-- The entries the hard-constraint script needs. -/
def hardEntries : List (List String) := ["geometry", "generate_mesh_plot"] :: commonEntries

/-- The entries the other scripts for forward problems need. -/
def forwardEntries : List (List String) :=
  ["geometry", "exact_solution", "exact_solution_generation"] ::
    ["geometry", "exact_solution", "exact_solution_file_name"] :: hardEntries

/-- The entries the scripts for inverse problems need. -/
def inverseEntries : List (List String) := ["inverse", "num_sensor_points"] :: commonEntries

/-- The entries the script on the circle needs. -/
def circleEntries : List (List String) := ["inverse", "sensor_data_file"] :: inverseEntries

/-- How a script ends when an entry is missing or the data type is not supported: with an exception, before
anything else happens. -/
def StopsEarly {α : Type} (x : Except Stop α) : Prop :=
  x = .error (.raised .keyError) ∨ x = .error (.raised .typeError) ∨ x = .error (.raised .valueError)

/-- The file has all the given entries but one, which is missing in an existing mapping. -/
def OnlyMissing (y : Yaml) (entries : List (List String)) (parent : List String) (key : String) : Prop :=
  parent ++ [key] ∈ entries ∧ (∃ d, At y parent (.dict d) ∧ d.lookup key = none) ∧
    ∀ path ∈ entries, path ≠ parent ++ [key] → ∃ v, At y path v

end FastVPINNs.Spec
