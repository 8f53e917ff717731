import Verif.Model.DriverDomain
import Verif.Model.DriverShipped

/-! # The driver script on the gear

`/repo/examples/forward_problems_2d/complex_mesh/cd2d_gear/main_gear_cd2d.py`: the script
`complex_mesh/cd2d/main_cd2d.py` (`mainExternal`) but for lines 178-182, which can take the values of the exact
solution from a file.  Line numbers without file name are those of the gear script. -/

namespace FastVPINNs

/-- The values read from the YAML file, lines 46-94. -/
structure GearConfig extends ForwardConfig where
  exactSolutionGeneration : String
  exactSolutionFileName : String

/-- What `pd.read_csv(file, header=None, delimiter=",")` returns for a file of numbers: the columns of the table,
all of the same length. -/
abbrev CsvTable := List (List ℝ)

/-- Lines 178-182: the values of the exact solution, computed at the test points or from column 2 of the file. -/
noncomputable def gearExact (pb : Problem) (cfg : GearConfig) (csv : String → Except PyErr CsvTable)
    (points : List (ℝ × ℝ)) : Except PyErr (List ℝ) :=
  if cfg.exactSolutionGeneration = "internal" then .ok (points.map fun p => pb.exactSolution p.1 p.2)
  else
    match csv cfg.exactSolutionFileName with
    | .error e => .error e
    | .ok table => pyIndex table 2

/-- Lines 176-311: `runExternal` with the values of `gearExact`. -/
noncomputable def runGear {α : Type} (mc : Machine) (cfg : GearConfig) (pb : Problem)
    (csv : String → Except PyErr CsvTable) (P : Prepared) (M : DriverModel α) (θ : Weights) :
    Except PyErr RunResult :=
  match P.geometry.getTestPoints mc.env P.files with
  | (.error e, _, _) => .error e
  | (.ok (.points points), o, files) =>
    match gearExact pb cfg csv points with
    | .error e => .error e
    | .ok yExact =>
      match epochLoop M.step (reportBlockVtk mc.env o cfg.outputPath M points yExact)
          cfg.updateConsoleOutput cfg.epochs (List.range cfg.epochs)
          ⟨⟨θ, AdamState.init⟩, [], [], files⟩ with
      | .error e => .error e
      | .ok s =>
        match s.reports.getLast? with
        | none => .error .nameError
        | some r =>
          match writePrediction mc.env o cfg.outputPath r.yPred yExact (cfg.epochs - 1) s.files with
          | .error e => .error e
          | .ok files => finishRun mc cfg.toForwardConfig M yExact { s with files := files }
  | (.ok _, _, _) => .error .typeError

/-- The whole script; `layer_dims` is `i_model_architecture` (line 159). -/
noncomputable def mainGear (mc : Machine) (pb : Problem) (cfg : GearConfig)
    (csv : String → Except PyErr CsvTable) (lhs : ℕ → Fin (2 ^ cfg.boundaryRefinementLevel + 1) → ℝ × ℝ)
    (θ : Weights) (files : Files) : Except PyErr RunResult :=
  match prepareExternal mc cfg.toForwardConfig pb cfg.modelArchitecture lhs files with
  | .error e => .error e
  | .ok P => runGear mc cfg pb csv P (P.dense mc cfg.toForwardConfig pb (outDim P.specs)) θ

/-- `cd2d_gear_example.py:9-21` (`inner_boundary`, `outer_boundary`) and `42-46`
(`get_boundary_function_dict`). -/
def Gear.boundaryFunctionDict : List (ℤ × (ℝ → ℝ → ℝ)) := [(1000, fun _ _ => 0.0), (1001, fun _ _ => 0.0)]

/-- What the script imports: `cd2d_gear_example.py` and the loss of `cd2d.py`. -/
noncomputable def problemGear : Problem :=
  ⟨lossCd2d, Gear.boundaryFunctionDict, Gear.rhs, Gear.exactSolution, Gear.bilinearParamsDict⟩

/-- `complex_mesh/cd2d_gear/input.yaml`. -/
noncomputable def configGear : GearConfig where
  outputPath := "output/cd2d_gear"
  meshGenerationMethod := "external"
  generateMeshPlot := false
  meshType := "quadrilateral"
  xMin := 0
  xMax := 1
  yMin := 0
  yMax := 1
  nCellsX := 8
  nCellsY := 8
  nBoundaryPoints := 2000
  nTestPointsX := 100
  nTestPointsY := 100
  meshFileName := "../meshes/gear.mesh"
  boundaryRefinementLevel := 2
  boundarySamplingMethod := "uniform"
  feOrder := 4
  feType := "jacobi"
  quadOrder := 5
  quadType := "gauss-jacobi"
  modelArchitecture := [2, 50, 50, 50, 1]
  activation := "tanh"
  useAttention := false
  epochs := 150000
  dtype := "float32"
  learningRate := [("initial_learning_rate", .num 0.005), ("use_lr_scheduler", .bool true),
    ("decay_steps", .num 1000), ("decay_rate", .num 0.99), ("staircase", .bool false)]
  beta := 5
  updateConsoleOutput := 10000
  exactSolutionGeneration := "external"
  exactSolutionFileName := "fem_output_gear_forward_sin.csv"

end FastVPINNs
