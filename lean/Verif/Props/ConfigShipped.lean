import Verif.Props.ConfigFile

/-! # C81: the shipped configuration files -/

namespace FastVPINNs

open Spec

local macro "entry" : tactic => `(tactic| first
  | exact .step rfl (.step rfl (.here _))
  | exact .step rfl (.step rfl (.step rfl (.here _)))
  | exact ⟨_, .step rfl (.step rfl (.here _))⟩
  | exact ⟨_, .step rfl (.step rfl (.step rfl (.here _)))⟩)

local macro "value" : tactic => `(tactic|
  norm_num [configUniformPoisson, configHelmholtz, configHard, configComplexPoisson, configUSA, configComplexHelmholtz,
    configCd2d, configGear, configInverse, configDomainUsa, configDomainCircle])

local macro "number" : tactic => `(tactic| first
  | exact ⟨_, .step rfl (.step rfl (.step rfl (.here _))), Or.inl ⟨_, rfl, by value⟩⟩
  | exact ⟨_, .step rfl (.step rfl (.here _)), Or.inl ⟨_, rfl, by value⟩⟩
  | exact ⟨_, .step rfl (.step rfl (.step rfl (.here _))), Or.inr rfl⟩
  | exact ⟨_, .step rfl (.step rfl (.here _)), Or.inr rfl⟩)

local macro "rates" : tactic => `(tactic|
  exact ⟨_, .step rfl (.step rfl (.here _)), .cons ⟨rfl, .number (Or.inr rfl)⟩ <| .cons ⟨rfl, .flag _⟩ <|
    .cons ⟨rfl, .number (Or.inl ⟨1000, rfl, by norm_num⟩)⟩ <| .cons ⟨rfl, .number (Or.inr rfl)⟩ <|
    .cons ⟨rfl, .flag _⟩ .nil⟩)

lemma describesUniformPoisson : ForwardFile yamlUniformPoisson configUniformPoisson where
  outputPath := by entry
  meshGenerationMethod := by entry
  meshType := by entry
  xMin := by number
  xMax := by number
  yMin := by number
  yMax := by number
  nCellsX := by entry
  nCellsY := by entry
  nBoundaryPoints := by entry
  nTestPointsX := by entry
  nTestPointsY := by entry
  meshFileName := by entry
  boundaryRefinementLevel := by entry
  boundarySamplingMethod := by entry
  feOrder := by entry
  feType := by entry
  quadOrder := by entry
  quadType := by entry
  modelArchitecture := by entry
  activation := by entry
  useAttention := by entry
  epochs := by entry
  dtype := by entry
  supported := Or.inr rfl
  setMemoryGrowth := by entry
  learningRate := by rates
  beta := by number
  updateConsoleOutput := by entry
  plot := by entry
  exactGeneration := by entry
  exactFileName := by entry

lemma describesHelmholtz : ForwardFile yamlHelmholtz configHelmholtz where
  outputPath := by entry
  meshGenerationMethod := by entry
  meshType := by entry
  xMin := by number
  xMax := by number
  yMin := by number
  yMax := by number
  nCellsX := by entry
  nCellsY := by entry
  nBoundaryPoints := by entry
  nTestPointsX := by entry
  nTestPointsY := by entry
  meshFileName := by entry
  boundaryRefinementLevel := by entry
  boundarySamplingMethod := by entry
  feOrder := by entry
  feType := by entry
  quadOrder := by entry
  quadType := by entry
  modelArchitecture := by entry
  activation := by entry
  useAttention := by entry
  epochs := by entry
  dtype := by entry
  supported := Or.inr rfl
  setMemoryGrowth := by entry
  learningRate := by rates
  beta := by number
  updateConsoleOutput := by entry
  plot := by entry
  exactGeneration := by entry
  exactFileName := by entry

lemma describesHard : HardFile yamlHard configHard where
  outputPath := by entry
  meshGenerationMethod := by entry
  meshType := by entry
  xMin := by number
  xMax := by number
  yMin := by number
  yMax := by number
  nCellsX := by entry
  nCellsY := by entry
  nBoundaryPoints := by entry
  nTestPointsX := by entry
  nTestPointsY := by entry
  meshFileName := by entry
  boundaryRefinementLevel := by entry
  boundarySamplingMethod := by entry
  feOrder := by entry
  feType := by entry
  quadOrder := by entry
  quadType := by entry
  modelArchitecture := by entry
  activation := by entry
  useAttention := by entry
  epochs := by entry
  dtype := by entry
  supported := Or.inr rfl
  setMemoryGrowth := by entry
  learningRate := by rates
  beta := by number
  updateConsoleOutput := by entry
  plot := by entry

lemma describesComplexPoisson : ForwardFile yamlComplexPoisson configComplexPoisson where
  outputPath := by entry
  meshGenerationMethod := by entry
  meshType := by entry
  xMin := by number
  xMax := by number
  yMin := by number
  yMax := by number
  nCellsX := by entry
  nCellsY := by entry
  nBoundaryPoints := by entry
  nTestPointsX := by entry
  nTestPointsY := by entry
  meshFileName := by entry
  boundaryRefinementLevel := by entry
  boundarySamplingMethod := by entry
  feOrder := by entry
  feType := by entry
  quadOrder := by entry
  quadType := by entry
  modelArchitecture := by entry
  activation := by entry
  useAttention := by entry
  epochs := by entry
  dtype := by entry
  supported := Or.inr rfl
  setMemoryGrowth := by entry
  learningRate := by rates
  beta := by number
  updateConsoleOutput := by entry
  plot := by entry
  exactGeneration := by entry
  exactFileName := by entry

lemma describesUSA : ForwardFile yamlUSA configUSA where
  outputPath := by entry
  meshGenerationMethod := by entry
  meshType := by entry
  xMin := by number
  xMax := by number
  yMin := by number
  yMax := by number
  nCellsX := by entry
  nCellsY := by entry
  nBoundaryPoints := by entry
  nTestPointsX := by entry
  nTestPointsY := by entry
  meshFileName := by entry
  boundaryRefinementLevel := by entry
  boundarySamplingMethod := by entry
  feOrder := by entry
  feType := by entry
  quadOrder := by entry
  quadType := by entry
  modelArchitecture := by entry
  activation := by entry
  useAttention := by entry
  epochs := by entry
  dtype := by entry
  supported := Or.inr rfl
  setMemoryGrowth := by entry
  learningRate := by rates
  beta := by number
  updateConsoleOutput := by entry
  plot := by entry
  exactGeneration := by entry
  exactFileName := by entry

lemma describesComplexHelmholtz : ForwardFile yamlComplexHelmholtz configComplexHelmholtz where
  outputPath := by entry
  meshGenerationMethod := by entry
  meshType := by entry
  xMin := by number
  xMax := by number
  yMin := by number
  yMax := by number
  nCellsX := by entry
  nCellsY := by entry
  nBoundaryPoints := by entry
  nTestPointsX := by entry
  nTestPointsY := by entry
  meshFileName := by entry
  boundaryRefinementLevel := by entry
  boundarySamplingMethod := by entry
  feOrder := by entry
  feType := by entry
  quadOrder := by entry
  quadType := by entry
  modelArchitecture := by entry
  activation := by entry
  useAttention := by entry
  epochs := by entry
  dtype := by entry
  supported := Or.inr rfl
  setMemoryGrowth := by entry
  learningRate := by rates
  beta := by number
  updateConsoleOutput := by entry
  plot := by entry
  exactGeneration := by entry
  exactFileName := by entry

lemma describesCd2d : ForwardFile yamlCd2d configCd2d where
  outputPath := by entry
  meshGenerationMethod := by entry
  meshType := by entry
  xMin := by number
  xMax := by number
  yMin := by number
  yMax := by number
  nCellsX := by entry
  nCellsY := by entry
  nBoundaryPoints := by entry
  nTestPointsX := by entry
  nTestPointsY := by entry
  meshFileName := by entry
  boundaryRefinementLevel := by entry
  boundarySamplingMethod := by entry
  feOrder := by entry
  feType := by entry
  quadOrder := by entry
  quadType := by entry
  modelArchitecture := by entry
  activation := by entry
  useAttention := by entry
  epochs := by entry
  dtype := by entry
  supported := Or.inr rfl
  setMemoryGrowth := by entry
  learningRate := by rates
  beta := by number
  updateConsoleOutput := by entry
  plot := by entry
  exactGeneration := by entry
  exactFileName := by entry

lemma describesGear : GearFile yamlGear configGear where
  outputPath := by entry
  meshGenerationMethod := by entry
  meshType := by entry
  xMin := by number
  xMax := by number
  yMin := by number
  yMax := by number
  nCellsX := by entry
  nCellsY := by entry
  nBoundaryPoints := by entry
  nTestPointsX := by entry
  nTestPointsY := by entry
  meshFileName := by entry
  boundaryRefinementLevel := by entry
  boundarySamplingMethod := by entry
  feOrder := by entry
  feType := by entry
  quadOrder := by entry
  quadType := by entry
  modelArchitecture := by entry
  activation := by entry
  useAttention := by entry
  epochs := by entry
  dtype := by entry
  supported := Or.inr rfl
  setMemoryGrowth := by entry
  learningRate := by rates
  beta := by number
  updateConsoleOutput := by entry
  plot := by entry
  exactGeneration := by entry
  exactFileName := by entry

lemma describesInverse : InverseFile yamlInverse configInverse where
  outputPath := by entry
  meshGenerationMethod := by entry
  meshType := by entry
  xMin := by number
  xMax := by number
  yMin := by number
  yMax := by number
  nCellsX := by entry
  nCellsY := by entry
  nBoundaryPoints := by entry
  nTestPointsX := by entry
  nTestPointsY := by entry
  meshFileName := by entry
  boundaryRefinementLevel := by entry
  boundarySamplingMethod := by entry
  feOrder := by entry
  feType := by entry
  quadOrder := by entry
  quadType := by entry
  modelArchitecture := by entry
  activation := by entry
  useAttention := by entry
  epochs := by entry
  dtype := by entry
  supported := Or.inr rfl
  setMemoryGrowth := by entry
  learningRate := by rates
  beta := by number
  updateConsoleOutput := by entry
  plot := rfl
  numSensorPoints := by entry

lemma describesDomainUsa : InverseFile yamlDomainUsa configDomainUsa where
  outputPath := by entry
  meshGenerationMethod := by entry
  meshType := by entry
  xMin := by number
  xMax := by number
  yMin := by number
  yMax := by number
  nCellsX := by entry
  nCellsY := by entry
  nBoundaryPoints := by entry
  nTestPointsX := by entry
  nTestPointsY := by entry
  meshFileName := by entry
  boundaryRefinementLevel := by entry
  boundarySamplingMethod := by entry
  feOrder := by entry
  feType := by entry
  quadOrder := by entry
  quadType := by entry
  modelArchitecture := by entry
  activation := by entry
  useAttention := by entry
  epochs := by entry
  dtype := by entry
  supported := Or.inr rfl
  setMemoryGrowth := by entry
  learningRate := by rates
  beta := by number
  updateConsoleOutput := by entry
  plot := rfl
  numSensorPoints := by entry

lemma describesDomainCircle : CircleFile yamlDomainCircle configDomainCircle "fem_output_circle2.csv" where
  outputPath := by entry
  meshGenerationMethod := by entry
  meshType := by entry
  xMin := by number
  xMax := by number
  yMin := by number
  yMax := by number
  nCellsX := by entry
  nCellsY := by entry
  nBoundaryPoints := by entry
  nTestPointsX := by entry
  nTestPointsY := by entry
  meshFileName := by entry
  boundaryRefinementLevel := by entry
  boundarySamplingMethod := by entry
  feOrder := by entry
  feType := by entry
  quadOrder := by entry
  quadType := by entry
  modelArchitecture := by entry
  activation := by entry
  useAttention := by entry
  epochs := by entry
  dtype := by entry
  supported := Or.inr rfl
  setMemoryGrowth := by entry
  learningRate := by rates
  beta := by number
  updateConsoleOutput := by entry
  plot := rfl
  numSensorPoints := by entry
  sensorDataFile := by entry

/-- **C81** (shipped files, rectangle).  Started with the files they are shipped with, the scripts on the rectangle
finish, if gmsh works and the clock advances. -/
theorem C81_shipped_rectangle (mc : Machine)
    (hmsh : ∀ x y hx hy, ∃ m, mc.env.parseMsh (mc.env.gmsh x y hx hy) = .ok m) (hclock : ∀ e, 0 < mc.elapsed e)
    (load : String → Except PyErr Yaml) (ω : Draws) (θ : Weights) (files : Files) (prog path : String) :
    (load path = .ok yamlUniformPoisson →
      ∃ R, scriptUniform mc load [prog, path] ω θ files problemUniformPoisson = .ok R) ∧
    (load path = .ok yamlHelmholtz → ∃ R, scriptUniform mc load [prog, path] ω θ files problemHelmholtz = .ok R) ∧
    (load path = .ok yamlHard → ∃ R, scriptHard mc load [prog, path] ω θ files problemUniformPoisson = .ok R) ∧
    ((∀ r, mc.lrNumpy (.constant r) = .ok ()) → load path = .ok yamlInverse →
      ∃ R, scriptInverse mc load [prog, path] ω θ files problemInverse = .ok R) := by
  obtain ⟨⟨R1, h1⟩, ⟨R2, h2⟩, ⟨R3, h3⟩⟩ := C76_shipped_uniform mc hmsh hclock (ω.sample _) θ files
  refine ⟨fun hl => ⟨R1, ?_⟩, fun hl => ⟨R2, ?_⟩, fun hl => ⟨R3, ?_⟩, fun hlr hl => ?_⟩
  · rw [(C81_uniform mc load ω θ files _).1 prog path _ _ hl describesUniformPoisson]
    exact congrArg Stop.of h1
  · rw [(C81_uniform mc load ω θ files _).1 prog path _ _ hl describesHelmholtz]
    exact congrArg Stop.of h2
  · rw [(C81_hard mc load ω θ files _).1 prog path _ _ hl describesHard]
    exact congrArg Stop.of h3
  · obtain ⟨R4, h4⟩ := C78_shipped mc hmsh hclock hlr (ω.sample _) (ω.lhs _) ω.sensorLhs (ω.randint _) θ files
    refine ⟨R4, ?_⟩
    rw [(C81_inverse mc load ω θ files _).1 prog path _ _ hl describesInverse]
    exact congrArg Stop.of h4

/-- **C81** (shipped files, mesh files).  Started with the files they are shipped with, the scripts on mesh files
finish, if the mesh can be read, has at least one cell and the boundary tags of the shipped meshes, the file of sensor
data or of values has a line for each vertex, and the clock advances. -/
theorem C81_shipped_mesh (mc : Machine) (hclock : ∀ e, 0 < mc.elapsed e)
    (hjoin : ∀ folder a b, mc.env.join folder a = mc.env.join folder b → a = b)
    (load : String → Except PyErr Yaml) (ω : Draws) (θ : Weights) (files : Files) (prog path : String)
    (hvtk : ∀ file m, mc.env.read files file = .ok m → VtkRoundTrip mc.env m) (cells : List Quad)
    (pts : List (List ℝ)) (hc : cells ≠ []) (hpts : pts ≠ []) :
    (readMesh (mc.env.read files) "../meshes/circle_quad.mesh" 4 "uniform" (ω.lhs 4) = .ok (cells, [(1000, pts)]) →
      (load path = .ok yamlComplexPoisson →
        ∃ R, scriptExternal mc load [prog, path] ω θ files problemComplexPoisson (fun _ => fixedLayers) = .ok R) ∧
      (load path = .ok yamlComplexHelmholtz →
        ∃ R, scriptExternal mc load [prog, path] ω θ files problemComplexHelmholtz ForwardConfig.modelArchitecture
          = .ok R) ∧
      (load path = .ok yamlCd2d →
        ∃ R, scriptExternal mc load [prog, path] ω θ files problemCd2d ForwardConfig.modelArchitecture = .ok R)) ∧
    (readMesh (mc.env.read files) "../meshes/usa.mesh" 4 "uniform" (ω.lhs 4) = .ok (cells, [(1000, pts)]) →
      load path = .ok yamlUSA →
      ∃ R, scriptExternal mc load [prog, path] ω θ files problemComplexPoisson (fun _ => fixedLayers) = .ok R) ∧
    (∀ m bd csv x y u, mc.env.read files "../meshes/gear.mesh" = .ok m → (planePoints m).Nodup →
      readMesh (mc.env.read files) "../meshes/gear.mesh" 2 "uniform" (ω.lhs 2) = .ok (cells, bd) →
      (∀ e ∈ bd, e.1 = 1000 ∨ e.1 = 1001) → csv "fem_output_gear_forward_sin.csv" = .ok [x, y, u] →
      u.length = m.points.length → load path = .ok yamlGear →
      ∃ R, scriptGear mc load [prog, path] ω θ files csv problemGear = .ok R) ∧
    ((∀ lr, mc.lrNumpy lr = .ok ()) →
      (readMesh (mc.env.read files) "usa.mesh" 2 "uniform" (ω.lhs 2) = .ok (cells, [(1000, pts)]) →
        load path = .ok yamlDomainUsa → ∃ R, scriptUsa mc load [prog, path] ω θ files problemDomainUsa = .ok R) ∧
      (∀ csv : String → List (ℝ × ℝ × ℝ), (∀ m i, 0 < m → 0 ≤ ω.randint 500 m i ∧ ω.randint 500 m i < m) →
        readMesh (mc.env.read files) "circle_quad.mesh" 2 "uniform" (ω.lhs 2) = .ok (cells, [(1000, pts)]) →
        (∀ m, mc.env.read files "circle_quad.mesh" = .ok m →
          (csv "fem_output_circle2.csv").length = m.points.length ∧ 2 ≤ m.points.length) →
        load path = .ok yamlDomainCircle →
        ∃ R, scriptCircle mc load [prog, path] ω θ files csv problemDomainCircle = .ok R)) := by
  have hext := C76_shipped_external mc hclock hjoin (ω.lhs 4) θ files hvtk cells pts hc hpts
  refine ⟨fun hr => ⟨fun hl => ?_, fun hl => ?_, fun hl => ?_⟩, fun hr hl => ?_,
    fun m bd csv x y u hm hn hr hbd hcsv hu hl => ?_, fun hlr => ⟨fun hr hl => ?_, fun csv hrand hr hcsv hl => ?_⟩⟩
  · obtain ⟨R, h⟩ := (hext.1 hr).1
    refine ⟨R, ?_⟩
    rw [(C81_external mc load ω θ files _ _).1 prog path _ _ hl describesComplexPoisson]
    exact congrArg Stop.of h
  · obtain ⟨R, h⟩ := (hext.1 hr).2.1
    refine ⟨R, ?_⟩
    rw [(C81_external mc load ω θ files _ _).1 prog path _ _ hl describesComplexHelmholtz]
    exact congrArg Stop.of h
  · obtain ⟨R, h⟩ := (hext.1 hr).2.2
    refine ⟨R, ?_⟩
    rw [(C81_external mc load ω θ files _ _).1 prog path _ _ hl describesCd2d]
    exact congrArg Stop.of h
  · obtain ⟨R, h⟩ := hext.2 hr
    refine ⟨R, ?_⟩
    rw [(C81_external mc load ω θ files _ _).1 prog path _ _ hl describesUSA]
    exact congrArg Stop.of h
  · obtain ⟨R, h⟩ := C80_shipped mc hclock hjoin (ω.lhs 2) θ files m hm (hvtk _ m hm) hn cells bd hr hc hbd csv x y u
      hcsv hu
    refine ⟨R, ?_⟩
    rw [(C81_gear mc load ω θ files csv _).1 prog path _ _ hl describesGear]
    exact congrArg Stop.of h
  · obtain ⟨R, h⟩ := (C79_shipped mc hclock hlr hjoin ω.shuffle [] ω.sensorLhs (fun m _ => 0)
      (fun m i hm => ⟨le_refl _, by exact_mod_cast hm⟩) (ω.sample _) (ω.lhs 2) θ files hvtk cells pts hc).1 hr
    refine ⟨R, ?_⟩
    rw [(C81_usa mc load ω θ files _).1 prog path _ _ hl describesDomainUsa]
    exact congrArg Stop.of h
  · obtain ⟨R, h⟩ := (C79_shipped mc hclock hlr hjoin ω.shuffle (csv "fem_output_circle2.csv") ω.sensorLhs
      (ω.randint 500) hrand (ω.sample _) (ω.lhs 2) θ files hvtk cells pts hc).2 hr (fun m hm => by
        obtain ⟨h1, h2⟩ := hcsv m hm
        refine ⟨by rw [h1]; simp [planePoints], by omega⟩)
    refine ⟨R, ?_⟩
    rw [(C81_circle mc load ω θ files csv _).1 prog path _ _ _ hl describesDomainCircle]
    exact congrArg Stop.of h

/-! ## Entries that must be there but have no effect -/

/-- The configuration with another rectangle. -/
def ForwardConfig.withRectangle (cfg : ForwardConfig) (x₀ x₁ y₀ y₁ : ℝ) (nx ny nb : ℕ) : ForwardConfig :=
  { cfg with xMin := x₀, xMax := x₁, yMin := y₀, yMax := y₁, nCellsX := nx, nCellsY := ny, nBoundaryPoints := nb }

private theorem prepareModel_rectangle (mc : Machine) (cfg : ForwardConfig) (x₀ x₁ y₀ y₁ : ℝ) (nx ny nb : ℕ)
    (pb : Problem) (ld : List ℕ) (lrFn : List (String × PyVal) → Except PyErr LearningRate) (o : GeometryObject)
    (files : Files) (cells : List Quad) (bd : BdDict) :
    prepareModel mc (cfg.withRectangle x₀ x₁ y₀ y₁ nx ny nb) pb ld lrFn o files cells bd
      = prepareModel mc cfg pb ld lrFn o files cells bd := by
  unfold prepareModel ForwardConfig.withRectangle
  dsimp only
  rcases fespace2D mc.quad ((o.mesh.map StoredMesh.planePoints).getD []) cells bd
      ⟨o.meshType, cfg.feOrder, cfg.feType, cfg.quadOrder, cfg.quadType, "bilinear"⟩
      pb.boundaryFunctionDict pb.rhs cfg.generateMeshPlot with e | ⟨nq, S⟩
  · rfl
  · dsimp only
    rcases dataHandler2D S true with e | ⟨D, S'⟩ <;> rfl

private theorem mainExternal_rectangle (mc : Machine) (pb : Problem) (layerDims : ForwardConfig → List ℕ)
    (cfg : ForwardConfig) (x₀ x₁ y₀ y₁ : ℝ) (nx ny nb : ℕ)
    (hld : layerDims (cfg.withRectangle x₀ x₁ y₀ y₁ nx ny nb) = layerDims cfg)
    (lhs : ℕ → Fin (2 ^ cfg.boundaryRefinementLevel + 1) → ℝ × ℝ) (θ : Weights) (files : Files) :
    mainExternal mc pb layerDims (cfg.withRectangle x₀ x₁ y₀ y₁ nx ny nb) lhs θ files
      = mainExternal mc pb layerDims cfg lhs θ files := by
  have hp := prepareModel_rectangle mc cfg x₀ x₁ y₀ y₁ nx ny nb pb (layerDims cfg)
  have he : prepareExternal mc (cfg.withRectangle x₀ x₁ y₀ y₁ nx ny nb) pb (layerDims cfg) lhs files
      = prepareExternal mc cfg pb (layerDims cfg) lhs files := by
    unfold prepareExternal
    simp only [hp]
    rfl
  unfold mainExternal
  rw [hld, he]
  rcases prepareExternal mc cfg pb (layerDims cfg) lhs files with e | P
  · rfl
  · dsimp only
    unfold runExternal
    rcases GeometryObject.getTestPoints mc.env P.geometry P.files with ⟨e | v, o, f⟩
    · rfl
    · rcases v with _ | points | _ <;> rfl

/-- **C81** (a finding).  Some entries must be in the file but have no effect: the two on the exact solution, except
for the gear script (two shipped files ask for an exact solution from a file, and the formula is used); the
architecture, in the scripts on the rectangle and the Poisson scripts; the rectangle, its cells and the number of its
boundary points, in the scripts on mesh files. -/
theorem C81_ignored (mc : Machine) (load load' : String → Except PyErr Yaml) (ω : Draws) (θ : Weights) (files : Files)
    (pb : Problem) (prog prog' path path' : String) (y y' : Yaml) (hl : load path = .ok y) (hl' : load' path' = .ok y')
    (cfg cfg' : ForwardConfig) (hy : ForwardFile y cfg) (hy' : ForwardFile y' cfg') :
    (∀ arch, cfg' = { cfg with modelArchitecture := arch } →
      scriptUniform mc load [prog, path] ω θ files pb = scriptUniform mc load' [prog', path'] ω θ files pb ∧
      scriptExternal mc load [prog, path] ω θ files pb (fun _ => fixedLayers)
        = scriptExternal mc load' [prog', path'] ω θ files pb (fun _ => fixedLayers)) ∧
    (∀ x₀ x₁ y₀ y₁ nx ny nb, cfg' = cfg.withRectangle x₀ x₁ y₀ y₁ nx ny nb →
      scriptExternal mc load [prog, path] ω θ files pb (fun _ => fixedLayers)
        = scriptExternal mc load' [prog', path'] ω θ files pb (fun _ => fixedLayers) ∧
      scriptExternal mc load [prog, path] ω θ files pb ForwardConfig.modelArchitecture
        = scriptExternal mc load' [prog', path'] ω θ files pb ForwardConfig.modelArchitecture) := by
  refine ⟨?_, ?_⟩
  · rintro arch rfl
    obtain ⟨h1, -, h2⟩ := C76_architecture_ignored mc pb cfg arch (ω.sample _) (ω.lhs _) θ files
    rw [(C81_uniform mc load ω θ files pb).1 prog path y cfg hl hy,
      (C81_uniform mc load' ω θ files pb).1 prog' path' y' _ hl' hy',
      (C81_external mc load ω θ files pb _).1 prog path y cfg hl hy,
      (C81_external mc load' ω θ files pb _).1 prog' path' y' _ hl' hy']
    exact ⟨(congrArg Stop.of h1).symm, (congrArg Stop.of h2).symm⟩
  · rintro x₀ x₁ y₀ y₁ nx ny nb rfl
    rw [(C81_external mc load ω θ files pb _).1 prog path y cfg hl hy,
      (C81_external mc load' ω θ files pb _).1 prog' path' y' _ hl' hy',
      (C81_external mc load ω θ files pb _).1 prog path y cfg hl hy,
      (C81_external mc load' ω θ files pb _).1 prog' path' y' _ hl' hy']
    exact ⟨congrArg Stop.of (mainExternal_rectangle mc pb _ cfg x₀ x₁ y₀ y₁ nx ny nb rfl (ω.lhs _) θ files).symm,
      congrArg Stop.of (mainExternal_rectangle mc pb _ cfg x₀ x₁ y₀ y₁ nx ny nb rfl (ω.lhs _) θ files).symm⟩

/-! ## Concrete files -/

/-- The shipped file of the Poisson problem without the entry on the file with the exact solution. -/
noncomputable def demoIncomplete : Yaml :=
  .dict
    [("experimentation", .dict
      [("output_path", .str "output/poisson2d/1")]),
     ("geometry", .dict
      [("mesh_generation_method", .str "internal"),
       ("generate_mesh_plot", .bool true),
       ("internal_mesh_params", .dict
        [("x_min", .int 0), ("x_max", .int 1), ("y_min", .int 0), ("y_max", .int 1),
         ("n_cells_x", .int 4), ("n_cells_y", .int 4), ("n_boundary_points", .int 400),
         ("n_test_points_x", .int 100), ("n_test_points_y", .int 100)]),
       ("exact_solution", .dict
        [("exact_solution_generation", .str "internal")]),
       ("mesh_type", .str "quadrilateral"),
       ("external_mesh_params", .dict
        [("mesh_file_name", .str "meshes/hemker.mesh"), ("boundary_refinement_level", .int 4),
         ("boundary_sampling_method", .str "uniform")])]),
     ("fe", .dict
      [("fe_order", .int 6), ("fe_type", .str "legendre"), ("quad_order", .int 10),
       ("quad_type", .str "gauss-jacobi")]),
     ("pde", .dict
      [("beta", .int 10)]),
     ("model", .dict
      [("model_architecture", .list [.int 2, .int 50, .int 50, .int 50, .int 50, .int 1]),
       ("activation", .str "tanh"),
       ("use_attention", .bool false),
       ("epochs", .int 10000),
       ("dtype", .str "float32"),
       ("set_memory_growth", .bool false),
       ("learning_rate", .dict
        [("initial_learning_rate", .float 0.001), ("use_lr_scheduler", .bool false),
         ("decay_steps", .int 1000), ("decay_rate", .float 0.99), ("staircase", .bool false)])]),
     ("logging", .dict
      [("update_console_output", .int 5000)])]

/-- The hypotheses are met by the shipped file of the Poisson problem; without the entry on the file with the exact
solution the script ends with a `KeyError`, although it never uses the entry. -/
example (mc : Machine) (ω : Draws) (θ : Weights) (files : Files) :
    ForwardFile yamlUniformPoisson configUniformPoisson ∧
    OnlyMissing demoIncomplete forwardEntries ["geometry", "exact_solution"] "exact_solution_file_name" ∧
    scriptUniform mc (fun _ => .ok demoIncomplete) ["main.py", "input.yaml"] ω θ files problemUniformPoisson
      = .error (.raised .keyError) ∧
    scriptUniform mc (fun _ => .ok .null) ["main.py", "input.yaml"] ω θ files problemUniformPoisson
      = .error (.raised .typeError) := by
  have hm : OnlyMissing demoIncomplete forwardEntries ["geometry", "exact_solution"] "exact_solution_file_name" := by
    refine ⟨by decide, ⟨_, .step rfl (.step rfl (.here _)), rfl⟩, ?_⟩
    simp only [forwardEntries, hardEntries, commonEntries, List.forall_mem_cons]
    refine ⟨fun _ => by entry, fun h => absurd rfl h, fun _ => by entry, fun _ => by entry, fun _ => by entry,
      fun _ => by entry, fun _ => by entry, fun _ => by entry, fun _ => by entry, fun _ => by entry, fun _ => by entry,
      fun _ => by entry, fun _ => by entry, fun _ => by entry, fun _ => by entry, fun _ => by entry, fun _ => by entry,
      fun _ => by entry, fun _ => by entry, fun _ => by entry, fun _ => by entry, fun _ => by entry, fun _ => by entry,
      fun _ => by entry, fun _ => by entry, fun _ => by entry, fun _ => by entry, fun _ => by entry, fun _ => by entry,
      fun _ => by entry, fun _ => by entry, by simp⟩
  refine ⟨describesUniformPoisson, hm, ?_, ?_⟩
  · exact ((C81_key_error mc _ ω θ files problemUniformPoisson (fun _ => fixedLayers) (fun _ => .error .keyError)
      problemInverse problemDomainUsa (fun _ => []) "main.py" "input.yaml" demoIncomplete rfl _ _ (fun v hv =>
        Or.inr (hv.unique (.step rfl (.step rfl (.here _)))))).1 hm).1
  · simp [scriptUniform, startScript, ConfigReads.run, readsForward, readVars, Yaml.getPath, Yaml.get, Stop.of]

end FastVPINNs
