import Verif.Model.DriverShipped
import Verif.Props.DriverExternal

/-! # C76: the shipped configurations -/

namespace FastVPINNs

open Spec

/-- **C76** (shipped configurations, rectangle).  With gmsh working and the clock advancing, the three scripts
on the rectangle finish with the configurations they are shipped with. -/
theorem C76_shipped_uniform (mc : Machine)
    (hmsh : ∀ x y hx hy, ∃ m, mc.env.parseMsh (mc.env.gmsh x y hx hy) = .ok m) (hclock : ∀ e, 0 < mc.elapsed e)
    (sample : Fin 4 → Fin (400 / 4) → ℝ) (θ : Weights) (files : Files) :
    (∃ R, mainUniform mc problemUniformPoisson configUniformPoisson sample θ files = .ok R) ∧
    (∃ R, mainUniform mc problemHelmholtz configHelmholtz sample θ files = .ok R) ∧
    ∃ R, mainHard mc problemUniformPoisson configHard sample θ files = .ok R := by
  have hsum : ∑ e ∈ Finset.range 10000, mc.elapsed e ≠ 0 :=
    (Finset.sum_pos (fun e _ => hclock e) ⟨0, by simp⟩).ne'
  have hb1 : 4 ≤ 400 → ∀ tag ∈ [(1000 : ℤ), 1001, 1002, 1003],
      ∃ g, UniformPoisson.boundaryFunctionDict.lookup tag = some g := by
    simp [UniformPoisson.boundaryFunctionDict, List.lookup]
  have hb2 : 4 ≤ 400 → ∀ tag ∈ [(1000 : ℤ), 1001, 1002, 1003],
      ∃ g, Helmholtz.boundaryFunctionDict.lookup tag = some g := by
    simp [Helmholtz.boundaryFunctionDict, List.lookup]
  have hlr : ∀ k ∈ ["initial_learning_rate", "use_lr_scheduler", "decay_steps", "decay_rate"],
      ∃ v, shippedLearningRate.lookup k = some v := by
    simp [shippedLearningRate, List.lookup]
  have hlr' : ∀ k ∈ ["initial_learning_rate", "use_lr_scheduler", "decay_steps", "decay_rate", "staircase"],
      ∃ v, shippedLearningRate.lookup k = some v := by
    simp [shippedLearningRate, List.lookup]
  have hp1 : ∀ k ∈ requiredParams .poisson, ∃ v, UniformPoisson.bilinearParamsDict.lookup k = some v := by
    simp [requiredParams, UniformPoisson.bilinearParamsDict, List.lookup]
  have hp2 : ∀ k ∈ requiredParams .helmholtz, ∃ v, Helmholtz.bilinearParamsDict.lookup k = some v := by
    simp [requiredParams, Helmholtz.bilinearParamsDict, List.lookup]
  refine ⟨?_, ?_, ?_⟩
  · refine (C76_uniform_completes mc problemUniformPoisson configUniformPoisson .poisson (Or.inl rfl)
      (fun _ _ _ => rfl) sample θ files nofun rfl hmsh).1.2 ⟨⟨Or.inr rfl, rfl, ?_, ?_, ?_, ?_, ?_, Or.inr rfl, hb1, ?_,
      hlr, hp1⟩, ?_, ?_, hsum⟩ <;> simp [configUniformPoisson]
  · refine (C76_uniform_completes mc problemHelmholtz configHelmholtz .helmholtz (Or.inr (Or.inr rfl))
      (fun _ _ _ => rfl) sample θ files nofun rfl hmsh).1.2 ⟨⟨Or.inr rfl, rfl, ?_, ?_, ?_, ?_, ?_, Or.inr rfl, hb2, ?_,
      hlr, hp2⟩, ?_, ?_, hsum⟩ <;> simp [configHelmholtz, configUniformPoisson]
  · refine (C76_hard_completes mc problemUniformPoisson configHard .poisson (Or.inl rfl)
      (fun _ _ _ => rfl) sample θ files nofun rfl hmsh).1.2 ⟨⟨Or.inr rfl, rfl, ?_, ?_, ?_, ?_, ?_, Or.inr rfl, hb1, ?_,
      hlr', hp1⟩, ?_, ?_, hsum⟩ <;> simp [configHard, configUniformPoisson]

/-- **C76** (shipped configurations, mesh files).  With the clock advancing, the scripts for the Poisson, the
Helmholtz and the convection-diffusion problem on mesh files finish with the configurations they are shipped
with, if the mesh file can be read, has at least one cell, and its only boundary tag is 1000. -/
theorem C76_shipped_external (mc : Machine) (hclock : ∀ e, 0 < mc.elapsed e)
    (hjoin : ∀ folder a b, mc.env.join folder a = mc.env.join folder b → a = b)
    (lhs : ℕ → Fin (2 ^ 4 + 1) → ℝ × ℝ) (θ : Weights) (files : Files) (hvtk : ∀ file m,
      mc.env.read files file = .ok m → VtkRoundTrip mc.env m) (cells : List Quad) (pts : List (List ℝ))
    (hc : cells ≠ []) (hpts : pts ≠ []) :
    (readMesh (mc.env.read files) "../meshes/circle_quad.mesh" 4 "uniform" lhs = .ok (cells, [(1000, pts)]) →
      (∃ R, mainExternal mc problemComplexPoisson (fun _ => fixedLayers) configComplexPoisson lhs θ files = .ok R) ∧
      (∃ R, mainExternal mc problemComplexHelmholtz ForwardConfig.modelArchitecture configComplexHelmholtz lhs θ files
        = .ok R) ∧
      ∃ R, mainExternal mc problemCd2d ForwardConfig.modelArchitecture configCd2d lhs θ files = .ok R) ∧
    (readMesh (mc.env.read files) "../meshes/usa.mesh" 4 "uniform" lhs = .ok (cells, [(1000, pts)]) →
      ∃ R, mainExternal mc problemComplexPoisson (fun _ => fixedLayers) configUSA lhs θ files = .ok R) := by
  have hsum : ∀ n, 0 < n → ∑ e ∈ Finset.range n, mc.elapsed e ≠ 0 := fun n hn =>
    (Finset.sum_pos (fun e _ => hclock e) ⟨0, by simpa using hn⟩).ne'
  have hlr : ∀ k ∈ ["initial_learning_rate", "use_lr_scheduler", "decay_steps", "decay_rate"],
      ∃ v, shippedLearningRate.lookup k = some v := by
    simp [shippedLearningRate, List.lookup]
  have hp1 : ∀ k ∈ requiredParams .poisson, ∃ v, ComplexPoisson.bilinearParamsDict.lookup k = some v := by
    simp [requiredParams, ComplexPoisson.bilinearParamsDict, List.lookup]
  have hp2 : ∀ k ∈ requiredParams .helmholtz, ∃ v, Helmholtz.bilinearParamsDict.lookup k = some v := by
    simp [requiredParams, Helmholtz.bilinearParamsDict, List.lookup]
  have hp3 : ∀ k ∈ requiredParams .cd2d, ∃ v, ConvectionDiffusion.bilinearParamsDict.lookup k = some v := by
    simp [requiredParams, ConvectionDiffusion.bilinearParamsDict, List.lookup]
  have hb1 : ∀ e ∈ [((1000 : ℤ), pts)], e.2 ≠ [] → ∃ g, ComplexPoisson.boundaryFunctionDict.lookup e.1 = some g := by
    simp [ComplexPoisson.boundaryFunctionDict, List.lookup]
  have hb2 : ∀ e ∈ [((1000 : ℤ), pts)], e.2 ≠ [] →
      ∃ g, Helmholtz.complexBoundaryFunctionDict.lookup e.1 = some g := by
    simp [Helmholtz.complexBoundaryFunctionDict, List.lookup]
  have hb3 : ∀ e ∈ [((1000 : ℤ), pts)], e.2 ≠ [] →
      ∃ g, ConvectionDiffusion.boundaryFunctionDict.lookup e.1 = some g := by
    simp [ConvectionDiffusion.boundaryFunctionDict, List.lookup]
  have hpl : ∀ b : Bool, b = true → [((1000 : ℤ), pts)].length < 16 ∧ ∀ e ∈ [((1000 : ℤ), pts)], e.2 ≠ [] := by
    simp [hpts]
  refine ⟨fun hr => ⟨?_, ?_, ?_⟩, fun hr => ?_⟩
  · refine (C76_external_completes mc problemComplexPoisson (fun _ => fixedLayers) configComplexPoisson .poisson
      (Or.inl rfl) (fun _ _ _ => rfl) lhs θ files nofun rfl (hjoin _) (hvtk _)).1.2 ⟨⟨cells, _, hr, Or.inr rfl, rfl, hc,
      ?_, ?_, ?_, Or.inr rfl, hb1, hpl _, hlr, hp1, by decide, rfl, rfl⟩, ?_, ?_, hsum _ (by decide)⟩ <;>
      simp [configComplexPoisson, configUniformPoisson]
  · refine (C76_external_completes mc problemComplexHelmholtz ForwardConfig.modelArchitecture configComplexHelmholtz
      .helmholtz (Or.inr (Or.inr rfl)) (fun _ _ _ => rfl) lhs θ files nofun rfl (hjoin _) (hvtk _)).1.2
      ⟨⟨cells, _, hr, Or.inr rfl, rfl, hc,
      ?_, ?_, ?_, Or.inr rfl, hb2, hpl _, hlr, hp2, ?_, rfl, rfl⟩, ?_, ?_, hsum _ (by decide)⟩ <;>
      simp [configComplexHelmholtz, configUniformPoisson]
  · refine (C76_external_completes mc problemCd2d ForwardConfig.modelArchitecture configCd2d
      .cd2d (Or.inr (Or.inl rfl)) (fun _ _ _ => rfl) lhs θ files nofun rfl (hjoin _) (hvtk _)).1.2
      ⟨⟨cells, _, hr, Or.inr rfl, rfl, hc,
      ?_, ?_, ?_, Or.inr rfl, hb3, hpl _, hlr, hp3, ?_, rfl, rfl⟩, ?_, ?_, hsum _ (by decide)⟩ <;>
      simp [configCd2d, configUniformPoisson]
  · refine (C76_external_completes mc problemComplexPoisson (fun _ => fixedLayers) configUSA .poisson
      (Or.inl rfl) (fun _ _ _ => rfl) lhs θ files nofun rfl (hjoin _) (hvtk _)).1.2 ⟨⟨cells, _, hr, Or.inr rfl, rfl, hc,
      ?_, ?_, ?_, Or.inr rfl, hb1, hpl _, hlr, hp1, by decide, rfl, rfl⟩, ?_, ?_, hsum _ (by decide)⟩ <;>
      simp [configUSA, configUniformPoisson]

private theorem prepareModel_architecture (mc : Machine) (cfg : ForwardConfig) (arch : List ℕ) (pb : Problem)
    (ld : List ℕ) (lrFn : List (String × PyVal) → Except PyErr LearningRate) (o : GeometryObject) (files : Files)
    (cells : List Quad) (bd : BdDict) :
    prepareModel mc { cfg with modelArchitecture := arch } pb ld lrFn o files cells bd
      = prepareModel mc cfg pb ld lrFn o files cells bd := by
  unfold prepareModel
  dsimp only
  rcases fespace2D mc.quad ((o.mesh.map StoredMesh.planePoints).getD []) cells bd
      ⟨o.meshType, cfg.feOrder, cfg.feType, cfg.quadOrder, cfg.quadType, "bilinear"⟩
      pb.boundaryFunctionDict pb.rhs cfg.generateMeshPlot with e | ⟨nq, S⟩
  · rfl
  · dsimp only
    rcases dataHandler2D S true with e | ⟨D, S'⟩ <;> rfl

private theorem finishRun_architecture {α : Type} (mc : Machine) (cfg : ForwardConfig) (arch : List ℕ)
    (M : DriverModel α) (yExact : List ℝ) (s : LoopState α Report) :
    finishRun mc { cfg with modelArchitecture := arch } M yExact s = finishRun mc cfg M yExact s := by
  unfold finishRun
  rfl

private theorem runUniform_architecture {α : Type} (mc : Machine) (cfg : ForwardConfig) (arch : List ℕ)
    (pb : Problem) (P : Prepared) (M : DriverModel α) (θ : Weights) :
    runUniform mc { cfg with modelArchitecture := arch } pb P M θ = runUniform mc cfg pb P M θ := by
  unfold runUniform
  simp only [finishRun_architecture]
  rcases GeometryObject.getTestPoints mc.env P.geometry P.files with ⟨e | v, o, f⟩
  · rfl
  · rcases v with _ | points | _ <;> try rfl
    dsimp only
    rcases contourMatrices cfg.nTestPointsX cfg.nTestPointsY pb.exactSolution points with e | m <;> rfl

private theorem runExternal_architecture {α : Type} (mc : Machine) (cfg : ForwardConfig) (arch : List ℕ)
    (pb : Problem) (P : Prepared) (M : DriverModel α) (θ : Weights) :
    runExternal mc { cfg with modelArchitecture := arch } pb P M θ = runExternal mc cfg pb P M θ := by
  unfold runExternal
  simp only [finishRun_architecture]

/-- **C76** (a finding).  The configured architecture has no effect on the scripts on the rectangle and on the
two Poisson scripts on mesh files: the shipped Poisson configuration asks for four layers of 50 neurons and
three layers of 30 neurons are trained. -/
theorem C76_architecture_ignored (mc : Machine) (pb : Problem) (cfg : ForwardConfig) (arch : List ℕ)
    (sample : Fin 4 → Fin (cfg.nBoundaryPoints / 4) → ℝ)
    (lhs : ℕ → Fin (2 ^ cfg.boundaryRefinementLevel + 1) → ℝ × ℝ) (θ : Weights) (files : Files) :
    mainUniform mc pb { cfg with modelArchitecture := arch } sample θ files
      = mainUniform mc pb cfg sample θ files ∧
    mainHard mc pb { cfg with modelArchitecture := arch } sample θ files = mainHard mc pb cfg sample θ files ∧
    mainExternal mc pb (fun _ => fixedLayers) { cfg with modelArchitecture := arch } lhs θ files
      = mainExternal mc pb (fun _ => fixedLayers) cfg lhs θ files := by
  have hp := prepareModel_architecture mc cfg arch pb fixedLayers
  have hu : ∀ lrFn, prepareUniform mc { cfg with modelArchitecture := arch } pb fixedLayers lrFn sample files
      = prepareUniform mc cfg pb fixedLayers lrFn sample files := by
    intro lrFn
    unfold prepareUniform
    simp only [hp]
  have he : prepareExternal mc { cfg with modelArchitecture := arch } pb fixedLayers lhs files
      = prepareExternal mc cfg pb fixedLayers lhs files := by
    unfold prepareExternal
    simp only [hp]
  refine ⟨?_, ?_, ?_⟩
  · unfold mainUniform
    rw [hu]
    rcases prepareUniform mc cfg pb fixedLayers learningRateFn sample files with e | P
    · rfl
    · exact runUniform_architecture mc cfg arch pb P (P.dense mc cfg pb (outDim P.specs)) θ
  · unfold mainHard
    rw [hu]
    rcases prepareUniform mc cfg pb fixedLayers learningRateFnStaircase sample files with e | P
    · rfl
    · exact runUniform_architecture mc cfg arch pb P (P.hard mc cfg pb (outDim P.specs)) θ
  · unfold mainExternal
    rw [he]
    rcases prepareExternal mc cfg pb fixedLayers lhs files with e | P
    · rfl
    · exact runExternal_architecture mc cfg arch pb P (P.dense mc cfg pb (outDim P.specs)) θ

/-- The result would depend on the architecture if it were used: networks of different depth have different
values. -/
theorem C76_architecture_matters : ∃ (θ : Weights) (p : ℝ × ℝ),
    networkValue Real.tanh [2, 50, 50, 50, 50, 1] θ p ≠ networkValue Real.tanh [2, 30, 30, 30, 1] θ p := by
  refine ⟨fun v => if v = .bias 3 0 then 1 else 0, (0, 0), ?_⟩
  simp [networkValue, outputValue]

/-! ## Concrete runs -/

/-- Libraries, clock and file system of a demonstration: a mesh file and a gmsh file can be read. -/
noncomputable def demoMachine (quad : QuadRoutines) : Machine where
  quad := quad
  env := { demoEnv with parseMsh := fun _ => .ok demoMesh }
  act := fun _ => Real.tanh
  attention := attentionDot
  fmt4 := fun _ => "0.0000"
  str := toString
  elapsed := fun _ => 1
  lrNumpy := fun _ => .ok ()

/-- The hypotheses of the theorems on the rectangle are met by the shipped configurations. -/
example (quad : QuadRoutines) (sample : Fin 4 → Fin (400 / 4) → ℝ) (θ : Weights) :
    (∀ x y hx hy, ∃ m, (demoMachine quad).env.parseMsh ((demoMachine quad).env.gmsh x y hx hy) = .ok m) ∧
    (∀ a b, (demoMachine quad).env.join "output/poisson2d/1" a = (demoMachine quad).env.join "output/poisson2d/1" b →
      a = b) ∧
    (∃ R, mainUniform (demoMachine quad) problemUniformPoisson configUniformPoisson sample θ demoFiles = .ok R) ∧
    (∃ R, mainHard (demoMachine quad) problemUniformPoisson configHard sample θ demoFiles = .ok R) := by
  have hmsh : ∀ x y hx hy, ∃ m, (demoMachine quad).env.parseMsh ((demoMachine quad).env.gmsh x y hx hy) = .ok m :=
    fun _ _ _ _ => ⟨_, rfl⟩
  obtain ⟨h1, -, h3⟩ := C76_shipped_uniform (demoMachine quad) hmsh (fun _ => by simp [demoMachine]) sample θ demoFiles
  exact ⟨hmsh, fun a b h => by simpa [demoMachine, demoEnv] using h, h1, h3⟩

/-- They are also met with the attention layer: the script finishes, and the network of C76 is evaluated at the
averaged points. -/
example (quad : QuadRoutines) (sample : Fin 4 → Fin (400 / 4) → ℝ) (θ : Weights) :
    ∃ R, mainUniform (demoMachine quad) problemUniformPoisson { configUniformPoisson with useAttention := true } sample θ
      demoFiles = .ok R := by
  refine (C76_uniform_completes (demoMachine quad) problemUniformPoisson { configUniformPoisson with useAttention := true }
    .poisson (Or.inl rfl) (fun _ _ _ => rfl) sample θ demoFiles (fun _ => rfl) rfl (fun _ _ _ _ => ⟨_, rfl⟩)).1.2
    ⟨⟨Or.inr rfl, rfl, ?_, ?_, ?_, ?_, ?_, Or.inr rfl, ?_, ?_, ?_, ?_⟩, ?_, ?_, ?_⟩
  case refine_6 => simp [problemUniformPoisson, UniformPoisson.boundaryFunctionDict, List.lookup]
  case refine_9 => simp [requiredParams, problemUniformPoisson, UniformPoisson.bilinearParamsDict, List.lookup]
  case refine_8 => simp [configUniformPoisson, shippedLearningRate, List.lookup]
  all_goals simp [configUniformPoisson, demoMachine]

/-- A problem and configuration for the demonstration mesh. -/
noncomputable def demoConfig : ForwardConfig :=
  { configCd2d with meshFileName := "meshes/demo.v2.mesh", boundaryRefinementLevel := 2, epochs := 7,
                    updateConsoleOutput := 3, generateMeshPlot := false }

noncomputable def demoProblem : Problem :=
  { problemCd2d with boundaryFunctionDict := [(7, fun x _ => x), (5, fun _ _ => 1)] }

/-- The hypotheses of the theorems on mesh files are met by a configuration for the demonstration mesh; there
are reports after epochs 2, 5 and 6. -/
lemma demoConfig_runs (quad : QuadRoutines) (lhs : ℕ → Fin (2 ^ 2 + 1) → ℝ × ℝ) (θ : Weights) :
    (∀ a b, (demoMachine quad).env.join demoConfig.outputPath a = (demoMachine quad).env.join demoConfig.outputPath b →
      a = b) ∧
    (∀ m, (demoMachine quad).env.read demoFiles demoConfig.meshFileName = .ok m →
      VtkRoundTrip (demoMachine quad).env m) ∧
    (∃ R, mainExternal (demoMachine quad) demoProblem ForwardConfig.modelArchitecture demoConfig lhs θ demoFiles
      = .ok R) ∧
    reportEpochs demoConfig.updateConsoleOutput demoConfig.epochs = [2, 5, 6] := by
  have hjoin : ∀ a b, (demoMachine quad).env.join demoConfig.outputPath a
      = (demoMachine quad).env.join demoConfig.outputPath b → a = b := fun a b h => by
    simpa [demoMachine, demoEnv] using h
  have hr : (demoMachine quad).env.read demoFiles "meshes/demo.v2.mesh" = .ok demoMesh := by
    simp [MeshFiles.read, demoFiles, demoEnv, demoMachine]
  have hvtk : ∀ m, (demoMachine quad).env.read demoFiles demoConfig.meshFileName = .ok m →
      VtkRoundTrip (demoMachine quad).env m := by
    intro m hm
    obtain rfl := Except.ok.inj (hr.symm.trans hm)
    exact fun path => ⟨demoMesh, by simp [demoEnv, demoMachine], rfl⟩
  refine ⟨hjoin, hvtk, ?_, by decide⟩
  have h := C10_sampling_method ((demoMachine quad).env.read demoFiles) "meshes/demo.v2.mesh" 2 "uniform" lhs demoMesh
    demo_extension hr demoMesh_wellFormed
  obtain ⟨⟨cells, d⟩, hd⟩ := (h.1 (by simp [cellsOfType, demoMesh])).1.2 (Or.inl rfl)
  obtain ⟨⟨tags, ht, hk⟩, -⟩ := C08_grouping _ _ 2 _ lhs cells d demoMesh hr hd
  have hkeys : d.map Prod.fst = [7, 5] := by
    simp only [demoMesh, List.head?_cons, Option.some.injEq] at ht
    rw [hk, ← ht]
    simp [demoMesh, cellsOfType]
    decide
  have hcells : cells ≠ [] := by
    have := (C06_anticlockwise _ _ 2 _ lhs cells d demoMesh hr hd).1
    rw [← List.length_pos_iff, this]
    simp [cellsOfType, demoMesh]
  refine (C76_external_completes (demoMachine quad) demoProblem ForwardConfig.modelArchitecture demoConfig .cd2d
    (Or.inr (Or.inl rfl)) (fun _ _ _ => rfl) lhs θ demoFiles nofun rfl hjoin hvtk).1.2
    ⟨⟨cells, d, hd, Or.inr rfl, rfl, hcells, ?_, ?_, ?_, Or.inr rfl, ?_, ?_, ?_, ?_, ?_, rfl, rfl⟩, ?_, ?_, ?_⟩
  · simp [demoConfig, configCd2d]
  · simp [demoConfig, configCd2d]
  · simp [demoConfig, configCd2d]
  · intro e he _
    have : e.1 ∈ d.map Prod.fst := List.mem_map_of_mem he
    rw [hkeys] at this
    simp only [List.mem_cons, List.not_mem_nil, or_false] at this
    rcases this with h | h <;> rw [h] <;> exact ⟨_, rfl⟩
  · simp [demoConfig]
  · simp [demoConfig, configCd2d, configUniformPoisson, shippedLearningRate, List.lookup]
  · simp [demoProblem, problemCd2d, requiredParams, ConvectionDiffusion.bilinearParamsDict, List.lookup]
  · simp [demoConfig, configCd2d, configUniformPoisson]
  · simp [demoConfig]
  · simp [demoConfig]
  · simp [demoConfig, demoMachine]

end FastVPINNs
