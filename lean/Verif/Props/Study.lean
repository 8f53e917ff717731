import Verif.Spec.Study
import Verif.Props.Tuning
import Verif.Props.DriverShipped
import Verif.Props.Training
import Verif.Props.ConfigFile
import Verif.Props.ConfigShipped

/-! # C82: a hyper-parameter study -/

namespace FastVPINNs

open Spec

/-- The model the trial builds, with its learning rate. -/
lemma objective_model_lr (p : SearchPoint) {nt nq : ℕ} (D : DataHandler2D nt nq)
    (bd : List (ℝ × ℝ) × List ℝ) (n : ℕ) (lr : LearningRate) (hlr : learningRateFn p.learningRate = .ok lr) :
    ∃ m, initDense (objectiveKwargs p D bd n) = .ok m ∧ m.core.layerDims = p.architecture ∧
      m.core.useAttention = false ∧
      m.core.layerList = p.hidden.map (fun n => ⟨n, some "tanh"⟩) ++ [⟨1, none⟩] ∧
      modelTensors m = .ok (lossPoisson _ _ _, modelDataOf D bd n) ∧ m.core.learningRate = lr := by
  have hc : ∃ core, modelCore learningRateFn p.architecture p.learningRate [("n_cells", (n : ℤ))]
      (.loss (lossPoisson _ _ _) : TensorObj D.nCells nt nq (D.nCells * nq) bd.1.length)
      [.input D.xPde, .bdPoints fun i => bd.1.get i, .bdValues fun i => bd.2.getD i.val 0]
      [.mat D.shapeValMat, .mat D.gradXMat, .mat D.gradYMat] (.force D.forcing) (true, "float32") false "tanh"
      false = .ok core ∧ core.layerDims = p.architecture ∧ core.useAttention = false ∧
      core.layerList = p.hidden.map (fun n => ⟨n, some "tanh"⟩) ++ [⟨1, none⟩] ∧
      modelTensors ⟨core⟩ = .ok (lossPoisson _ _ _, modelDataOf D bd n) ∧ core.learningRate = lr := by
    have e0 : ∀ (a b c : TensorObj D.nCells nt nq (D.nCells * nq) bd.1.length), pyIndex [a, b, c] 0 = .ok a :=
      fun _ _ _ => rfl
    have e1 : ∀ (a b c : TensorObj D.nCells nt nq (D.nCells * nq) bd.1.length), pyIndex [a, b, c] 1 = .ok b :=
      fun _ _ _ => rfl
    have e2 : ∀ (a b c : TensorObj D.nCells nt nq (D.nCells * nq) bd.1.length), pyIndex [a, b, c] 2 = .ok c :=
      fun _ _ _ => rfl
    have e3 : strGet [("n_cells", (n : ℤ))] "n_cells" = .ok (n : ℤ) := rfl
    have e4 : pyIndex p.architecture 0 = .ok 2 := rfl
    unfold modelCore
    simp only [bind, Except.bind, pure, Except.pure, hlr, architecture_specs p, e0, e1, e2, e3, e4,
      Bool.true_eq_false, if_false, Except.ok.injEq, exists_eq_left']
    exact ⟨trivial, trivial, trivial, rfl, trivial⟩
  obtain ⟨core, hc, h⟩ := hc
  exact ⟨⟨core⟩, initDense_of _ _ _ _ _ _ _ _ _ _ _ _ _ core (objective_bind p D bd n) hc, h⟩

/-- The mesh of a trial. -/
noncomputable def trialMesh (p : SearchPoint) (sample : Fin 4 → Fin (p.nBoundaryPoints / 4) → ℝ) (opt : Bool) :
    InternalMesh :=
  generateQuadMeshInternal ⟨"quadrilateral", "internal", 100, 100, opt, none, none⟩ (0, 1) (0, 1) p.nCellsX p.nCellsY
    p.nBoundaryPoints sample

/-- What the trial computes, with the parts that do not fail. -/
lemma trainedObjective_of (mc : Machine) (p : SearchPoint) (n : ℕ)
    (sample : Fin 4 → Fin (p.nBoundaryPoints / 4) → ℝ) (θ : Weights) (nq : ℕ)
    (S S' : Fespace2D (ℝ → ℝ → ℝ) ℝ (p.feOrder.toNat ^ 2) nq) (D : DataHandler2D (p.feOrder.toNat ^ 2) nq)
    (bdv : List (ℝ × ℝ) × List ℝ) (lr : LearningRate)
    (hS : fespace2D mc.quad (trialMesh p sample true).meshPoints (trialMesh p sample true).cells
      (trialMesh p sample true).bdDict
      ⟨"quadrilateral", p.feOrder, p.feType, p.quadOrder, p.quadType, "bilinear"⟩
      UniformPoisson.boundaryFunctionDict UniformPoisson.rhs false = .ok ⟨nq, S⟩)
    (hD : dataHandler2D S true = .ok (D, S')) (hbd : getDirichletInput S' = .ok bdv)
    (hlr : learningRateFn p.learningRate = .ok lr) (outs : List (TrainOut 1)) (s : TrainState)
    (htr : trainEpochs (trainStepWith (forwardDense (lossPoisson D.nCells _ nq) (modelDataOf D bdv S'.nCells) mc.act
      mc.attention false 2 (p.hidden.map (fun n => ⟨n, some "tanh"⟩) ++ [⟨1, none⟩]) 1 10
      (some (paramsAsTensors UniformPoisson.bilinearParamsDict)))
      (trainableVariables 2 (p.hidden.map (fun n => ⟨n, some "tanh"⟩) ++ [⟨1, none⟩]) []) lr) n
      ⟨θ, AdamState.init⟩ = .ok (outs, s))
    (pts : List (ℝ × ℝ)) (hpts : getTestPoints (trialMesh p sample true).geometry (.error .valueError) = .ok pts)
    (E : ErrorValues) (hE : computeErrorsCombined (array1 (pts.map fun z => UniformPoisson.exactSolution z.1 z.2))
      (array1 (pts.map (networkValue (mc.act "tanh") p.architecture s.weights))) = .ok E) :
    trainedObjective mc p n sample θ = .ok E.2.2.1 := by
  have hg : geometry2D "quadrilateral" "internal" 100 100 true
      = .ok ⟨"quadrilateral", "internal", 100, 100, true, none, none⟩ := by
    simp [geometry2D]
  have hmesh : generateQuadMeshInternal ⟨"quadrilateral", "internal", 100, 100, true, none, none⟩ (0, 1) (0, 1)
      p.nCellsX p.nCellsY p.nBoundaryPoints sample = trialMesh p sample true := rfl
  have hmt : (trialMesh p sample true).geometry.meshType = "quadrilateral" := rfl
  obtain ⟨m, hm, hdims, hatt, hlist, hten, hmlr⟩ := objective_model_lr p D bdv S'.nCells lr hlr
  have e0 : pyIndex p.architecture 0 = .ok 2 := rfl
  have hcall := callDense_points mc.act mc.attention p.architecture "tanh" _ (by simp [SearchPoint.architecture])
    (architecture_specs p) rfl (by simp [SearchPoint.architecture]) s.weights pts
  unfold trainedObjective
  rw [hg]
  simp only [Except.mapError, bind, Except.bind, pure, Except.pure]
  rw [hmesh, hmt, hS]
  simp only [hD, hbd, hm, hdims, e0, hten, hatt, hlist, hmlr]
  rw [htr]
  simp only [hpts, hcall, flatten_singletons, hE]

lemma trainEpochs_succeeds {α : Type} (step : TrainState → Except PyErr (α × TrainState))
    (hstep : ∀ s, ∃ r, step s = .ok r) (n : ℕ) (s : TrainState) : ∃ r, trainEpochs step n s = .ok r := by
  induction n generalizing s with
  | zero => exact ⟨_, rfl⟩
  | succ n ih =>
    obtain ⟨⟨o, s'⟩, h⟩ := hstep s
    obtain ⟨⟨l, s''⟩, h'⟩ := ih s'
    simp only [trainEpochs, h, h']
    exact ⟨_, rfl⟩

lemma trial_learningRate (p : SearchPoint) : learningRateFn p.learningRate
    = .ok (.exponentialDecay p.initialLearningRate p.decaySteps p.decayRate true) := by
  simp [learningRateFn, SearchPoint.learningRate, strGet, List.lookup, PyVal.truthy, PyVal.toReal]

lemma trialMesh_points (p : SearchPoint) (sample : Fin 4 → Fin (p.nBoundaryPoints / 4) → ℝ) (opt : Bool)
    (vtk : Except PyErr (List (ℝ × ℝ × ℝ))) :
    ∃ pts, getTestPoints (trialMesh p sample opt).geometry vtk = .ok pts ∧ IsTensorGrid (0, 1) (0, 1) 100 100 pts := by
  obtain ⟨pts, h1, h2, h3, -⟩ := C05_test_points "quadrilateral" 100 100 opt
    ⟨"quadrilateral", "internal", 100, 100, opt, none, none⟩ (by simp [geometry2D]) (0, 1) (0, 1) p.nCellsX p.nCellsY
    p.nBoundaryPoints sample vtk
  exact ⟨pts, h1, h2, h3⟩

lemma grid_exact_pos (pts : List (ℝ × ℝ)) (h : IsTensorGrid (0, 1) (0, 1) 100 100 pts) :
    0 < (pts.map fun z => UniformPoisson.exactSolution z.1 z.2 ^ 2).sum := by
  have := exact_nonzero
  rw [sum_map_grid (fun z => UniformPoisson.exactSolution z.1 z.2 ^ 2)
    (fun i j => ((i : ℝ) / 99, (j : ℝ) / 99)) 100 100 pts h.1]
  · exact this
  · intro i hi j hj
    rw [h.2 i hi j hj]
    norm_num [gridLine]

/-- **C82** (the value of a trial).  Every point of the search space gives a value: the relative error, over the
`100 × 100` grid on the unit square, of the network with the suggested layers after `n` steps of training from the
initial weights `θ`, with the tensors assembled for the suggested mesh, order and quadrature, the suggested decay of
the learning rate, and the weight 10 of the boundary. -/
theorem C82_value (mc : Machine) (p : SearchPoint) (hp : p.InSpace) (n : ℕ)
    (sample : Fin 4 → Fin (p.nBoundaryPoints / 4) → ℝ) (θ : Weights) (outputPath : String) (update : ℤ) :
    ∃ (g : Geometry2D) (mesh : InternalMesh) (nq : ℕ) (S S' : Fespace2D (ℝ → ℝ → ℝ) ℝ (p.feOrder.toNat ^ 2) nq)
      (D : DataHandler2D (p.feOrder.toNat ^ 2) nq) (bdv : List (ℝ × ℝ) × List ℝ) (specs : List LayerSpec)
      (pts : List (ℝ × ℝ)) (st : ℕ → TrainState) (outs : List (TrainOut 1)) (v : ℝ),
      geometry2D "quadrilateral" "internal" 100 100 true = .ok g ∧
      mesh = generateQuadMeshInternal g (0, 1) (0, 1) p.nCellsX p.nCellsY p.nBoundaryPoints sample ∧
      Assembled mc (trialConfig p n outputPath update) problemUniformPoisson ([2] ++ p.hidden ++ [1]) mesh.meshPoints
        mesh.cells mesh.bdDict S S' D bdv specs ∧
      IsTensorGrid (0, 1) (0, 1) 100 100 pts ∧ st 0 = ⟨θ, AdamState.init⟩ ∧ outs.length = n ∧
      IsRun (trainStepWith (forwardDense (lossPoisson D.nCells _ nq) (modelDataOf D bdv mesh.cells.length) mc.act
        mc.attention false 2 specs 1 10 (some UniformPoisson.bilinearParamsDict)) (trainableVariables 2 specs [])
        (.exponentialDecay p.initialLearningRate p.decaySteps p.decayRate true)) st outs ∧
      trainedObjective mc p n sample θ = .ok v ∧
      IsRelativeError pts (fun z => UniformPoisson.exactSolution z.1 z.2)
        (networkValue (mc.act "tanh") ([2] ++ p.hidden ++ [1]) (st n).weights) v := by
  have hcells : (trialMesh p sample true).cells ≠ [] := by
    have := (C02_internal_cells ⟨"quadrilateral", "internal", 100, 100, true, none, none⟩ (0, 1) (0, 1) (by norm_num)
      (by norm_num) p.nCellsX p.nCellsY p.nBoundaryPoints sample).1
    rw [← List.length_pos_iff]
    refine lt_of_lt_of_eq ?_ this.symm
    exact Nat.mul_pos (by have := hp.cellsX.1; omega) (by have := hp.cellsY.1; omega)
  obtain ⟨nq, S, hS⟩ := (C63_constructor mc.quad (trialMesh p sample true).meshPoints (trialMesh p sample true).cells
    (trialMesh p sample true).bdDict ⟨"quadrilateral", p.feOrder, p.feType, p.quadOrder, p.quadType, "bilinear"⟩
    UniformPoisson.boundaryFunctionDict UniformPoisson.rhs).2 (by
      refine ⟨rfl, hcells, ⟨hp.order.1, ?_⟩, ?_, ⟨hp.quadrature.1, ?_⟩, ?_, Or.inl rfl, ?_⟩
      · have := hp.order.2; show p.feOrder < 1000; omega
      · have := hp.type
        simp only [List.mem_cons, List.not_mem_nil, or_false] at this
        rcases this with h | h <;> simp [supportedFeType, h]
      · have := hp.quadrature.2; show p.quadOrder ≤ 9999; omega
      · have := hp.quadratureType
        simpa using this
      · intro e he _
        simp only [trialMesh, generateQuadMeshInternal, internalBoundary, List.mem_cons, List.not_mem_nil,
          or_false] at he
        rcases he with rfl | rfl | rfl | rfl <;>
          simp [UniformPoisson.boundaryFunctionDict, List.lookup])
  obtain ⟨-, D, S', hD, -, -, -⟩ := C41_layout mc.quad _ _ _ _ UniformPoisson.boundaryFunctionDict UniformPoisson.rhs
    false S hS
  obtain ⟨-, hn', -, -, hb', hf'⟩ := reachable_forall₂ (dataHandler_reachable _ _ _ _ _ _ _ _ hS hD)
  have hn : S'.nCells = (trialMesh p sample true).cells.length := by
    rw [hn', (fespace_ok hS).2.2.2.2.1]
  obtain ⟨bdv, hbd⟩ : ∃ bd, getDirichletInput S' = .ok bd := by
    obtain ⟨-, -, -, -, -, h1, h2, h3, -⟩ := fespace_ok hS
    exact ⟨S.dirichletBoundaryData, by unfold getDirichletInput; rw [hb', hf', h1, h2, h3]⟩
  have hA : Assembled mc (trialConfig p n outputPath update) problemUniformPoisson ([2] ++ p.hidden ++ [1])
      (trialMesh p sample true).meshPoints (trialMesh p sample true).cells (trialMesh p sample true).bdDict S S' D bdv
      (p.hidden.map (fun n => ⟨n, some "tanh"⟩) ++ [⟨1, none⟩]) := ⟨hS, hD, hbd, architecture_specs p⟩
  obtain ⟨pt, -, hstep⟩ := C76_losses mc problemUniformPoisson (trialConfig p n outputPath update) .poisson
    (by simp [LossKind.forward]) (fun _ _ _ => rfl) ([2] ++ p.hidden ++ [1]) (by simp) rfl (by simp) _ _ _ nq S S' D bdv
    _ hA (.exponentialDecay p.initialLearningRate p.decaySteps p.decayRate true)
  obtain ⟨⟨outs, s⟩, htr⟩ := trainEpochs_succeeds _ (fun s => (hstep s).1.2
    ⟨_, _, _, 1.0, ⟨_, rfl, rfl⟩, rfl, rfl, rfl⟩) n ⟨θ, AdamState.init⟩
  obtain ⟨hlen, st, hrun, h0, hend⟩ := (trainEpochs_iff _ _ _ _ _).1 htr
  obtain ⟨pts, hpts, hgrid⟩ := trialMesh_points p sample true (.error .valueError)
  have hne : pts ≠ [] := by
    rw [← List.length_pos_iff, hgrid.1]
    norm_num
  obtain ⟨l2, linf, l2r, linfr, l1, l1r, hE, herr⟩ := errors_at pts hne (fun z => UniformPoisson.exactSolution z.1 z.2)
    (networkValue (mc.act "tanh") p.architecture s.weights)
  have hobj := trainedObjective_of mc p n sample θ nq S S' D bdv _ hS hD hbd (trial_learningRate p) outs s
    (by rw [hn]; exact htr) pts hpts _ hE
  refine ⟨⟨"quadrilateral", "internal", 100, 100, true, none, none⟩, trialMesh p sample true, nq, S, S', D, bdv, _, pts,
    st, outs, l2r, by simp [geometry2D], rfl, hA, hgrid, h0, hlen, hrun, hobj, ?_⟩
  have hpos := grid_exact_pos pts hgrid
  have hex : ∃ z ∈ pts, UniformPoisson.exactSolution z.1 z.2 ≠ 0 := by
    by_contra hcon
    push Not at hcon
    have : (pts.map fun z => UniformPoisson.exactSolution z.1 z.2 ^ 2).sum = 0 := by
      refine List.sum_eq_zero fun x hx => ?_
      obtain ⟨z, hz, rfl⟩ := List.mem_map.1 hx
      rw [hcon z hz]
      norm_num
    rw [this] at hpos
    exact lt_irrefl _ hpos
  obtain ⟨-, r1, r2, -⟩ := herr.relative hex
  rw [hend]
  exact ⟨r1, hpos, r2⟩

lemma generateInternal_mesh (env : MeshFiles) (o : GeometryObject) (files : Files) (x y : ℝ × ℝ)
    (nx ny nb : ℕ) (s : Fin 4 → Fin (nb / 4) → ℝ) (cells : List Quad) (bd : List (ℤ × List (List ℝ)))
    (h : (o.generateInternal env files x y nx ny nb s).1 = .ok (.mesh cells bd)) :
    cells = (generateQuadMeshInternal o.toGeometry2D x y nx ny nb s).cells ∧
    bdPairs bd = (generateQuadMeshInternal o.toGeometry2D x y nx ny nb s).bdDict := by
  have key : cells = (generateQuadMeshInternal o.toGeometry2D x y nx ny nb s).cells ∧
      bd = (generateQuadMeshInternal o.toGeometry2D x y nx ny nb s).bdDict.map
        fun e => (e.1, e.2.map fun p => [p.1, p.2]) := by
    unfold GeometryObject.generateInternal at h
    dsimp only at h
    split_ifs at h
    · have h := Except.ok.inj h
      injection h with h1 h2
      exact ⟨h1.symm, h2.symm⟩
    · split at h
      · exact absurd h (by simp)
      · have h := Except.ok.inj h
        injection h with h1 h2
        exact ⟨h1.symm, h2.symm⟩
  refine ⟨key.1, ?_⟩
  rw [key.2, bdPairs, List.map_map]
  conv_rhs => rw [← List.map_id (generateQuadMeshInternal _ _ _ _ _ _ _).bdDict]
  refine List.map_congr_left fun e _ => ?_
  simp only [Function.comp_apply, List.map_map, id]
  refine Prod.ext rfl ?_
  conv_rhs => rw [← List.map_id e.2]
  rfl

/-- The part of the script up to the model, for the configuration of a trial. -/
lemma prepareUniform_trial (mc : Machine) (p : SearchPoint) (n : ℕ) (outputPath : String) (update : ℤ) (ld : List ℕ)
    (sample : Fin 4 → Fin (p.nBoundaryPoints / 4) → ℝ) (files : Files) (P : Prepared)
    (h : prepareUniform mc (trialConfig p n outputPath update) problemUniformPoisson ld learningRateFn sample files
      = .ok P) :
    ∃ (nq : ℕ) (S S' : Fespace2D (ℝ → ℝ → ℝ) ℝ (p.feOrder.toNat ^ 2) nq) (D : DataHandler2D (p.feOrder.toNat ^ 2) nq)
      (bdv : List (ℝ × ℝ) × List ℝ) (specs : List LayerSpec) (inDim : ℕ) (pts : List (ℝ × ℝ)) (o : GeometryObject),
      fespace2D mc.quad (trialMesh p sample true).meshPoints (trialMesh p sample true).cells
        (trialMesh p sample true).bdDict
        ⟨"quadrilateral", p.feOrder, p.feType, p.quadOrder, p.quadType, "bilinear"⟩
        UniformPoisson.boundaryFunctionDict UniformPoisson.rhs false = .ok ⟨nq, S⟩ ∧
      dataHandler2D S true = .ok (D, S') ∧ getDirichletInput S' = .ok bdv ∧
      layerSpecs ld "tanh" = .ok specs ∧ pyIndex ld 0 = .ok inDim ∧
      P = ⟨_, nq, D, bdv, S'.nCells, inDim, specs,
        .exponentialDecay p.initialLearningRate p.decaySteps p.decayRate true, P.geometry, P.files⟩ ∧
      getTestPoints (trialMesh p sample true).geometry (.error .valueError) = .ok pts ∧
      P.geometry.getTestPoints mc.env P.files = (.ok (.points pts), o, P.files) := by
  have hlr : learningRateFn (trialConfig p n outputPath update).learningRate
      = .ok (.exponentialDecay p.initialLearningRate p.decaySteps p.decayRate true) := trial_learningRate p
  have hgeo : ∃ o, newGeometry "quadrilateral" "internal" 100 100 outputPath false = .ok o ∧
      o.toGeometry2D = ⟨"quadrilateral", "internal", 100, 100, false, none, none⟩ := by
    simp [newGeometry, geometry2D]
  obtain ⟨o, ho, hog⟩ := hgeo
  unfold prepareUniform at h
  rw [if_neg (by simp [trialConfig])] at h
  rw [show newGeometry (trialConfig p n outputPath update).meshType
    (trialConfig p n outputPath update).meshGenerationMethod (trialConfig p n outputPath update).nTestPointsX
    (trialConfig p n outputPath update).nTestPointsY (trialConfig p n outputPath update).outputPath false = .ok o
    from ho] at h
  dsimp only at h
  split at h
  · exact absurd h (by simp)
  swap
  · exact absurd h (by simp)
  rename_i cells bd o' files' hg
  -- what the geometry returns
  have hobj := generateInternal_object mc.env o files ((trialConfig p n outputPath update).xMin,
    (trialConfig p n outputPath update).xMax) ((trialConfig p n outputPath update).yMin,
    (trialConfig p n outputPath update).yMax) (trialConfig p n outputPath update).nCellsX
    (trialConfig p n outputPath update).nCellsY (trialConfig p n outputPath update).nBoundaryPoints sample
  obtain ⟨hc, hb⟩ := generateInternal_mesh mc.env o files ((trialConfig p n outputPath update).xMin,
    (trialConfig p n outputPath update).xMax) ((trialConfig p n outputPath update).yMin,
    (trialConfig p n outputPath update).yMax) (trialConfig p n outputPath update).nCellsX
    (trialConfig p n outputPath update).nCellsY (trialConfig p n outputPath update).nBoundaryPoints sample cells bd
    (by rw [hg])
  rw [hg] at hobj
  dsimp only at hobj
  rw [hog] at hc hb hobj
  have hc : cells = (trialMesh p sample true).cells := hc
  have hb : bdPairs bd = (trialMesh p sample true).bdDict := hb
  have hmp : (o'.mesh.map StoredMesh.planePoints).getD [] = (trialMesh p sample true).meshPoints := by
    rw [hobj]
    rfl
  have hmt : o'.meshType = "quadrilateral" := by
    rw [hobj]
    rfl
  have hgeom : o'.toGeometry2D = (trialMesh p sample false).geometry := by
    rw [hobj]
    rfl
  unfold prepareModel at h
  rw [hmp, hmt, hc, hb, hlr] at h
  split at h
  · exact absurd h (by simp)
  rename_i nq S hS
  split at h
  · exact absurd h (by simp)
  rename_i D S' hD
  split at h
  · exact absurd h (by simp)
  rename_i bdv hbd
  dsimp only at h
  split at h
  · exact absurd h (by simp)
  rename_i specs hsp
  split at h
  · exact absurd h (by simp)
  rename_i inDim hin
  obtain rfl := Except.ok.inj h
  obtain ⟨pts, hpts, -⟩ := trialMesh_points p sample true (.error .valueError)
  have hpts' : ∀ vtk, getTestPoints o'.toGeometry2D vtk = .ok pts := by
    intro vtk
    rw [hgeom, ← hpts]
    rfl
  refine ⟨nq, S, S', D, bdv, specs, inDim, pts, if o'.meshGenerationMethod = "internal" then
    { o' with testPoints := some pts } else o', hS, hD, hbd, hsp, hin, rfl, hpts, ?_⟩
  unfold GeometryObject.getTestPoints
  dsimp only
  rw [hpts']

/-- **C82** (a trial and the training script).  For three layers of 30 neurons, a trial with `n` epochs gives the
relative error that the training script reports after `n` epochs for the configuration with the same
hyper-parameters, the same boundary points and the same initial weights, in the last report and in the table. -/
theorem C82_script (mc : Machine) (p : SearchPoint) (n : ℕ) (sample : Fin 4 → Fin (p.nBoundaryPoints / 4) → ℝ)
    (θ : Weights) (files : Files) (outputPath : String) (update : ℤ) (R : RunResult) (h30 : p.hidden = [30, 30, 30])
    (h : mainUniform mc problemUniformPoisson (trialConfig p n outputPath update) sample θ files = .ok R) :
    ∃ v r, trainedObjective mc p n sample θ = .ok v ∧ R.reports.getLast? = some r ∧ r.epoch + 1 = n ∧
      r.errors.2.2.1 = v ∧ R.errorTable[2]? = some ("Relative L2 Error", mc.fmt4 v) := by
  have hdims : fixedLayers = p.architecture := by
    rw [SearchPoint.architecture, h30]
    rfl
  unfold mainUniform at h
  split at h
  · exact absurd h (by simp)
  rename_i P hP
  rw [hdims] at hP
  obtain ⟨nq, S, S', D, bdv, specs, inDim, pts, o, hS, hD, hbd, hsp, hin, hPe, hpts, hgeo⟩ :=
    prepareUniform_trial mc p n outputPath update _ sample files P hP
  rw [architecture_specs p] at hsp
  obtain rfl := Except.ok.inj hsp
  have hin : Except.ok 2 = Except.ok inDim := hin
  obtain rfl := Except.ok.inj hin
  have hout : outDim P.specs = 1 := by
    rw [hPe]
    simp [outDim]
  rw [hout] at h
  unfold runUniform at h
  rw [hgeo] at h
  dsimp only at h
  split at h
  · exact absurd h (by simp)
  split at h
  · exact absurd h (by simp)
  split at h
  · exact absurd h (by simp)
  rename_i s hloop
  obtain ⟨-, hl, st, fs, h0, hN, -, -, hrun, hrep, -⟩ := epochLoop_ok _ _ _ _ _ _ rfl rfl hloop
  have hpred : ∀ θ pts, (P.dense mc (trialConfig p n outputPath update) problemUniformPoisson 1).predict θ pts
      = .ok (pts.map (networkValue (mc.act "tanh") p.architecture θ)) := by
    intro θ pts
    exact dense_predict P mc (trialConfig p n outputPath update) problemUniformPoisson p.architecture nofun
      (by rw [hPe]) (by simp [SearchPoint.architecture]) (by rw [hPe]; exact architecture_specs p) rfl
      (by simp [SearchPoint.architecture]) pts θ
  unfold finishRun at h
  split at h
  · exact absurd h (by simp)
  rename_i r hr
  dsimp only at h
  split at h
  · exact absurd h (by simp)
  obtain rfl := Except.ok.inj h
  have hpos : 0 < n := by
    rcases Nat.eq_zero_or_pos n with rfl | h
    · have : reportEpochs update 0 = [] := rfl
      change List.Forall₂ _ (reportEpochs update 0) _ at hrep
      rw [this] at hrep
      rw [List.forall₂_nil_left_iff.1 hrep] at hr
      simp at hr
    · exact h
  rcases forall₂_getLast hrep with ⟨h1, h2⟩ | ⟨e, b, he, hb, out, ho, hblock⟩
  · rw [h2] at hr
    simp at hr
  have hlast := reportEpochs_last update n hpos
  change (reportEpochs update n).getLast? = some e at he
  rw [hlast] at he
  obtain rfl := Option.some.inj he
  rw [hr] at hb
  obtain rfl := Option.some.inj hb
  rw [show n - 1 + 1 = n by omega] at hblock
  change st n = s.model at hN
  -- the report
  simp only [reportBlock, bind, Except.bind, hpred, npSub_map] at hblock
  split at hblock
  · exact absurd hblock (by simp)
  rename_i E hE
  simp only [pure, Except.pure, dense_floats, Except.ok.injEq, Prod.mk.injEq] at hblock
  obtain ⟨rfl, -⟩ := hblock
  have hobj := trainedObjective_of mc p n sample θ nq S S' D bdv _ hS hD hbd (trial_learningRate p) s.losses s.model
    (by
      refine (trainEpochs_iff _ _ _ _ _).2 ⟨hl, st, fun k hk => ?_, h0, hN⟩
      have := hrun k hk
      rw [hPe] at this
      exact this) pts hpts E (by rw [← hN]; exact hE)
  exact ⟨_, _, hobj, hr, by dsimp only; omega, rfl, rfl⟩

/-- The script finishes for the configuration of every point of the search space. -/
theorem C82_script_completes (mc : Machine) (hmsh : ∀ x y hx hy, ∃ m, mc.env.parseMsh (mc.env.gmsh x y hx hy) = .ok m)
    (hclock : ∀ e, 0 < mc.elapsed e) (p : SearchPoint) (hp : p.InSpace) (n : ℕ) (hn : 0 < n)
    (sample : Fin 4 → Fin (p.nBoundaryPoints / 4) → ℝ) (θ : Weights) (files : Files) (outputPath : String)
    (update : ℤ) (hu : update ≠ 0) :
    ∃ R, mainUniform mc problemUniformPoisson (trialConfig p n outputPath update) sample θ files = .ok R := by
  have hq := hp.quadratureType
  have ht := hp.type
  simp only [List.mem_cons, List.not_mem_nil, or_false] at hq ht
  refine (C76_uniform_completes mc problemUniformPoisson (trialConfig p n outputPath update) .poisson (Or.inl rfl)
    (fun _ _ _ => rfl) sample θ files nofun rfl hmsh).1.2 ⟨⟨Or.inr rfl, rfl, ⟨?_, ?_⟩, by simp [trialConfig], ⟨hp.order.1, ?_⟩,
      ?_, ⟨hp.quadrature.1, ?_⟩, hq, fun _ => ?_, by simp [trialConfig], ?_, ?_⟩, hn, hu,
      (Finset.sum_pos (fun e _ => hclock e) ⟨0, Finset.mem_range.2 hn⟩).ne'⟩
  · exact lt_of_lt_of_le (by norm_num) hp.cellsX.1
  · exact lt_of_lt_of_le (by norm_num) hp.cellsY.1
  · exact lt_of_le_of_lt hp.order.2 (by norm_num)
  · change p.feType ∈ _
    rcases ht with h | h <;> simp [h]
  · exact hp.quadrature.2.trans (by norm_num)
  · simp [problemUniformPoisson, UniformPoisson.boundaryFunctionDict, List.lookup]
  · simp [trialConfig, List.lookup]
  · simp [requiredParams, problemUniformPoisson, UniformPoisson.bilinearParamsDict, List.lookup]

/-- The hypotheses of the two theorems can be met. -/
example (quad : QuadRoutines) (sample : Fin 4 → Fin (400 / 4) → ℝ) (θ : Weights) :
    demoSearchPoint.hidden = [30, 30, 30] ∧
    ∃ R v, mainUniform (demoMachine quad) problemUniformPoisson (trialConfig demoSearchPoint 5000 "output" 500) sample θ
        demoFiles = .ok R ∧ trainedObjective (demoMachine quad) demoSearchPoint 5000 sample θ = .ok v := by
  obtain ⟨R, hR⟩ := C82_script_completes (demoMachine quad) (fun _ _ _ _ => ⟨_, rfl⟩) (fun _ => by simp [demoMachine])
    demoSearchPoint demoSearchPoint_inSpace 5000 (by norm_num) sample θ demoFiles "output" 500 (by norm_num)
  obtain ⟨v, -, hv, -⟩ := C82_script _ _ _ _ _ _ _ _ _ rfl hR
  exact ⟨rfl, R, v, hR, hv⟩

/-! ## The study -/

/-- What holds while a study runs: new trials are numbered in order after the earlier ones, and the value of each
finished trial is the one of the objective. -/
lemma tuner_invariant {workers N : ℕ} {value : ℕ → SearchPoint → Except PyErr ℝ} {earlier : List StoredTrial}
    {s : TunerState} (h : TunerReachable workers N value earlier s) :
    earlier.length ≤ s.next ∧ s.next ≤ earlier.length + N ∧ (∀ r ∈ s.running, r.2.InSpace) ∧
    ∃ new, s.stored = earlier ++ new ∧
      (s.running.map Prod.fst ++ new.map StoredTrial.number).Perm
        (List.range' earlier.length (s.next - earlier.length)) ∧
      ∀ t ∈ new, t.params.InSpace ∧ ∃ v, t.value = some v ∧ value t.number t.params = .ok v := by
  induction h with
  | init => exact ⟨le_rfl, by simp, by simp, [], by simp, by simp, by simp⟩
  | step h hs ih =>
    obtain ⟨h1, h2, h3, new, h4, h5, h6⟩ := ih
    cases hs with
    | start p hw hn hp =>
      rename_i s
      refine ⟨by dsimp only; omega, by dsimp only; omega, ?_, new, h4, ?_, h6⟩
      · intro r hr
        rcases List.mem_cons.1 hr with rfl | hr
        · exact hp
        · exact h3 r hr
      · dsimp only
        rw [show s.next + 1 - earlier.length = (s.next - earlier.length) + 1 by omega, List.range'_concat]
        simp only [List.map_cons, List.cons_append]
        rw [show earlier.length + 1 * (s.next - earlier.length) = s.next by omega]
        refine (List.Perm.cons _ h5).trans ?_
        exact (List.perm_append_singleton _ _).symm
    | finish l l' t p v hr hv =>
      rename_i s
      refine ⟨h1, h2, ?_, new ++ [⟨t, p, some v⟩], ?_, ?_, ?_⟩
      · intro r hm
        refine h3 r ?_
        rw [hr]
        rcases List.mem_append.1 hm with hm | hm
        · exact List.mem_append_left _ hm
        · exact List.mem_append_right _ (List.mem_cons_of_mem _ hm)
      · simp [h4]
      · refine List.Perm.trans ?_ h5
        rw [hr]
        simp only [List.map_append, List.map_cons, List.map_nil, List.append_assoc, List.cons_append]
        refine List.Perm.append_left _ ?_
        rw [← List.append_assoc]
        exact List.perm_append_singleton _ _
      · intro q hq
        rcases List.mem_append.1 hq with hq | hq
        · exact h6 q hq
        · obtain rfl := List.mem_singleton.1 hq
          exact ⟨h3 (t, p) (by rw [hr]; simp), v, rfl, hv⟩

lemma trialValue_ok (mc : Machine) (gpus n : ℕ) (hg : 0 < gpus) (draws : ℕ → TrialDraws) (t : ℕ) (p : SearchPoint) :
    trialValue mc gpus n draws t p = trainedObjective mc p n ((draws t).sample _) (draws t).weights := by
  simp only [trialValue, gpuId]
  rw [if_neg (by omega)]

lemma trialValue_exists (mc : Machine) (gpus n : ℕ) (hg : 0 < gpus) (draws : ℕ → TrialDraws) (t : ℕ)
    (p : SearchPoint) (hp : p.InSpace) : ∃ v, 0 ≤ v ∧ trialValue mc gpus n draws t p = .ok v := by
  obtain ⟨g, mesh, nq, S, S', D, bdv, specs, pts, st, outs, v, -, -, -, -, -, -, -, hv, h0, -⟩ :=
    C82_value mc p hp n ((draws t).sample _) (draws t).weights "" 0
  exact ⟨v, h0, by rw [trialValue_ok mc gpus n hg, hv]⟩

/-- As many workers as GPUs. -/
lemma tunerWorkers_gpus (gpus cpus : ℕ) (hg : 0 < gpus) : tunerWorkers gpus cpus gpus = .ok gpus := by
  unfold tunerWorkers optunaWorkers nJobs
  rw [min_self]
  by_cases h1 : gpus = 1
  · rw [if_pos (by omega), h1]
  · rw [if_neg (by omega), if_neg (by omega), if_neg (by omega), Int.toNat_natCast]

/-- From each state of a study, all trials can be completed. -/
lemma tuner_completes {workers N : ℕ} (hw : 0 < workers) {value : ℕ → SearchPoint → Except PyErr ℝ}
    (hv : ∀ t p, SearchPoint.InSpace p → ∃ v, value t p = .ok v) {earlier : List StoredTrial} {s : TunerState}
    (h : TunerReachable workers N value earlier s) :
    ∃ s', TunerReachable workers N value earlier s' ∧ s'.running = [] ∧ s'.next = earlier.length + N := by
  obtain ⟨m, hm⟩ : ∃ m, 2 * (earlier.length + N - s.next) + s.running.length = m := ⟨_, rfl⟩
  induction m using Nat.strong_induction_on generalizing s with
  | _ m ih =>
    obtain ⟨h1, h2, h3, -⟩ := tuner_invariant h
    rcases hr : s.running with _ | ⟨⟨t, p⟩, l⟩
    · by_cases hn : s.next < earlier.length + N
      · refine ih _ ?_ (h.step (TunerStep.start demoSearchPoint (by rw [hr]; exact hw) hn demoSearchPoint_inSpace)) rfl
        simp only [hr, List.length_cons, List.length_nil] at hm ⊢
        omega
      · exact ⟨s, h, hr, by omega⟩
    · obtain ⟨v, hv⟩ := hv t p (h3 (t, p) (by rw [hr]; simp))
      refine ih _ ?_ (h.step (TunerStep.finish [] l t p v (by rw [hr]; rfl) hv)) rfl
      simp only [hr, List.length_cons, List.nil_append] at hm ⊢
      omega

/-- **C82** (the tuner of the script).  With at least one GPU, whatever points Optuna suggests and in whatever order
the trials end: no trial fails, exactly `n_trials` new trials with consecutive numbers are run, each at a point of the
search space, and the parameters returned belong to a trial with the least relative error among these and the
completed trials already in the storage.  There is an exception only if there is no completed trial at all. -/
theorem C82_best (mc : Machine) (gpus cpus : ℕ) (hg : 0 < gpus) (nTrials : ℤ) (n : ℕ) (draws : ℕ → TrialDraws)
    (earlier : List StoredTrial) (res : Except PyErr SearchPoint)
    (h : TunerReturns gpus cpus gpus nTrials (trialValue mc gpus n draws) earlier res) :
    ∃ new : List StoredTrial,
      (new.map StoredTrial.number).Perm (List.range' earlier.length nTrials.toNat) ∧
      (∀ t ∈ new, t.params.InSpace ∧ ∃ v, t.value = some v ∧
        trainedObjective mc t.params n ((draws t.number).sample _) (draws t.number).weights = .ok v) ∧
      ((∃ t ∈ earlier ++ new, ∃ v, t.value = some v ∧ res = .ok t.params ∧
          ∀ t' ∈ earlier ++ new, ∀ v', t'.value = some v' → v ≤ v') ∨
        (res = .error .valueError ∧ nTrials ≤ 0 ∧ ∀ t ∈ earlier, t.value = none)) := by
  have hwk := tunerWorkers_gpus gpus cpus hg
  have fin : ∀ {w : ℕ} {s : TunerState}, TunerReachable w nTrials.toNat (trialValue mc gpus n draws) earlier s →
      s.running = [] → s.next = earlier.length + nTrials.toNat → ∃ new : List StoredTrial,
      s.stored = earlier ++ new ∧
      (new.map StoredTrial.number).Perm (List.range' earlier.length nTrials.toNat) ∧
      (∀ t ∈ new, t.params.InSpace ∧ ∃ v, t.value = some v ∧
        trainedObjective mc t.params n ((draws t.number).sample _) (draws t.number).weights = .ok v) := by
    intro w s hs hr hn
    obtain ⟨-, -, -, new, h4, h5, h6⟩ := tuner_invariant hs
    rw [hr, hn, show earlier.length + nTrials.toNat - earlier.length = nTrials.toNat by omega] at h5
    refine ⟨new, h4, by simpa using h5, fun t ht => ?_⟩
    obtain ⟨h7, v, h8, h9⟩ := h6 t ht
    rw [trialValue_ok mc gpus n hg] at h9
    exact ⟨h7, v, h8, h9⟩
  cases h with
  | pool he => rw [hwk] at he; exact absurd he (by simp)
  | trial _ hs hm hv =>
    obtain ⟨v, -, h⟩ := trialValue_exists mc gpus n hg draws _ _ ((tuner_invariant hs).2.2.1 _ hm)
    rw [h] at hv
    exact absurd hv (by simp)
  | noTrial _ hs hr hn hno =>
    obtain ⟨new, h4, h5, h6⟩ := fin hs hr hn
    refine ⟨new, h5, h6, .inr ⟨rfl, ?_, fun t ht => hno t (by rw [h4]; exact List.mem_append_left _ ht)⟩⟩
    rcases new with _ | ⟨t, l⟩
    · have := h5.length_eq
      simp only [List.map_nil, List.length_nil, List.length_range'] at this
      omega
    · obtain ⟨-, v, hv, -⟩ := h6 t (by simp)
      rw [hno t (by rw [h4]; simp)] at hv
      exact absurd hv (by simp)
  | best _ hs hr hn hm hv hmin =>
    obtain ⟨new, h4, h5, h6⟩ := fin hs hr hn
    rw [h4] at hm hmin
    exact ⟨new, h5, h6, .inl ⟨_, hm, _, hv, rfl, hmin⟩⟩

/-- **C82** (first run).  With an empty storage the parameters returned are a point of the search space, and their
relative error is the least of this run. -/
theorem C82_first_run (mc : Machine) (gpus cpus : ℕ) (hg : 0 < gpus) (nTrials : ℤ) (hn : 0 < nTrials) (n : ℕ)
    (draws : ℕ → TrialDraws) (res : Except PyErr SearchPoint)
    (h : TunerReturns gpus cpus gpus nTrials (trialValue mc gpus n draws) [] res) :
    ∃ (best : ℕ → SearchPoint) (i : ℕ) (v : ℕ → ℝ), i < nTrials.toNat ∧ res = .ok (best i) ∧
      ∀ t < nTrials.toNat, (best t).InSpace ∧ v i ≤ v t ∧
        trainedObjective mc (best t) n ((draws t).sample _) (draws t).weights = .ok (v t) := by
  obtain ⟨new, h1, h2, h3⟩ := C82_best mc gpus cpus hg nTrials n draws [] res h
  rcases h3 with ⟨t, ht, v, hv, rfl, hmin⟩ | ⟨-, h3, -⟩
  swap
  · omega
  simp only [List.nil_append, List.length_nil] at ht hmin h1
  have hmem : ∀ k, k < nTrials.toNat → ∃ q ∈ new, q.number = k := by
    intro k hk
    have : k ∈ new.map StoredTrial.number := h1.mem_iff.2 (by simp; omega)
    simpa using this
  have hlt : ∀ q ∈ new, q.number < nTrials.toNat := by
    intro q hq
    have := h1.mem_iff.1 (List.mem_map_of_mem hq)
    simpa using this
  have hinj : ∀ q ∈ new, ∀ q' ∈ new, q.number = q'.number → q = q' := by
    have hnd : (new.map StoredTrial.number).Nodup := h1.nodup_iff.2 List.nodup_range'
    exact List.inj_on_of_nodup_map hnd
  have : Nonempty StoredTrial := ⟨t⟩
  choose! f hf1 hf2 using hmem
  refine ⟨fun k => (f k).params, t.number, fun k => ((f k).value).getD 0, hlt t ht, ?_, fun k hk => ?_⟩
  · dsimp only
    rw [hinj _ (hf1 _ (hlt t ht)) _ ht (hf2 _ (hlt t ht))]
  · obtain ⟨a1, w, a2, a3⟩ := h2 _ (hf1 k hk)
    have e : f t.number = t := hinj _ (hf1 _ (hlt t ht)) _ ht (hf2 _ (hlt t ht))
    refine ⟨a1, ?_, ?_⟩
    · dsimp only
      rw [e, hv, a2]
      exact hmin _ (hf1 k hk) _ a2
    · dsimp only
      rw [a2]
      rw [hf2 k hk] at a3
      exact a3

/-- **C82** (no deadlock).  With at least one GPU a study that is not finished can go on, and it ends after at most
twice as many events as there are trials. -/
theorem C82_terminates (mc : Machine) (gpus : ℕ) (hg : 0 < gpus) (N n : ℕ) (draws : ℕ → TrialDraws)
    (earlier : List StoredTrial) :
    (∀ s, TunerReachable gpus N (trialValue mc gpus n draws) earlier s →
      s.running ≠ [] ∨ s.next < earlier.length + N →
      ∃ s', TunerStep gpus (earlier.length + N) (trialValue mc gpus n draws) s s') ∧
    ∀ (k : ℕ) (s : ℕ → TunerState), s 0 = ⟨[], earlier, earlier.length⟩ →
      (∀ i < k, TunerStep gpus (earlier.length + N) (trialValue mc gpus n draws) (s i) (s (i + 1))) → k ≤ 2 * N := by
  refine ⟨fun s hs hor => ?_, fun k s h0 hstep => ?_⟩
  · rcases hr : s.running with _ | ⟨⟨t, p⟩, l⟩
    · exact ⟨_, TunerStep.start demoSearchPoint (by rw [hr]; exact hg) (hor.resolve_left (by simp [hr]))
        demoSearchPoint_inSpace⟩
    · obtain ⟨v, -, hv⟩ := trialValue_exists mc gpus n hg draws t p
        ((tuner_invariant hs).2.2.1 (t, p) (by rw [hr]; simp))
      exact ⟨_, TunerStep.finish [] l t p v (by rw [hr]; rfl) hv⟩
  · have : ∀ i ≤ k, 2 * (earlier.length + N - (s i).next) + (s i).running.length + i ≤ 2 * N := by
      intro i
      induction i with
      | zero => intro _; rw [h0]; simp
      | succ i ih =>
        intro hi
        have ih := ih (by omega)
        have hs := hstep i (by omega)
        generalize s i = a at *
        generalize s (i + 1) = b at *
        cases hs with
        | start p hw hn hp =>
          simp only [List.length_cons]
          omega
        | finish l l' t p v hr hv =>
          rw [hr] at ih
          simp only [List.length_append, List.length_cons] at ih ⊢
          omega
    have := this k le_rfl
    omega

lemma exists_least {α : Type} (f : α → ℝ) : ∀ l : List α, l ≠ [] → ∃ a ∈ l, ∀ b ∈ l, f a ≤ f b
  | [], h => absurd rfl h
  | [a], _ => ⟨a, by simp, by simp⟩
  | a :: b :: l, _ => by
    obtain ⟨c, hc, hmin⟩ := exists_least f (b :: l) (by simp)
    rcases le_total (f a) (f c) with h | h
    · refine ⟨a, by simp, fun d hd => ?_⟩
      rcases List.mem_cons.1 hd with rfl | hd
      · exact le_rfl
      · exact h.trans (hmin d hd)
    · refine ⟨c, List.mem_cons_of_mem _ hc, fun d hd => ?_⟩
      rcases List.mem_cons.1 hd with rfl | hd
      · exact h
      · exact hmin d hd

/-- **C82** (a result exists).  With at least one GPU the run of the tuner can always end, and with at least one trial
it can only return parameters. -/
theorem C82_returns (mc : Machine) (gpus cpus : ℕ) (hg : 0 < gpus) (nTrials : ℤ) (hn : 0 < nTrials) (n : ℕ)
    (draws : ℕ → TrialDraws) (earlier : List StoredTrial) :
    (∃ p, TunerReturns gpus cpus gpus nTrials (trialValue mc gpus n draws) earlier (.ok p)) ∧
    ∀ e, ¬ TunerReturns gpus cpus gpus nTrials (trialValue mc gpus n draws) earlier (.error e) := by
  have hno : ∀ e, ¬ TunerReturns gpus cpus gpus nTrials (trialValue mc gpus n draws) earlier (.error e) := by
    intro e he
    obtain ⟨new, -, -, h | ⟨-, h, -⟩⟩ := C82_best mc gpus cpus hg nTrials n draws earlier _ he
    · obtain ⟨_, _, _, _, h, _⟩ := h
      exact absurd h (by simp)
    · omega
  refine ⟨?_, hno⟩
  obtain ⟨s, hs, hr, hnx⟩ := tuner_completes hg
    (fun t p hp => let ⟨v, _, h⟩ := trialValue_exists mc gpus n hg draws t p hp; ⟨v, h⟩)
    (TunerReachable.init (workers := gpus) (nTrials := nTrials.toNat)
      (value := trialValue mc gpus n draws) (earlier := earlier))
  have hw := tunerWorkers_gpus gpus cpus hg
  by_cases hall : ∀ t ∈ s.stored, t.value = none
  · exact absurd (TunerReturns.noTrial hw hs hr hnx hall) (hno _)
  · push Not at hall
    obtain ⟨t0, ht0, hv0⟩ := hall
    obtain ⟨v0, hv0⟩ := Option.ne_none_iff_exists'.1 hv0
    -- a best trial
    have hne : (s.stored.filterMap fun t => t.value.map fun v => (t.params, v)) ≠ [] := by
      intro h
      rw [List.filterMap_eq_nil_iff] at h
      have := h t0 ht0
      simp [hv0] at this
    obtain ⟨b, hb, hmin⟩ := exists_least (fun q : SearchPoint × ℝ => q.2) _ hne
    obtain ⟨t, ht, hb⟩ := List.mem_filterMap.1 hb
    obtain ⟨v, hv, rfl⟩ := Option.map_eq_some_iff.1 hb
    exact ⟨_, TunerReturns.best hw hs hr hnx ht hv fun t' ht' v' hv' =>
      hmin (t'.params, v') (List.mem_filterMap.2 ⟨t', ht', by simp [hv']⟩)⟩

/-- **C82** (no GPU).  Without a GPU the tuner of the script always ends with an exception before the first trial. -/
theorem C82_no_gpu (cpus : ℕ) (nTrials : ℤ) (value : ℕ → SearchPoint → Except PyErr ℝ) (earlier : List StoredTrial)
    (res : Except PyErr SearchPoint) :
    TunerReturns 0 cpus (0 : ℕ) nTrials value earlier res ↔ res = .error .valueError := by
  have hw : tunerWorkers 0 cpus (0 : ℕ) = .error .valueError := rfl
  constructor
  · intro h
    cases h with
    | pool he => rw [hw] at he; rw [Except.error.inj he]
    | trial he => rw [hw] at he; exact absurd he (by simp)
    | noTrial he => rfl
    | best he => rw [hw] at he; exact absurd he (by simp)
  · rintro rfl
    exact .pool hw

/-- **C82** (finding: earlier studies).  Trials left in the storage by earlier runs compete with those of this run,
whatever their number of epochs was: the parameters of an earlier trial with value 0 can be returned whatever the
trials of this run give. -/
theorem C82_earlier_run (mc : Machine) (gpus cpus : ℕ) (hg : 0 < gpus) (nTrials : ℤ) (n : ℕ)
    (draws : ℕ → TrialDraws) (earlier : List StoredTrial) (h0 : ∀ t ∈ earlier, ∀ v, t.value = some v → 0 ≤ v)
    (t : StoredTrial) (ht : t ∈ earlier) (hv : t.value = some 0) :
    TunerReturns gpus cpus gpus nTrials (trialValue mc gpus n draws) earlier (.ok t.params) := by
  obtain ⟨s, hs, hr, hnx⟩ := tuner_completes hg
    (fun t p hp => let ⟨v, _, h⟩ := trialValue_exists mc gpus n hg draws t p hp; ⟨v, h⟩)
    (TunerReachable.init (workers := gpus) (nTrials := nTrials.toNat)
      (value := trialValue mc gpus n draws) (earlier := earlier))
  obtain ⟨-, -, -, new, h4, -, h6⟩ := tuner_invariant hs
  refine .best (tunerWorkers_gpus gpus cpus hg) hs hr hnx (by rw [h4]; exact List.mem_append_left _ ht) hv ?_
  intro t' ht' v' hv'
  rw [h4] at ht'
  rcases List.mem_append.1 ht' with ht' | ht'
  · exact h0 t' ht' v' hv'
  · obtain ⟨a1, v, a2, a3⟩ := h6 t' ht'
    obtain ⟨w, hw0, hw⟩ := trialValue_exists mc gpus n hg draws t'.number t'.params a1
    rw [hv'] at a2
    rw [← Option.some.inj a2, hw] at a3
    rw [← Except.ok.inj a3]
    exact hw0

/-! ## The script -/

lemma readsOptuna_good : readsOptuna.Good := ⟨by decide, by decide⟩

lemma optuna_iff (y : Yaml) (cfg : ForwardConfig) :
    (∃ vars, readsOptuna.run y = .ok vars ∧
      forwardConfigOf vars (typedVar vars Yaml.asBool "i_generate_mesh_plot") = some cfg) ↔ ForwardFile y cfg := by
  have hg := readsOptuna_good
  constructor
  · rintro ⟨vars, h, hc⟩
    obtain ⟨hf, hd⟩ := (run_ok_iff _ hg _ _).1 h
    rw [common_iff hf hg.nodup (by decide) hd, typed_iff hf hg.nodup (name := "i_generate_mesh_plot")
      (path := ["geometry", "generate_mesh_plot"]) (by decide)] at hc
    obtain ⟨⟨_, h1, h2⟩, hc⟩ := hc
    rw [asBool_iff] at h2
    subst h2
    exact ⟨⟨hc, h1⟩, reads_mem hf ("i_exact_solution_generation", _) (by decide),
      reads_mem hf ("i_exact_solution_file_name", _) (by decide)⟩
  · intro h
    have hd : ∃ dtype, At y ["model", "dtype"] (.str dtype) ∧ (dtype = "float64" ∨ dtype = "float32") :=
      ⟨_, h.dtype, h.supported⟩
    obtain ⟨vars, hv⟩ := (readVars_exists y (readsOptuna.before ++ readsOptuna.after)).2 (by
      simp only [readsOptuna, List.cons_append, List.nil_append, List.forall_mem_cons]
      have xm : ∀ {path : List String} {q : Yaml → Prop}, (∃ v, At y path v ∧ q v) → ∃ v, At y path v :=
        fun ⟨v, h, _⟩ => ⟨v, h⟩
      have xr : ∃ v, At y ["model", "learning_rate"] v := let ⟨_, h, _⟩ := h.learningRate; ⟨_, h⟩
      exact ⟨⟨_, h.outputPath⟩, ⟨_, h.meshGenerationMethod⟩, ⟨_, h.plot⟩, ⟨_, h.meshType⟩, xm h.xMin, xm h.xMax,
        xm h.yMin, xm h.yMax, ⟨_, h.nTestPointsX⟩, ⟨_, h.nTestPointsY⟩, h.exactGeneration, h.exactFileName,
        ⟨_, h.meshFileName⟩, ⟨_, h.boundaryRefinementLevel⟩, ⟨_, h.boundarySamplingMethod⟩, ⟨_, h.epochs⟩,
        h.setMemoryGrowth, ⟨_, h.updateConsoleOutput⟩, ⟨_, h.dtype⟩, ⟨_, h.nCellsX⟩, ⟨_, h.nCellsY⟩,
        ⟨_, h.nBoundaryPoints⟩, ⟨_, h.feOrder⟩, ⟨_, h.feType⟩, ⟨_, h.quadOrder⟩, ⟨_, h.quadType⟩,
        ⟨_, h.modelArchitecture⟩, ⟨_, h.activation⟩, ⟨_, h.useAttention⟩, xr, xm h.beta, by simp⟩)
    have hf := (readVars_ok_iff _ _ _).1 hv
    refine ⟨vars, (run_ok_iff _ hg _ _).2 ⟨hf, hd⟩, ?_⟩
    rw [common_iff hf hg.nodup (by decide) hd, typed_iff hf hg.nodup (name := "i_generate_mesh_plot")
      (path := ["geometry", "generate_mesh_plot"]) (by decide)]
    exact ⟨⟨_, h.plot, rfl⟩, h.toCommonFile⟩

/-- **C82** (the script without `--optimized`).  A file that describes `cfg` is run with `cfg`, with the same outcome
as the script of the Poisson example on the rectangle; a missing file is exit code 1; and the script trains only with
a file that describes a configuration. -/
theorem C82_config (mc : Machine) (gpus cpus : ℕ) (draws : ℕ → TrialDraws) (earlier : List StoredTrial)
    (exists_ : String → Bool) (load : String → Except PyErr Yaml) (ω : Draws) (θ : Weights) (files : Files)
    (args : OptunaArgs) (hargs : args.optimized = false) :
    (∃ out, OptunaMain mc gpus cpus draws earlier exists_ load ω θ files args out) ∧
    (∀ out, OptunaMain mc gpus cpus draws earlier exists_ load ω θ files args out →
      ((args.config = "" ∨ exists_ args.config = false) → out = .stopped (.exit 1)) ∧
      (∀ y cfg, args.config ≠ "" → exists_ args.config = true → load args.config = .ok y → ForwardFile y cfg →
        out = (match scriptUniform mc load ["main.py", args.config] ω θ files problemUniformPoisson with
          | .ok R => .trained R
          | .error s => .stopped s) ∧
        out = (match mainUniform mc problemUniformPoisson cfg (ω.sample _) θ files with
          | .ok R => .trained R
          | .error e => .stopped (.raised e))) ∧
      (∀ R, out = .trained R → ∃ y cfg, args.config ≠ "" ∧ exists_ args.config = true ∧
        load args.config = .ok y ∧ ForwardFile y cfg ∧
        mainUniform mc problemUniformPoisson cfg (ω.sample _) θ files = .ok R) ∧
      ∀ p, out ≠ .printed p) := by
  refine ⟨⟨_, .training hargs⟩, fun out h => ?_⟩
  have ho : out = optunaTraining mc exists_ load args.config ω θ files := by
    cases h with
    | tuned h => rw [hargs] at h; exact absurd h (by simp)
    | failed h => rw [hargs] at h; exact absurd h (by simp)
    | training => rfl
  refine ⟨fun hm => ?_, fun y cfg hc he hl hf => ?_, fun R hR => ?_, fun p hp => ?_⟩
  · rw [ho, optunaTraining]
    by_cases hc : args.config = ""
    · rw [if_pos hc]
    · rw [if_neg hc, if_pos (hm.resolve_left hc)]
  · obtain ⟨vars, h1, h2⟩ := (optuna_iff y cfg).2 hf
    have e : out = (match mainUniform mc problemUniformPoisson cfg (ω.sample _) θ files with
          | .ok R => .trained R
          | .error e => .stopped (.raised e)) := by
      rw [ho, optunaTraining, if_neg hc, if_neg (by simp [he])]
      simp only [hl, h1, h2]
      split <;> rename_i hx <;> rw [hx]
    refine ⟨?_, e⟩
    rw [e, (C81_uniform mc load ω θ files problemUniformPoisson).1 "main.py" args.config y cfg hl hf]
    rcases mainUniform mc problemUniformPoisson cfg (ω.sample _) θ files with _ | _ <;> rfl
  · rw [ho, optunaTraining] at hR
    split_ifs at hR with hc he
    split at hR
    · exact absurd hR (by simp)
    rename_i y hl
    split at hR
    · exact absurd hR (by simp)
    rename_i vars hv
    split at hR
    · exact absurd hR (by simp)
    rename_i cfg hcfg
    split at hR
    · exact absurd hR (by simp)
    rename_i R' hm
    obtain rfl := OptunaOutcome.trained.inj hR
    exact ⟨y, cfg, hc, by simpa using he, hl, (optuna_iff y cfg).1 ⟨vars, hv, hcfg⟩, hm⟩
  · rw [ho, optunaTraining] at hp
    split_ifs at hp
    split at hp
    · exact absurd hp (by simp)
    split at hp
    · exact absurd hp (by simp)
    split at hp
    · exact absurd hp (by simp)
    split at hp
    · exact absurd hp (by simp)
    · exact absurd hp (by simp)

/-- **C82** (finding: the script with `--optimized`).  It never trains a model with the parameters it has found: with
at least one GPU and one trial it prints them and ends, without a GPU it ends with an exception; no configuration file
is read. -/
theorem C82_optimized (mc : Machine) (gpus cpus : ℕ) (draws : ℕ → TrialDraws) (earlier : List StoredTrial)
    (exists_ : String → Bool) (load : String → Except PyErr Yaml) (ω : Draws) (θ : Weights) (files : Files)
    (args : OptunaArgs) (hargs : args.optimized = true) (hn : 0 < args.nTrials) :
    (∃ out, OptunaMain mc gpus cpus draws earlier exists_ load ω θ files args out) ∧
    ∀ out, OptunaMain mc gpus cpus draws earlier exists_ load ω θ files args out →
      (0 < gpus → ∃ best, out = .printed best ∧ TunerReturns gpus cpus gpus args.nTrials
        (trialValue mc gpus args.nEpochs.toNat draws) earlier (.ok best)) ∧
      (gpus = 0 → out = .stopped (.raised .valueError)) := by
  constructor
  · rcases Nat.eq_zero_or_pos gpus with rfl | hg
    · exact ⟨_, .failed hargs ((C82_no_gpu cpus _ _ _ _).2 rfl)⟩
    · obtain ⟨⟨p, hp⟩, -⟩ := C82_returns mc gpus cpus hg args.nTrials hn args.nEpochs.toNat draws earlier
      exact ⟨_, .tuned hargs hp⟩
  · intro out h
    refine ⟨fun hg => ?_, ?_⟩
    · cases h with
      | tuned _ h => exact ⟨_, rfl, h⟩
      | failed _ h =>
        exact absurd h ((C82_returns mc gpus cpus hg args.nTrials hn args.nEpochs.toNat draws earlier).2 _)
      | training h => rw [hargs] at h; exact absurd h (by simp)
    · rintro rfl
      cases h with
      | tuned _ h => exact absurd ((C82_no_gpu _ _ _ _ _).1 h) (by simp)
      | failed _ h => rw [Except.error.inj ((C82_no_gpu _ _ _ _ _).1 h)]
      | training h => rw [hargs] at h; exact absurd h (by simp)

/-- Two GPUs, three trials, with and without an earlier trial: the hypotheses of C82 can be met. -/
example (quad : QuadRoutines) (draws : ℕ → TrialDraws) (cpus : ℕ) :
    (∃ p, TunerReturns 2 cpus (2 : ℕ) 3 (trialValue (demoMachine quad) 2 5000 draws) [] (.ok p)) ∧
    TunerReturns 2 cpus (2 : ℕ) 3 (trialValue (demoMachine quad) 2 5000 draws)
      [⟨0, demoSearchPoint, some 0⟩, ⟨1, demoSearchPoint, none⟩] (.ok demoSearchPoint) :=
  ⟨(C82_returns _ 2 cpus (by norm_num) 3 (by norm_num) 5000 draws []).1,
   C82_earlier_run _ 2 cpus (by norm_num) 3 5000 draws _
    (by simp only [List.mem_cons, List.not_mem_nil, or_false, forall_eq_or_imp, forall_eq]; simp)
    ⟨0, demoSearchPoint, some 0⟩ (by simp) rfl⟩

/-- A study in which two trials run at the same time and the second ends first. -/
example (quad : QuadRoutines) (draws : ℕ → TrialDraws) :
    ∃ v, TunerReachable 2 2 (trialValue (demoMachine quad) 2 0 draws) []
      ⟨[(0, demoSearchPoint)], [⟨1, demoSearchPoint, some v⟩], 2⟩ := by
  obtain ⟨v, -, hv⟩ := trialValue_exists (demoMachine quad) 2 0 (by norm_num) draws 1 demoSearchPoint
    demoSearchPoint_inSpace
  exact ⟨v, .step (.step (.step .init (.start demoSearchPoint (by simp) (by simp) demoSearchPoint_inSpace))
    (.start demoSearchPoint (by simp) (by simp) demoSearchPoint_inSpace)) (.finish [] _ 1 _ v rfl hv)⟩

/-- The shipped file of the Poisson example, given to this script. -/
example (quad : QuadRoutines) (draws : ℕ → TrialDraws) (ω : Draws) (θ : Weights) :
    ∃ R, OptunaMain (demoMachine quad) 0 8 draws [] (fun _ => true) (fun _ => .ok yamlUniformPoisson) ω θ demoFiles
      {} (.trained R) := by
  obtain ⟨⟨out, h⟩, hall⟩ := C82_config (demoMachine quad) 0 8 draws [] (fun _ => true)
    (fun _ => .ok yamlUniformPoisson) ω θ demoFiles {} rfl
  obtain ⟨⟨R, hR⟩, -⟩ := C76_shipped_uniform (demoMachine quad) (fun _ _ _ _ => ⟨_, rfl⟩)
    (fun _ => by simp [demoMachine]) (ω.sample _) θ demoFiles
  have := ((hall out h).2.1 yamlUniformPoisson configUniformPoisson (by simp) rfl rfl describesUniformPoisson).2
  rw [show mainUniform (demoMachine quad) problemUniformPoisson configUniformPoisson (ω.sample _) θ demoFiles = .ok R
    from hR] at this
  dsimp only at this
  rw [this] at h
  exact ⟨R, h⟩

end FastVPINNs
