import Verif.Spec.Notebook
import Verif.Props.DriverShipped
import Verif.Props.Study

/-! # C100: the two notebooks -/

namespace FastVPINNs

open Spec

/-! ## The problem -/

/-- **C100** (problem).  The right-hand side, exact solution and coefficient of each notebook belong together: the exact
solution satisfies `-∇·(eps ∇u) = f`. -/
theorem C100_problem :
    Consistent .poisson problemTraining.bilinearParams [] problemTraining.exactSolution problemTraining.rhs ∧
    Consistent .poisson problemCustom.bilinearParams [] problemCustom.exactSolution problemCustom.rhs :=
  ⟨⟨1.0, (0, 0), 0, fun _ _ => ⟨1.0, ⟨_, rfl, rfl⟩, rfl, rfl, rfl⟩, sinSin_solves (2.0 * Real.pi) _⟩,
    ⟨1.0, (0, 0), 0, fun _ _ => ⟨1.0, ⟨_, rfl, rfl⟩, rfl, rfl, rfl⟩, sinSin_solves (4.0 * Real.pi) _⟩⟩

lemma notebook_laplacian (k : ℝ) (z : ℝ × ℝ) :
    dx (dx fun p => notebookExact k p.1 p.2) z + dy (dy fun p => notebookExact k p.1 p.2) z
      = -notebookRhs k z.1 z.2 := by
  have h1 : dx (fun p => notebookExact k p.1 p.2)
      = fun z => -1.0 * (k * Real.pi * Real.cos (k * Real.pi * z.1)) * Real.sin (k * Real.pi * z.2) :=
    dx_of fun z => ((hasDerivAt_sin_mul (k * Real.pi) z.1).const_mul (-1.0)).mul_const (Real.sin (k * Real.pi * z.2))
  have h2 : dy (fun p => notebookExact k p.1 p.2)
      = fun z => -1.0 * Real.sin (k * Real.pi * z.1) * (k * Real.pi * Real.cos (k * Real.pi * z.2)) :=
    dy_of fun z => (hasDerivAt_sin_mul (k * Real.pi) z.2).const_mul (-1.0 * Real.sin (k * Real.pi * z.1))
  rw [h1, h2, dx_of fun z => (((hasDerivAt_cos_mul (k * Real.pi) z.1).const_mul (k * Real.pi)).const_mul (-1.0)).mul_const
      (Real.sin (k * Real.pi * z.2)),
    dy_of fun z => ((hasDerivAt_cos_mul (k * Real.pi) z.2).const_mul (k * Real.pi)).const_mul
      (-1.0 * Real.sin (k * Real.pi * z.1))]
  simp only [notebookRhs, lit_one, lit_two]
  ring

/-- **C100** (sign).  The text of the notebooks (cell 4) states the equation as `∇²u = f`.  Their functions satisfy
`∇²u = -f` everywhere, and `∇²u = f` fails. -/
theorem C100_sign : ∀ pb ∈ [problemTraining, problemCustom],
    (∀ z, dx (dx fun p => pb.exactSolution p.1 p.2) z + dy (dy fun p => pb.exactSolution p.1 p.2) z = -pb.rhs z.1 z.2) ∧
    ∃ x ∈ Set.Ioo (0 : ℝ) 1, ∃ y ∈ Set.Ioo (0 : ℝ) 1,
      dx (dx fun p => pb.exactSolution p.1 p.2) (x, y) + dy (dy fun p => pb.exactSolution p.1 p.2) (x, y) ≠ pb.rhs x y := by
  have key : ∀ k x : ℝ, k * Real.pi * x = Real.pi / 2 → 0 < k →
      dx (dx fun p => notebookExact k p.1 p.2) (x, x) + dy (dy fun p => notebookExact k p.1 p.2) (x, x)
        ≠ notebookRhs k x x := by
    intro k x hx hk h
    rw [notebook_laplacian] at h
    simp only [notebookRhs, hx, Real.sin_pi_div_two, lit_two] at h
    have : 0 < (k * Real.pi) ^ 2 := by positivity
    nlinarith
  intro pb hpb
  simp only [List.mem_cons, List.not_mem_nil, or_false] at hpb
  rcases hpb with rfl | rfl
  · exact ⟨notebook_laplacian 2.0, 1 / 4, by norm_num, 1 / 4, by norm_num,
      key 2.0 (1 / 4) (by norm_num; ring) (by norm_num)⟩
  · exact ⟨notebook_laplacian 4.0, 1 / 8, by norm_num, 1 / 8, by norm_num,
      key 4.0 (1 / 8) (by norm_num; ring) (by norm_num)⟩

/-- **C100** (boundary).  On the unit square, whatever the number of cells and points and whatever the draws, the
boundary data of the notebooks are the values of the exact solution at the boundary points. -/
theorem C100_boundary {ext : QuadRoutines} {mp : List (ℝ × ℝ)} {cells : List Quad} {s : FESettings}
    {f : ℝ → ℝ → ℝ} {plot : Bool} {nq : ℕ} {S : Fespace2D (ℝ → ℝ → ℝ) ℝ (s.feOrder.toNat ^ 2) nq}
    (pb : Problem) (hpb : pb ∈ [problemTraining, problemCustom]) (g : Geometry2D) (nx ny nb : ℕ)
    (smp : Fin 4 → Fin (nb / 4) → ℝ) (hs : ∀ a k, 0 ≤ smp a k ∧ smp a k ≤ 1)
    (h : fespace2D ext mp cells (generateQuadMeshInternal g (0, 1) (0, 1) nx ny nb smp).bdDict s
      pb.boundaryFunctionDict f plot = .ok ⟨nq, S⟩) :
    ∃ px py, getDirichletInput S = .ok (px, py) ∧ px.length = 4 * (nb / 4) ∧
      py = px.map fun z => pb.exactSolution z.1 z.2 := by
  obtain ⟨k, hd, hu⟩ : ∃ n : ℕ, pb.boundaryFunctionDict = notebookBoundaryDict ∧
      pb.exactSolution = notebookExact n := by
    simp only [List.mem_cons, List.not_mem_nil, or_false] at hpb
    rcases hpb with rfl | rfl
    · exact ⟨2, rfl, by simp only [problemTraining]; norm_num⟩
    · exact ⟨4, rfl, by simp only [problemCustom]; norm_num⟩
  rw [hd] at h
  rw [hu]
  obtain ⟨bo, ri, up, le, hbd, hlen, hb, hr, ht, hl, -, -⟩ :=
    C04_internal_boundary g (0, 1) (0, 1) zero_le_one zero_le_one nx ny nb smp hs
  have hu0 : ∀ x : ℝ, notebookExact k x 0 = 0 ∧ notebookExact k 0 x = 0 := fun x => by simp [notebookExact]
  have hu1 : ∀ x : ℝ, notebookExact k x 1 = 0 ∧ notebookExact k 1 x = 0 :=
    fun x => by simp [notebookExact, Real.sin_nat_mul_pi]
  refine ⟨_, _, dirichlet_matches h (notebookExact k) ?_, ?_, ?_⟩
  · rw [hbd]
    intro tag pt hpt g' hg'
    simp only [taggedPoints, List.flatMap_cons, List.flatMap_nil, List.append_nil, List.mem_append,
      List.mem_map, Prod.mk.injEq] at hpt
    rcases hpt with ⟨p, hp, rfl, rfl⟩ | ⟨p, hp, rfl, rfl⟩ | ⟨p, hp, rfl, rfl⟩ | ⟨p, hp, rfl, rfl⟩
    · cases hg'
      rw [(hb _ hp).1, (hu0 _).1]; norm_num [notebookSide]
    · cases hg'
      rw [(hr _ hp).1, (hu1 _).2]; norm_num [notebookSide]
    · cases hg'
      rw [(ht _ hp).1, (hu1 _).1]; norm_num [notebookSide]
    · cases hg'
      rw [(hl _ hp).1, (hu0 _).2]; norm_num [notebookSide]
  · rw [hbd]
    have h4 := fun l hl' => hlen l hl'
    simp only [List.mem_cons, List.not_mem_nil, or_false, forall_eq_or_imp, forall_eq] at h4
    obtain ⟨e1, e2, e3, e4⟩ := h4
    simp only [taggedPoints, List.flatMap_cons, List.flatMap_nil, List.append_nil, List.map_append,
      List.length_append, List.length_map, e1, e2, e3, e4]
    omega
  · rw [List.map_map]; rfl

/-! ## The class and the loss function written in the notebook -/

lemma notebookLoss_eq (nc nt nq : ℕ) : notebookLoss nc nt nq = lossPoisson nc nt nq := rfl

lemma customCall_eq (act : String → ℝ → ℝ) (attention : Batch → Except PyErr Batch) (layers : List DenseLayer)
    (x : Batch) : customCall act layers x = callDense act attention false layers x := by
  show _ = applyLayers act layers x
  induction layers generalizing x with
  | nil => rfl
  | cons L rest ih =>
    simp only [customCall, applyLayers]
    cases mapE (applyLayer act L) x with
    | error e => rfl
    | ok y => exact ih y

lemma customLearningRate_eq (d : List (String × PyVal)) : customLearningRate d = learningRateFn d := by
  unfold customLearningRate learningRateFn
  simp only [bind, Except.bind, pure, Except.pure]
  cases strGet d "initial_learning_rate" <;> cases strGet d "use_lr_scheduler" <;> cases strGet d "decay_steps" <;>
    cases strGet d "decay_rate" <;> dsimp only
  split_ifs <;> rfl

lemma customTrainStep_eq {nc nt nq nIn nBd dout : ℕ} (L : LossFunction nc nt nq) (M : ModelData nc nt nq nIn nBd)
    (net : Network dout) (beta : ℝ) (p : ParamDict) :
    customTrainStep L M net beta p = trainStepDense L M net beta p := by
  unfold customTrainStep trainStepDense cellsResidual
  dsimp only
  cases reshapeCells nc nq M.nCells _ with
  | error e => rfl
  | ok gx =>
    cases reshapeCells nc nq M.nCells _ with
    | error e => rfl
    | ok gy =>
      cases reshapeCells nc nq M.nCells _ with
      | error e => rfl
      | ok v => rfl

lemma custom_eq_dense (P : Prepared) (mc : Machine) (cfg : ForwardConfig) (pb : Problem) (dout : ℕ)
    (h : cfg.useAttention = false) : P.custom mc cfg pb dout = P.dense mc cfg pb dout := by
  have hnet : ∀ layers, customNetwork mc.act layers dout = networkDense mc.act mc.attention false layers dout := by
    intro layers
    funext n X r j
    simp only [customNetwork, networkDense, customCall_eq mc.act mc.attention]
  unfold Prepared.custom Prepared.dense
  simp only [h, customTrainStep_eq, hnet]
  congr 1
  funext θ x
  exact customCall_eq _ _ _ _

lemma prepareUniform_specs (mc : Machine) (cfg : ForwardConfig) (pb : Problem) (ld : List ℕ)
    (lrFn : List (String × PyVal) → Except PyErr LearningRate)
    (sample : Fin 4 → Fin (cfg.nBoundaryPoints / 4) → ℝ) (files : Files) (P : Prepared)
    (h : prepareUniform mc cfg pb ld lrFn sample files = .ok P) : layerSpecs ld cfg.activation = .ok P.specs := by
  unfold prepareUniform at h
  split_ifs at h
  split at h
  · exact absurd h (by simp)
  split at h
  · exact absurd h (by simp)
  · unfold prepareModel at h
    repeat (split at h; · exact absurd h (by simp))
    obtain rfl := Except.ok.inj h
    assumption
  · exact absurd h (by simp)

/-- **C100** (own class and loss).  The model class and the loss function written out in
`custom_training_poisson.ipynb` do the same as those of the library: for every configuration and problem, all draws and
initial weights, the notebook ends with the same result or the same exception as `poisson_training.ipynb` for this
problem, and the loss function is that of the library. -/
theorem C100_custom (mc : Machine) (triangulate : List (ℝ × ℝ) → Except PyErr Unit) (pb : Problem) (cfg : ForwardConfig)
    (sample : Fin 4 → Fin (cfg.nBoundaryPoints / 4) → ℝ) (θ : Weights) (files : Files) :
    notebookCustom mc triangulate pb cfg sample θ files = notebookTraining mc triangulate pb cfg sample θ files ∧
    notebookCustom mc triangulate { pb with loss := notebookLoss } cfg sample θ files
      = notebookTraining mc triangulate { pb with loss := lossPoisson } cfg sample θ files := by
  have key : ∀ pb, notebookCustom mc triangulate pb cfg sample θ files
      = notebookTraining mc triangulate pb cfg sample θ files := by
    intro pb
    unfold notebookCustom notebookTraining
    rw [show customLearningRate = learningRateFn from funext customLearningRate_eq]
    cases hP : prepareUniform mc (notebookSettings cfg) pb [2, 30, 30, 30, 1] learningRateFn sample files with
    | error e => rfl
    | ok P =>
      have hs : customLayers [2, 30, 30, 30, 1] cfg.activation = .ok P.specs := by
        have := prepareUniform_specs _ _ _ _ _ _ _ _ hP
        exact Eq.trans rfl this
      dsimp only
      rw [hs]
      dsimp only
      rw [custom_eq_dense _ _ _ _ _ rfl]
  exact ⟨key pb, key _⟩

/-! ## The results -/

lemma notebook_statistics (pts : List (ℝ × ℝ)) (hne : pts ≠ []) (u v : ℝ × ℝ → ℝ) (error : List ℝ)
    (he : error = (pts.map fun p => u p - v p).map (|·|)) :
    ∃ linf largest, npMax (error.map (|·|)) = .ok linf ∧ npMax ((pts.map u).map (|·|)) = .ok largest ∧
      ErrorsAt pts u v (Real.sqrt (npMean (error.map (· ^ 2)))) linf
        (Real.sqrt (npMean (error.map (· ^ 2))) / Real.sqrt (npMean ((pts.map u).map (· ^ 2)))) (linf / largest)
        (npMean (error.map (|·|))) (npMean (error.map (|·|)) / npMean ((pts.map u).map (|·|))) := by
  have h1 : error.map (|·|) = error := by
    rw [he, List.map_map]
    exact List.map_congr_left fun x _ => abs_abs x
  have h2 : error.map (· ^ 2) = (pts.map fun p => u p - v p).map (· ^ 2) := by
    rw [he, List.map_map]
    exact List.map_congr_left fun x _ => sq_abs x
  obtain ⟨l2, linf, l2r, linfr, l1, l1r, hE, herr⟩ := errors_at pts hne u v
  rw [h1, h2, he]
  simp only [computeErrorsCombined, computeL2Error, computeLinfError, computeL2ErrorRelative, computeLinfErrorRelative,
    computeL1Error, computeL1ErrorRelative, NDArray.flatten, array1, npSub_map, bind, Except.bind, pure, Except.pure]
    at hE
  cases hm : npMax ((pts.map fun p => u p - v p).map (|·|)) with
  | error e =>
    rw [hm] at hE
    exact absurd hE (by simp)
  | ok m =>
    cases hk : npMax ((pts.map u).map (|·|)) with
    | error e =>
      rw [hm, hk] at hE
      exact absurd hE (by simp)
    | ok k =>
      rw [hm, hk] at hE
      simp only [Except.ok.injEq, Prod.mk.injEq] at hE
      obtain ⟨rfl, rfl, rfl, rfl, rfl, rfl⟩ := hE
      exact ⟨_, _, rfl, rfl, herr⟩

/-- How the last cells of a notebook end. -/
lemma runNotebook_iff (mc : Machine) (triangulate : List (ℝ × ℝ) → Except PyErr Unit) (cfg : ForwardConfig)
    (pb : Problem) (P : Prepared) (M : DriverModel (TrainOut 1)) (θ : Weights) (value : Weights → ℝ × ℝ → ℝ)
    (pts : List (ℝ × ℝ)) (o' : GeometryObject) (hne : pts ≠ [])
    (hpred : ∀ θ, M.predict θ pts = .ok (pts.map (value θ)))
    (hpts : P.geometry.getTestPoints mc.env P.files = (.ok (.points pts), o', P.files)) :
    (∀ R, runNotebook mc triangulate cfg pb P M θ = .ok R → triangulate pts = .ok () ∧
      ∃ outs s, trainEpochs M.step cfg.epochs ⟨θ, AdamState.init⟩ = .ok (outs, s) ∧
        IsNotebookRecord pts (fun p => pb.exactSolution p.1 p.2) value s.weights outs R) ∧
    (triangulate pts = .ok () → (∃ r, trainEpochs M.step cfg.epochs ⟨θ, AdamState.init⟩ = .ok r) →
      ∃ R, runNotebook mc triangulate cfg pb P M θ = .ok R) := by
  unfold runNotebook
  cases htr : trainEpochs M.step cfg.epochs ⟨θ, AdamState.init⟩ with
  | error e => simp
  | ok r =>
    obtain ⟨outs, s⟩ := r
    obtain ⟨linf, largest, hm, hk, hE⟩ := notebook_statistics pts hne (fun p => pb.exactSolution p.1 p.2)
      (value s.weights) _ rfl
    dsimp only
    rw [hpts]
    dsimp only
    rw [hpred]
    dsimp only
    rw [npSub_map]
    dsimp only
    cases ht : triangulate pts with
    | error e => simp
    | ok u =>
      dsimp only
      rw [hm, hk]
      dsimp only
      refine ⟨fun R hR => ⟨rfl, outs, s, rfl, ?_⟩, fun _ _ => ⟨_, rfl⟩⟩
      obtain rfl := Except.ok.inj hR
      have hl : (outs.map fun out => List.ofFn out.loss) = outs.map fun out => [out.loss 0] :=
        List.map_congr_left fun out _ => by simp
      exact ⟨rfl, hl, rfl, rfl, by rw [List.map_map]; rfl, by rw [hl, List.map_map]; rfl, _, _, _, _, _, _, hE, rfl⟩

/-- **C100** (results).  Whenever one of the two notebooks finishes - whatever the settings in its cells - it has trained
the network with widths 2, 30, 30, 30, 1 without attention layer with the loss, tensors, boundary data and learning rate
assembled from the settings for the cells of the generated mesh, for the given number of epochs from the initial weights
`θ` and a new optimizer; the curve, the other axes of the figure and the table of errors belong to this training and
its final weights, evaluated at the tensor grid of test points. -/
theorem C100_run (mc : Machine) (triangulate : List (ℝ × ℝ) → Except PyErr Unit) (pb : Problem) (cfg : ForwardConfig)
    (sample : Fin 4 → Fin (cfg.nBoundaryPoints / 4) → ℝ) (θ : Weights) (files : Files) (R : NotebookResult)
    (hint : cfg.meshGenerationMethod = "internal")
    (h : notebookTraining mc triangulate pb cfg sample θ files = .ok R ∨
      notebookCustom mc triangulate pb cfg sample θ files = .ok R) :
    ∃ (o o' : GeometryObject) (files' : Files) (cells : List Quad) (bd : List (ℤ × List (List ℝ)))
      (mp : List (ℝ × ℝ)) (nq : ℕ) (S S' : Fespace2D (ℝ → ℝ → ℝ) ℝ (cfg.feOrder.toNat ^ 2) nq)
      (D : DataHandler2D (cfg.feOrder.toNat ^ 2) nq) (bdv : List (ℝ × ℝ) × List ℝ) (specs : List LayerSpec)
      (lr : LearningRate) (pts : List (ℝ × ℝ)) (st : ℕ → TrainState) (outs : List (TrainOut 1)),
      newGeometry cfg.meshType "internal" cfg.nTestPointsX cfg.nTestPointsY cfg.outputPath false = .ok o ∧
      o.generateInternal mc.env files (cfg.xMin, cfg.xMax) (cfg.yMin, cfg.yMax) cfg.nCellsX cfg.nCellsY
        cfg.nBoundaryPoints sample = (.ok (.mesh cells bd), o', files') ∧
      Assembled mc { cfg with generateMeshPlot := true } pb [2, 30, 30, 30, 1] mp cells (bdPairs bd) S S' D bdv specs ∧
      learningRateFn cfg.learningRate = .ok lr ∧
      IsTensorGrid (cfg.xMin, cfg.xMax) (cfg.yMin, cfg.yMax) cfg.nTestPointsX cfg.nTestPointsY pts ∧
      st 0 = ⟨θ, AdamState.init⟩ ∧ outs.length = cfg.epochs ∧
      IsRun (trainStepWith (forwardDense (pb.loss D.nCells _ nq) (modelDataOf D bdv cells.length) mc.act
        mc.attention false 2 specs 1 cfg.beta (some pb.bilinearParams)) (trainableVariables 2 specs []) lr) st outs ∧
      IsNotebookRecord pts (fun p => pb.exactSolution p.1 p.2) (networkValue (mc.act cfg.activation) [2, 30, 30, 30, 1])
        (st cfg.epochs).weights outs R := by
  rw [(C100_custom mc triangulate pb cfg sample θ files).1, or_self] at h
  unfold notebookTraining at h
  split at h
  · exact absurd h (by simp)
  rename_i P hP
  obtain ⟨o, o', files', cells, bd, mp, nq, S, S', D, bdv, lr, specs, inDim, pts, o'', -, h1, h2, h3, h4, h5, rfl,
    h7, h8⟩ := prepareUniform_ok mc (notebookSettings cfg) pb _ _ sample files P hint hP
  obtain rfl : 2 = inDim := Except.ok.inj h5
  obtain rfl : specs = [⟨30, some cfg.activation⟩, ⟨30, some cfg.activation⟩, ⟨30, some cfg.activation⟩, ⟨1, none⟩] :=
    Except.ok.inj (h3.layers.symm.trans (fixedLayers_specs cfg.activation))
  have hpred := dense_predict ⟨_, nq, D, bdv, cells.length, 2, [⟨30, some cfg.activation⟩, ⟨30, some cfg.activation⟩,
    ⟨30, some cfg.activation⟩, ⟨1, none⟩], lr, o', files'⟩ mc (notebookSettings cfg) pb fixedLayers nofun rfl (by decide)
    (fixedLayers_specs cfg.activation) rfl rfl pts
  have hne : pts ≠ [] := by
    rintro rfl
    unfold runNotebook at h
    split at h
    · exact absurd h (by simp)
    rw [h8] at h
    dsimp only at h
    erw [hpred] at h
    dsimp only [npSub, List.map_nil] at h
    split at h
    · exact absurd h (by simp)
    · split at h
      · exact absurd h (by simp)
      · simp only [List.map_nil, show npMax [] = .error .valueError from rfl] at h
        split at h
        · exact absurd h (by simp)
        · exact absurd h (by simp)
        · rename_i hk
          exact absurd hk (by simp)
  obtain ⟨-, outs, s, htr, hR⟩ := (runNotebook_iff mc triangulate (notebookSettings cfg) pb _ _ θ
    (networkValue (mc.act cfg.activation) [2, 30, 30, 30, 1]) pts o'' hne hpred h8).1 R h
  obtain ⟨hlen, st, hrun, h0, hend⟩ := (trainEpochs_iff _ _ _ _ _).1 htr
  refine ⟨o, o', files', cells, bd, mp, nq, S, S', D, bdv, _, lr, pts, st, outs, hint ▸ h1, h2,
    ⟨h3.space, h3.handler, h3.dirichlet, h3.layers⟩, h4, h7, h0, hlen, ?_, hend ▸ hR⟩
  intro k hk
  have := hrun k hk
  simp only [Prepared.dense, if_true] at this
  rw [show paramsAsTensors pb.bilinearParams = pb.bilinearParams by simp [paramsAsTensors]] at this
  exact this

lemma grid_spans (x y : ℝ × ℝ) (nx ny : ℕ) (pts : List (ℝ × ℝ)) (h : IsTensorGrid x y nx ny pts) :
    SpansTriangle pts ↔ 2 ≤ nx ∧ 2 ≤ ny ∧ x.1 ≠ x.2 ∧ y.1 ≠ y.2 := by
  have hmem : ∀ p ∈ pts, ∃ i < nx, ∃ j < ny, p = (gridLine x.1 x.2 (nx - 1) i, gridLine y.1 y.2 (ny - 1) j) := by
    intro p hp
    obtain ⟨k, hk, rfl⟩ := List.mem_iff_getElem.1 hp
    have hk' := hk
    rw [h.1] at hk'
    have hnx : 0 < nx := Nat.pos_of_ne_zero fun h0 => by simp [h0] at hk'
    have hi := Nat.mod_lt k hnx
    have hj : k / nx < ny := Nat.div_lt_of_lt_mul hk'
    refine ⟨k % nx, hi, k / nx, hj, ?_⟩
    have := h.2 _ hi _ hj
    rw [Nat.div_add_mod, List.getElem?_eq_getElem hk] at this
    exact Option.some.inj this
  have hin : ∀ i < nx, ∀ j < ny, (gridLine x.1 x.2 (nx - 1) i, gridLine y.1 y.2 (ny - 1) j) ∈ pts :=
    fun i hi j hj => List.mem_of_getElem? (h.2 i hi j hj)
  constructor
  · rintro ⟨a, ha, b, hb, c, hc, hd⟩
    obtain ⟨ia, ha1, ja, ha2, rfl⟩ := hmem a ha
    obtain ⟨ib, hb1, jb, hb2, rfl⟩ := hmem b hb
    obtain ⟨ic, hc1, jc, hc2, rfl⟩ := hmem c hc
    refine ⟨?_, ?_, ?_, ?_⟩
    · by_contra hc
      obtain rfl : nx = 1 := by omega
      obtain rfl : ia = 0 := by omega
      obtain rfl : ib = 0 := by omega
      obtain rfl : ic = 0 := by omega
      exact hd (by ring)
    · by_contra hc
      obtain rfl : ny = 1 := by omega
      obtain rfl : ja = 0 := by omega
      obtain rfl : jb = 0 := by omega
      obtain rfl : jc = 0 := by omega
      exact hd (by ring)
    · intro he
      exact hd (by simp [gridLine, he])
    · intro he
      exact hd (by simp [gridLine, he])
  · rintro ⟨h1, h2, h3, h4⟩
    refine ⟨_, hin 0 (by omega) 0 (by omega), _, hin 1 (by omega) 0 (by omega), _, hin 0 (by omega) 1 (by omega), ?_⟩
    have e1 : ((nx - 1 : ℕ) : ℝ) ≠ 0 := by
      rw [Nat.cast_ne_zero]; omega
    have e2 : ((ny - 1 : ℕ) : ℝ) ≠ 0 := by
      rw [Nat.cast_ne_zero]; omega
    have e3 := sub_ne_zero.2 h3.symm
    have e4 := sub_ne_zero.2 h4.symm
    simp only [gridLine]
    have : (x.2 - x.1) * (1 / ((nx - 1 : ℕ) : ℝ)) * ((y.2 - y.1) * (1 / ((ny - 1 : ℕ) : ℝ))) ≠ 0 := by positivity
    convert this using 1
    push_cast
    ring

/-- **C100** (completion).  If gmsh's file can be read and `tricontourf` works exactly for points that span a triangle,
a notebook with at least one epoch finishes exactly for the valid settings on a rectangle that is not degenerate; other than
the scripts, it also finishes with zero epochs (with the initial weights). -/
theorem C100_completes (mc : Machine) (triangulate : List (ℝ × ℝ) → Except PyErr Unit) (pb : Problem)
    (cfg : ForwardConfig) (hloss : ∀ nc nt nq, pb.loss nc nt nq = lossPoisson nc nt nq)
    (sample : Fin 4 → Fin (cfg.nBoundaryPoints / 4) → ℝ) (θ : Weights) (files : Files)
    (hint : cfg.meshGenerationMethod = "internal")
    (hmsh : ∀ x y hx hy, ∃ m, mc.env.parseMsh (mc.env.gmsh x y hx hy) = .ok m)
    (htri : ∀ pts, triangulate pts = .ok () ↔ SpansTriangle pts) :
    (ValidSetup pb { cfg with generateMeshPlot := true, dtype := "float32" } .poisson
        ["initial_learning_rate", "use_lr_scheduler", "decay_steps", "decay_rate"] →
      cfg.xMin ≠ cfg.xMax → cfg.yMin ≠ cfg.yMax →
      (∃ R, notebookTraining mc triangulate pb cfg sample θ files = .ok R) ∧
      ∃ R, notebookCustom mc triangulate pb cfg sample θ files = .ok R) ∧
    ((∃ R, notebookTraining mc triangulate pb cfg sample θ files = .ok R ∨
        notebookCustom mc triangulate pb cfg sample θ files = .ok R) →
      0 < cfg.epochs →
      ValidSetup pb { cfg with generateMeshPlot := true, dtype := "float32" } .poisson
        ["initial_learning_rate", "use_lr_scheduler", "decay_steps", "decay_rate"] ∧
      cfg.xMin ≠ cfg.xMax ∧ cfg.yMin ≠ cfg.yMax) := by
  simp only [(C100_custom mc triangulate pb cfg sample θ files).1, or_self, and_self]
  have hprep := prepareUniform_iff mc (notebookSettings cfg) pb [2, 30, 30, 30, 1] (by decide) learningRateFn sample
    files hint hmsh
  have hrest : ∀ P, prepareUniform mc (notebookSettings cfg) pb [2, 30, 30, 30, 1] learningRateFn sample files = .ok P →
      0 < cfg.nTestPointsX ∧ 0 < cfg.nTestPointsY →
      (∀ s, (∃ r, (P.dense mc (notebookSettings cfg) pb (outDim P.specs)).step s = .ok r) ↔
        ∃ v, pb.bilinearParams.lookup "eps" = some v) ∧
      (∀ R, runNotebook mc triangulate (notebookSettings cfg) pb P
          (P.dense mc (notebookSettings cfg) pb (outDim P.specs)) θ = .ok R →
        (2 ≤ cfg.nTestPointsX ∧ 2 ≤ cfg.nTestPointsY ∧ cfg.xMin ≠ cfg.xMax ∧ cfg.yMin ≠ cfg.yMax) ∧
        ∃ outs s, trainEpochs (P.dense mc (notebookSettings cfg) pb (outDim P.specs)).step cfg.epochs
          ⟨θ, AdamState.init⟩ = .ok (outs, s)) ∧
      ((2 ≤ cfg.nTestPointsX ∧ 2 ≤ cfg.nTestPointsY ∧ cfg.xMin ≠ cfg.xMax ∧ cfg.yMin ≠ cfg.yMax) →
        (∃ r, trainEpochs (P.dense mc (notebookSettings cfg) pb (outDim P.specs)).step cfg.epochs
          ⟨θ, AdamState.init⟩ = .ok r) →
        ∃ R, runNotebook mc triangulate (notebookSettings cfg) pb P
          (P.dense mc (notebookSettings cfg) pb (outDim P.specs)) θ = .ok R) := by
    intro P hP hpos
    obtain ⟨o, o', files', cells, bd, mp, nq, S, S', D, bdv, lr, specs, inDim, pts, o'', -, h1, h2, h3, h4, h5, rfl,
      h7, h8⟩ := prepareUniform_ok mc (notebookSettings cfg) pb _ _ sample files P hint hP
    obtain rfl : 2 = inDim := Except.ok.inj h5
    obtain rfl : specs = [⟨30, some cfg.activation⟩, ⟨30, some cfg.activation⟩, ⟨30, some cfg.activation⟩,
      ⟨1, none⟩] := Except.ok.inj (h3.layers.symm.trans (fixedLayers_specs cfg.activation))
    have hne : pts ≠ [] := by
      rw [← List.length_pos_iff, h7.1]
      exact Nat.mul_pos hpos.1 hpos.2
    have hpred := dense_predict ⟨_, nq, D, bdv, cells.length, 2, [⟨30, some cfg.activation⟩, ⟨30, some cfg.activation⟩,
      ⟨30, some cfg.activation⟩, ⟨1, none⟩], lr, o', files'⟩ mc (notebookSettings cfg) pb fixedLayers nofun rfl
      (by decide) (fixedLayers_specs cfg.activation) rfl rfl pts
    have hrun := runNotebook_iff mc triangulate (notebookSettings cfg) pb ⟨_, nq, D, bdv, cells.length, 2,
      [⟨30, some cfg.activation⟩, ⟨30, some cfg.activation⟩, ⟨30, some cfg.activation⟩, ⟨1, none⟩], lr, o', files'⟩ _ θ
      (networkValue (mc.act cfg.activation) [2, 30, 30, 30, 1]) pts o'' hne hpred h8
    have hgrid := grid_spans _ _ _ _ _ h7
    refine ⟨fun s => ?_, fun R hR => ?_, fun hd ht => ?_⟩
    · obtain ⟨pt, hpt, -⟩ := C76_losses mc pb (notebookSettings cfg) .poisson (by simp [LossKind.forward]) hloss fixedLayers
        (by decide) rfl rfl mp cells (bdPairs bd) nq S S' D bdv _ h3 lr
      have hc := coefficients_exist .poisson (by simp [LossKind.forward]) pb.bilinearParams D.nCells nq
      simp only [requiredParams, List.mem_singleton, forall_eq] at hc
      rw [← hc]
      simp only [Prepared.dense, if_true]
      rw [show paramsAsTensors pb.bilinearParams = pb.bilinearParams by simp [paramsAsTensors]]
      exact dense_step_iff _ .poisson (by simp [LossKind.forward]) (hloss _ _ _) _ pt hpt _ _ _ _ _ _ _ _ s
    · obtain ⟨k1, outs, s, k2, -⟩ := hrun.1 R hR
      exact ⟨hgrid.1 ((htri pts).1 k1), outs, s, k2⟩
    · exact hrun.2 ((htri pts).2 (hgrid.2 hd)) ht
  constructor
  · intro hv hx hy
    obtain ⟨P, hP⟩ := hprep.2 ⟨.inr rfl, hv.meshType, hv.nCells,
      ⟨by have := hv.testPoints; simp only at this; exact Nat.lt_of_lt_of_le (by norm_num) this.1,
       by have := hv.testPoints; exact Nat.lt_of_lt_of_le (by norm_num) this.2⟩, hv.feOrder, hv.feType, hv.quadOrder,
      hv.quadType, hv.boundary, hv.plot, (C50_keys cfg.learningRate).2.2 hv.learningRate⟩
    have htp := hv.testPoints
    dsimp only at htp
    obtain ⟨k1, -, k3⟩ := hrest P hP ⟨by omega, by omega⟩
    obtain ⟨R, hR⟩ := k3 ⟨htp.1, htp.2, hx, hy⟩
      (trainEpochs_succeeds _ (fun s => (k1 s).2 (hv.parameters _ (by simp [requiredParams]))) _ _)
    exact ⟨R, by unfold notebookTraining; rw [hP]; exact hR⟩
  · rintro ⟨R, hR⟩ hpos
    unfold notebookTraining at hR
    split at hR
    · exact absurd hR (by simp)
    rename_i P hP
    obtain ⟨p1, p2, p3, p4, p5, p6, p7, p8, p9, p10, p11⟩ := hprep.1 ⟨P, hP⟩
    obtain ⟨k1, k2, -⟩ := hrest P hP p4
    obtain ⟨⟨t1, t2, t3, t4⟩, outs, s, htr⟩ := k2 R hR
    obtain ⟨hlen, st, hrun, -⟩ := (trainEpochs_iff _ _ _ _ _).1 htr
    have hpar := (k1 (st 0)).1 ⟨_, hrun 0 (by omega)⟩
    exact ⟨⟨p1, p2, p3, ⟨t1, t2⟩, p5, p6, p7, p8, p9, p10, (C50_keys cfg.learningRate).2.1 p11,
      by simpa [requiredParams] using hpar⟩, t3, t4⟩

/-- **C100** (as shipped).  Both notebooks finish with the settings they are shipped with, whatever the draws and the
initial weights, for any number of epochs and cells. -/
theorem C100_shipped (mc : Machine) (triangulate : List (ℝ × ℝ) → Except PyErr Unit)
    (hmsh : ∀ x y hx hy, ∃ m, mc.env.parseMsh (mc.env.gmsh x y hx hy) = .ok m)
    (htri : ∀ pts, triangulate pts = .ok () ↔ SpansTriangle pts)
    (sample : Fin 4 → Fin (400 / 4) → ℝ) (θ : Weights) (files : Files) (n : ℕ) (hn : 0 < n) :
    (∃ R, notebookTraining mc triangulate problemTraining (notebookShipped n) sample θ files = .ok R) ∧
    ∃ R, notebookCustom mc triangulate problemCustom (notebookShipped n) sample θ files = .ok R := by
  have hb : 4 ≤ 400 → ∀ tag ∈ [(1000 : ℤ), 1001, 1002, 1003], ∃ g, notebookBoundaryDict.lookup tag = some g := by
    simp [notebookBoundaryDict, List.lookup]
  have hl : ∀ k ∈ ["initial_learning_rate", "use_lr_scheduler", "decay_steps", "decay_rate"],
      ∃ v, (notebookShipped n).learningRate.lookup k = some v := by
    intro k hk
    simp only [List.mem_cons, List.not_mem_nil, or_false] at hk
    rcases hk with rfl | rfl | rfl | rfl <;> exact ⟨_, rfl⟩
  have hp : ∀ k ∈ requiredParams .poisson, ∃ v, notebookBilinear.lookup k = some v := by
    intro k hk
    simp only [requiredParams, List.mem_singleton] at hk
    subst hk
    exact ⟨_, rfl⟩
  have hv : ∀ pb ∈ [problemTraining, problemCustom], ValidSetup pb
      { notebookShipped n with generateMeshPlot := true, dtype := "float32" } .poisson
      ["initial_learning_rate", "use_lr_scheduler", "decay_steps", "decay_rate"] := by
    intro pb hpb
    simp only [List.mem_cons, List.not_mem_nil, or_false] at hpb
    rcases hpb with rfl | rfl <;>
    exact ⟨.inr rfl, rfl, ⟨hn, hn⟩, ⟨by simp [notebookShipped], by simp [notebookShipped]⟩, ⟨by simp [notebookShipped],
      by simp [notebookShipped]⟩, by simp [notebookShipped], ⟨by simp [notebookShipped], by simp [notebookShipped]⟩,
      .inr rfl, hb, fun _ => by simp [notebookShipped], hl, hp⟩
  have hx : (notebookShipped n).xMin ≠ (notebookShipped n).xMax := by simp [notebookShipped]
  have hy : (notebookShipped n).yMin ≠ (notebookShipped n).yMax := by simp [notebookShipped]
  exact ⟨((C100_completes mc triangulate problemTraining (notebookShipped n) (fun _ _ _ => rfl) sample θ files rfl hmsh
      htri).1 (hv _ (by simp)) hx hy).1,
    ((C100_completes mc triangulate problemCustom (notebookShipped n) (fun _ _ _ => rfl) sample θ files rfl hmsh htri).1
      (hv _ (by simp)) hx hy).2⟩

open Classical in
/-- The hypotheses are met by the shipped settings, a readable gmsh file and a triangulation that fails exactly for
points on a line. -/
example (quad : QuadRoutines) (sample : Fin 4 → Fin (400 / 4) → ℝ) (θ : Weights) :
    ∃ triangulate : List (ℝ × ℝ) → Except PyErr Unit, (∀ pts, triangulate pts = .ok () ↔ SpansTriangle pts) ∧
      (∃ R, notebookTraining (demoMachine quad) triangulate problemTraining (notebookShipped 2) sample θ demoFiles
        = .ok R) ∧
      ∃ R, notebookCustom (demoMachine quad) triangulate problemCustom (notebookShipped 4) sample θ demoFiles = .ok R := by
  have htri : ∀ pts, (if SpansTriangle pts then .ok () else .error .valueError : Except PyErr Unit) = .ok () ↔
      SpansTriangle pts := fun pts => by split_ifs with h <;> simp [h]
  exact ⟨fun pts => if SpansTriangle pts then .ok () else .error .valueError, htri,
    (C100_shipped (demoMachine quad) _ (fun _ _ _ _ => ⟨_, rfl⟩) htri sample θ demoFiles 2 (by norm_num)).1,
    (C100_shipped (demoMachine quad) _ (fun _ _ _ _ => ⟨_, rfl⟩) htri sample θ demoFiles 4 (by norm_num)).2⟩

end FastVPINNs
