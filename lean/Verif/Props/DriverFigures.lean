import Verif.Lemmas.DriverFigures
import Verif.Props.DriverShipped
import Verif.Props.DriverInverse

/-! # C83: the figures of the scripts -/

namespace FastVPINNs

open Pyplot Spec

/-- The figures of a run on the rectangle. -/
lemma figuresRun_record {α : Type} (mc : Machine) (cfg : ForwardConfig) (M : DriverModel α)
    (value : Weights → ℝ × ℝ → ℝ) (losses : α → ℝ × ℝ × ℝ) (pts : List (ℝ × ℝ))
    (hjoin : ∀ a b, mc.env.join cfg.outputPath a = mc.env.join cfg.outputPath b → a = b)
    (pb : Problem) (P : Prepared) (o' : GeometryObject) (hpred : ∀ θ, M.predict θ pts = .ok (pts.map (value θ)))
    (hfl : ∀ out, M.floats out = .ok (losses out))
    (hline : ∀ fmt out, M.lossLine fmt out = fmt (losses out).2.2)
    (hpts : P.geometry.getTestPoints mc.env P.files = (.ok (.points pts), o', P.files))
    (hlen : pts.length = cfg.nTestPointsX * cfg.nTestPointsY) (θ : Weights)
    (R : RunResult) (h : runUniform mc cfg pb P M θ = .ok R) (s : Pyplot) :
    ∃ (st : ℕ → TrainState) (outs : List α) (T : Pyplot), st 0 = ⟨θ, AdamState.init⟩ ∧ outs.length = cfg.epochs ∧
      IsRun M.step st outs ∧
      IsRecord mc cfg pts (fun p => pb.exactSolution p.1 p.2) value losses st outs R ∧
      figuresRun mc cfg pb P M θ s = .ok T ∧ T.figures = s.figures ∧
      IsFigureRecord cfg.outputPath cfg.nTestPointsX cfg.nTestPointsY
        (reportEpochs cfg.updateConsoleOutput cfg.epochs) pts (fun p => pb.exactSolution p.1 p.2)
        (fun e => value (st e).weights) (outs.map fun o => (losses o).2.2) [] s T := by
  obtain ⟨st, outs, k1, k2, k3, k4, -, model, files', k5⟩ := runUniform_record mc cfg M value losses pts hjoin pb P o' hpred
    hfl hline hpts θ R h
  have hpos : 0 < cfg.epochs := by
    rcases Nat.eq_zero_or_pos cfg.epochs with h0 | h0
    · exfalso
      have h2 := runUniform_points mc cfg M pb P θ R h
      unfold runUniform at h
      rw [hpts] at h
      simp only [contourMatrices_eq _ _ hlen, plotContour_eq _ _ _ _ _ _ _ h2] at h
      rw [h0] at h
      exact absurd h (by simp [epochLoop, finishRun])
    · exact h0
  obtain ⟨s₁, T, j1, j2, j3, j4⟩ := figures_record (runUniform_points mc cfg M pb P θ R h) pts hlen pb.exactSolution
    (fun e => value (st e).weights) (outs.map fun o => (losses o).2.2) cfg.updateConsoleOutput cfg.epochs hpos
    (by rw [List.length_map, k2]) (R.reports.map Report.plotted) (by
      rw [List.forall₂_map_right_iff]
      refine k4.reports.imp fun e r ⟨h1, _, ⟨l2, linf, l2r, linfr, l1, l1r, h2, h3⟩, h4, _⟩ => ⟨h1, ?_, h4⟩
      simp only [Report.plotted, h2]
      exact h3.mean) cfg.outputPath s
  refine ⟨st, outs, T, k1, k2, k3, k4, ?_, j3, j4⟩
  unfold figuresRun
  rw [hpts]
  simp only [bind, Except.bind, contourMatrices_eq _ _ hlen, j1, k5, mapM_ok _ _ hfl, List.map_map]
  exact j2

/-- **C83** (the images of the script on the rectangle).  Whenever the script finishes, so do its plotting commands, and
they leave no figure open.  The images in the output folder show the exact solution, after every reported epoch the
network with the weights after that epoch and its absolute error, the losses of all epochs and the mean absolute
errors of all reports, where the training is the one of `C76_uniform`; no other image is written. -/
theorem C83_uniform (mc : Machine) (pb : Problem) (cfg : ForwardConfig)
    (sample : Fin 4 → Fin (cfg.nBoundaryPoints / 4) → ℝ) (θ : Weights) (files : Files) (R : RunResult)
    (hatt : cfg.useAttention = true → mc.attention = attentionDot) (hint : cfg.meshGenerationMethod = "internal")
    (hjoin : ∀ a b, mc.env.join cfg.outputPath a = mc.env.join cfg.outputPath b → a = b)
    (h : mainUniform mc pb cfg sample θ files = .ok R) (s : Pyplot) :
    ∃ (o o' : GeometryObject) (files' : Files) (cells : List Quad) (bd : List (ℤ × List (List ℝ)))
      (mp : List (ℝ × ℝ)) (nq : ℕ) (S S' : Fespace2D (ℝ → ℝ → ℝ) ℝ (cfg.feOrder.toNat ^ 2) nq)
      (D : DataHandler2D (cfg.feOrder.toNat ^ 2) nq) (bdv : List (ℝ × ℝ) × List ℝ) (specs : List LayerSpec)
      (lr : LearningRate) (pts : List (ℝ × ℝ)) (st : ℕ → TrainState) (outs : List (TrainOut 1)) (T : Pyplot),
      newGeometry cfg.meshType "internal" cfg.nTestPointsX cfg.nTestPointsY cfg.outputPath false = .ok o ∧
      o.generateInternal mc.env files (cfg.xMin, cfg.xMax) (cfg.yMin, cfg.yMax) cfg.nCellsX cfg.nCellsY
        cfg.nBoundaryPoints sample = (.ok (.mesh cells bd), o', files') ∧
      Assembled mc cfg pb [2, 30, 30, 30, 1] mp cells (bdPairs bd) S S' D bdv specs ∧
      learningRateFn cfg.learningRate = .ok lr ∧
      IsTensorGrid (cfg.xMin, cfg.xMax) (cfg.yMin, cfg.yMax) cfg.nTestPointsX cfg.nTestPointsY pts ∧
      st 0 = ⟨θ, AdamState.init⟩ ∧ outs.length = cfg.epochs ∧
      IsRun (trainStepWith (forwardDense (pb.loss D.nCells _ nq) (modelDataOf D bdv cells.length) mc.act
        mc.attention cfg.useAttention 2 specs 1 cfg.beta (some pb.bilinearParams)) (trainableVariables 2 specs []) lr)
        st outs ∧
      IsRecord mc cfg pts (fun p => pb.exactSolution p.1 p.2)
        (batchValue cfg.useAttention pts (mc.act cfg.activation) [2, 30, 30, 30, 1])
        (fun out => (out.lossPde, out.lossDirichlet 0, out.loss 0)) st outs R ∧
      figuresUniform mc pb cfg sample θ files s = .ok T ∧ T.figures = s.figures ∧
      IsFigureRecord cfg.outputPath cfg.nTestPointsX cfg.nTestPointsY
        (reportEpochs cfg.updateConsoleOutput cfg.epochs) pts (fun p => pb.exactSolution p.1 p.2)
        (fun e => batchValue cfg.useAttention pts (mc.act cfg.activation) [2, 30, 30, 30, 1] (st e).weights)
        (outs.map fun out => out.loss 0) [] s T := by
  unfold mainUniform at h
  split at h
  · exact absurd h (by simp)
  rename_i P hP
  obtain ⟨o, o', files', cells, bd, mp, nq, S, S', D, bdv, lr, specs, inDim, pts, o'', -, h1, h2, h3, h4, h5, rfl,
    h7, h8⟩ := prepareUniform_ok mc cfg pb _ _ sample files P hint hP
  obtain rfl : 2 = inDim := Except.ok.inj h5
  obtain rfl : specs = [⟨30, some cfg.activation⟩, ⟨30, some cfg.activation⟩, ⟨30, some cfg.activation⟩, ⟨1, none⟩] :=
    Except.ok.inj (h3.layers.symm.trans (fixedLayers_specs cfg.activation))
  obtain ⟨st, outs, T, k1, k2, k3, k4, k5, k6, k7⟩ := figuresRun_record mc cfg _ (batchValue cfg.useAttention pts (mc.act cfg.activation) fixedLayers)
    (fun out : TrainOut 1 => (out.lossPde, out.lossDirichlet 0, out.loss 0)) pts hjoin pb _ o''
    (dense_predict _ mc cfg pb fixedLayers hatt rfl (by decide) (fixedLayers_specs cfg.activation) rfl rfl pts)
    (dense_floats _ mc cfg pb) (dense_lossLine _ mc cfg pb) h8 h7.1 θ R h s
  refine ⟨o, o', files', cells, bd, mp, nq, S, S', D, bdv, _, lr, pts, st, outs, T, hint ▸ h1, h2, h3, h4, h7, k1, k2,
    ?_, k4, ?_, k6, k7⟩
  swap
  · unfold figuresUniform
    rw [hP]
    exact k5
  intro k hk
  have := k3 k hk
  simp only [Prepared.dense, if_true] at this
  rw [show paramsAsTensors pb.bilinearParams = pb.bilinearParams by simp [paramsAsTensors]] at this
  exact this

/-- The shipped script writes `prediction_10000.png`, and the loss curve has 10000 points. -/
example (quad : QuadRoutines) (sample : Fin 4 → Fin (400 / 4) → ℝ) (θ : Weights) (s : Pyplot) :
    ∃ T fig fig' points, figuresUniform (demoMachine quad) problemUniformPoisson configUniformPoisson sample θ demoFiles s
        = .ok T ∧ T.images "output/poisson2d/1/prediction_10000.png" = some fig ∧ fig.title = "Prediction" ∧
      T.images "output/poisson2d/1/loss_function.png" = some fig' ∧ fig'.drawn = [.curve points none] ∧
      points.length = 10000 := by
  obtain ⟨⟨R, hR⟩, -⟩ := C76_shipped_uniform (demoMachine quad) (fun _ _ _ _ => ⟨_, rfl⟩)
    (fun _ => by simp [demoMachine]) sample θ demoFiles
  obtain ⟨-, -, -, -, -, -, -, -, -, -, -, -, -, pts, st, outs, T, -, -, -, -, -, -, hlen, -, -, hT, -, hrec⟩ := C83_uniform
    (demoMachine quad) problemUniformPoisson configUniformPoisson sample θ demoFiles R nofun rfl
    (fun a b h => by simpa [demoMachine, demoEnv] using h) hR s
  obtain ⟨fig, h1, h2⟩ := hrec.prediction 9999 (List.mem_of_getLast? (reportEpochs_last _ 10000 (by norm_num)))
  obtain ⟨fig', h3, ⟨points, h4, h5, -⟩, -⟩ := hrec.loss
  exact ⟨T, fig, fig', points, hT, h1, h2.title, h3, h4, by rw [h5, List.length_map, hlen]; rfl⟩

/-- **C83** (hard boundary constraints).  The same for the script with hard constraints; the function shown is the product of
the network with the factor that vanishes on the sides of the unit square. -/
theorem C83_hard (mc : Machine) (pb : Problem) (cfg : ForwardConfig)
    (sample : Fin 4 → Fin (cfg.nBoundaryPoints / 4) → ℝ) (θ : Weights) (files : Files) (R : RunResult)
    (hatt : cfg.useAttention = true → mc.attention = attentionDot) (hint : cfg.meshGenerationMethod = "internal")
    (hjoin : ∀ a b, mc.env.join cfg.outputPath a = mc.env.join cfg.outputPath b → a = b)
    (h : mainHard mc pb cfg sample θ files = .ok R) (s : Pyplot) :
    ∃ (o o' : GeometryObject) (files' : Files) (cells : List Quad) (bd : List (ℤ × List (List ℝ)))
      (mp : List (ℝ × ℝ)) (nq : ℕ) (S S' : Fespace2D (ℝ → ℝ → ℝ) ℝ (cfg.feOrder.toNat ^ 2) nq)
      (D : DataHandler2D (cfg.feOrder.toNat ^ 2) nq) (bdv : List (ℝ × ℝ) × List ℝ) (specs : List LayerSpec)
      (lr : LearningRate) (pts : List (ℝ × ℝ)) (st : ℕ → TrainState) (outs : List TrainOutHard) (T : Pyplot),
      newGeometry cfg.meshType "internal" cfg.nTestPointsX cfg.nTestPointsY cfg.outputPath false = .ok o ∧
      o.generateInternal mc.env files (cfg.xMin, cfg.xMax) (cfg.yMin, cfg.yMax) cfg.nCellsX cfg.nCellsY
        cfg.nBoundaryPoints sample = (.ok (.mesh cells bd), o', files') ∧
      Assembled mc cfg pb [2, 30, 30, 30, 1] mp cells (bdPairs bd) S S' D bdv specs ∧
      learningRateFnStaircase cfg.learningRate = .ok lr ∧
      IsTensorGrid (cfg.xMin, cfg.xMax) (cfg.yMin, cfg.yMax) cfg.nTestPointsX cfg.nTestPointsY pts ∧
      st 0 = ⟨θ, AdamState.init⟩ ∧ outs.length = cfg.epochs ∧
      IsRun (trainStepWith (forwardHard (pb.loss D.nCells _ nq) (modelDataOf D bdv cells.length) mc.act
        mc.attention cfg.useAttention 2 specs 1 cfg.beta (some pb.bilinearParams) applyHardBoundaryConstraints)
        (trainableVariables 2 specs []) lr) st outs ∧
      IsRecord mc cfg pts (fun p => pb.exactSolution p.1 p.2)
        (fun w p => squareFactor p * batchValue cfg.useAttention pts (mc.act cfg.activation) [2, 30, 30, 30, 1] w p)
        (fun out => (out.lossPde, out.lossDirichlet, out.loss)) st outs R ∧
      figuresHard mc pb cfg sample θ files s = .ok T ∧ T.figures = s.figures ∧
      IsFigureRecord cfg.outputPath cfg.nTestPointsX cfg.nTestPointsY
        (reportEpochs cfg.updateConsoleOutput cfg.epochs) pts (fun p => pb.exactSolution p.1 p.2)
        (fun e p => squareFactor p * batchValue cfg.useAttention pts (mc.act cfg.activation) [2, 30, 30, 30, 1] (st e).weights p)
        (outs.map fun out => out.loss) [] s T := by
  unfold mainHard at h
  split at h
  · exact absurd h (by simp)
  rename_i P hP
  obtain ⟨o, o', files', cells, bd, mp, nq, S, S', D, bdv, lr, specs, inDim, pts, o'', -, h1, h2, h3, h4, h5, rfl,
    h7, h8⟩ := prepareUniform_ok mc cfg pb _ _ sample files P hint hP
  obtain rfl : 2 = inDim := Except.ok.inj h5
  obtain rfl : specs = [⟨30, some cfg.activation⟩, ⟨30, some cfg.activation⟩, ⟨30, some cfg.activation⟩, ⟨1, none⟩] :=
    Except.ok.inj (h3.layers.symm.trans (fixedLayers_specs cfg.activation))
  obtain ⟨st, outs, T, k1, k2, k3, k4, k5, k6, k7⟩ := figuresRun_record mc cfg _ (fun w p =>
      squareFactor p * batchValue cfg.useAttention pts (mc.act cfg.activation) fixedLayers w p)
    (fun out : TrainOutHard => (out.lossPde, out.lossDirichlet, out.loss)) pts hjoin pb _ o''
    (hard_predict _ mc cfg pb fixedLayers hatt rfl (by decide) (fixedLayers_specs cfg.activation) rfl rfl pts)
    (fun _ => rfl) (fun _ _ => rfl) h8 h7.1 θ R h s
  refine ⟨o, o', files', cells, bd, mp, nq, S, S', D, bdv, _, lr, pts, st, outs, T, hint ▸ h1, h2, h3, h4, h7, k1,
    k2, ?_, k4, ?_, k6, k7⟩
  swap
  · unfold figuresHard
    rw [hP]
    exact k5
  intro k hk
  have := k3 k hk
  simp only [Prepared.hard, if_true] at this
  rw [show paramsAsTensors pb.bilinearParams = pb.bilinearParams by simp [paramsAsTensors]] at this
  exact this

/-- The shipped script with hard constraints leaves the open figures as they were and shows the exact solution. -/
example (quad : QuadRoutines) (sample : Fin 4 → Fin (400 / 4) → ℝ) (θ : Weights) (s : Pyplot) :
    ∃ T fig, figuresHard (demoMachine quad) problemUniformPoisson configHard sample θ demoFiles s = .ok T ∧
      T.figures = s.figures ∧ T.images "output/poisson2d/1/exact_solution.png" = some fig ∧
      fig.title = "Exact Solution" := by
  obtain ⟨-, -, R, hR⟩ := C76_shipped_uniform (demoMachine quad) (fun _ _ _ _ => ⟨_, rfl⟩)
    (fun _ => by simp [demoMachine]) sample θ demoFiles
  obtain ⟨-, -, -, -, -, -, -, -, -, -, -, -, -, pts, st, outs, T, -, -, -, -, -, -, -, -, -, hT, hf, hrec⟩ := C83_hard
    (demoMachine quad) problemUniformPoisson configHard sample θ demoFiles R nofun rfl
    (fun a b h => by simpa [demoMachine, demoEnv] using h) hR s
  obtain ⟨fig, h1, h2⟩ := hrec.exactImage
  exact ⟨T, fig, hT, hf, h1, h2.title⟩

/-- The figures of a run of the inverse script. -/
lemma figuresRunInverse_record (mc : Machine) (cfg : InverseConfig) (M : DriverModel (TrainOutInverse 1 × ℝ))
    (value : Weights → ℝ × ℝ → ℝ) (pts : List (ℝ × ℝ))
    (hjoin : ∀ a b, mc.env.join cfg.outputPath a = mc.env.join cfg.outputPath b → a = b)
    (pb : InverseProblem) (P : PreparedInverse) (o' : GeometryObject)
    (hpred : ∀ θ, M.predict θ pts = .ok (pts.map (value θ)))
    (hfl : ∀ out, M.floats out = .ok (out.1.lossPde, out.1.lossDirichlet 0, out.1.loss 0))
    (hline : ∀ fmt out, M.lossLine fmt out = fmt (out.1.loss 0))
    (step : TrainState → Except PyErr (TrainOutInverse 1 × TrainState))
    (hstep : ∀ s out s', M.step s = .ok (out, s') →
      step s = .ok (out.1, s') ∧ out.2 = s'.weights (.inverse "eps"))
    (hpts : P.base.geometry.getTestPoints mc.env P.base.files = (.ok (.points pts), o', P.base.files))
    (hne : pts ≠ []) (hlen : pts.length = cfg.nTestPointsX * cfg.nTestPointsY) (θ : Weights) (R : InverseResult)
    (h : runInverse mc cfg pb P M θ = .ok R)
    (hpng : mc.env.join cfg.outputPath "inverse_eps_prediction.png" = pngPath cfg.outputPath "inverse_eps_prediction")
    (s : Pyplot) :
    ∃ (st : ℕ → TrainState) (outs : List (TrainOutInverse 1)) (T : Pyplot), st 0 = ⟨θ, AdamState.init⟩ ∧
      outs.length = cfg.epochs ∧ IsRun step st outs ∧
      IsInverseRecord mc cfg pts (fun p => pb.exactSolution p.1 p.2) value st outs R ∧
      figuresRunInverse mc cfg pb P M θ s = .ok T ∧ T.figures = [] ∧
      IsFigureRecord cfg.outputPath cfg.nTestPointsX cfg.nTestPointsY
        (reportEpochs cfg.updateConsoleOutput cfg.epochs) pts (fun p => pb.exactSolution p.1 p.2)
        (fun e => value (st e).weights) (outs.map fun o => o.loss 0)
        ["final_prediction", "final_error", "inverse_eps_prediction"] s T ∧
      IsFinalFigures cfg.outputPath cfg.nTestPointsX cfg.nTestPointsY pts (fun p => pb.exactSolution p.1 p.2)
        (value (st cfg.epochs).weights) ((List.range cfg.epochs).map fun e => (st (e + 1)).weights (.inverse "eps"))
        P.actual T := by
  obtain ⟨st, outs, k1, k2, k3, k4, he2, -, files', k5⟩ := runInverse_record mc cfg M value pts hjoin pb P o' hpred
    hfl hline step hstep hpts hne θ R h
  have h2 := runInverse_points mc cfg M pb P θ R h
  obtain ⟨s₁, S, j1, j2, -, j4⟩ := figures_record h2 pts hlen pb.exactSolution
    (fun e => value (st e).weights) (outs.map fun o => o.loss 0) cfg.updateConsoleOutput cfg.epochs (by omega)
    (by rw [List.length_map, k2]) (R.reports.map fun r => r.toReport.plotted) (by
      rw [List.forall₂_map_right_iff]
      refine k4.reports.imp fun e r ⟨h1, _, ⟨l2, linf, l2r, linfr, l1, l1r, h2, h3⟩, h4, _⟩ => ⟨h1, ?_, h4⟩
      simp only [Report.plotted, h2]
      exact h3.mean) cfg.outputPath s
  obtain ⟨l1, l2, l3, l4⟩ := plotFinal_ok h2 pts hlen pb.exactSolution (value (st cfg.epochs).weights)
    (reportEpochs cfg.updateConsoleOutput cfg.epochs) (fun e => value (st e).weights)
    (outs.map fun o => o.loss 0) ((List.range cfg.epochs).map fun e => (st (e + 1)).weights (.inverse "eps")) P.actual
    cfg.outputPath s S j4
  refine ⟨st, outs, _, k1, k2, k3, k4, ?_, l2, l3, l4⟩
  unfold figuresRunInverse
  rw [hpts]
  have he : (outs.mapIdx fun e out => (out, (st (e + 1)).weights (.inverse "eps"))).map (fun o => o.1.loss 0)
      = outs.map fun o => o.loss 0 := by
    refine List.ext_getElem (by simp) fun i h1 h2 => ?_
    simp
  have he' : (outs.mapIdx fun e out => (out, (st (e + 1)).weights (.inverse "eps"))).map Prod.snd
      = (List.range cfg.epochs).map fun e => (st (e + 1)).weights (.inverse "eps") := by
    rw [← k2]
    refine List.ext_getElem (by simp) fun i h1 h2 => ?_
    simp
  simp only [bind, Except.bind, contourMatrices_eq _ _ hlen, j1, k5, mapM_ok _ _ hfl, List.map_map, hpred, hpng]
  simp only [Function.comp_def, he, he']
  rw [j2]
  exact l1

/-- **C83** (the images of the inverse script).  Whenever the script of `C78_inverse` finishes (internal mesh), so do its
plotting commands, and all figures are closed.  The images in the output folder are those of the forward script for
the training of `C78_inverse`, those of the final network and its error, and the value of `eps` after each epoch
beside its exact value; no other image is written. -/
theorem C83_inverse (mc : Machine) (pb : InverseProblem) (cfg : InverseConfig)
    (sample : Fin 4 → Fin (cfg.nBoundaryPoints / 4) → ℝ)
    (lhs : ℕ → Fin (2 ^ cfg.boundaryRefinementLevel + 1) → ℝ × ℝ) (sensorLhs : (k : ℕ) → Fin k → ℝ × ℝ)
    (hlhs : ∀ k i, (sensorLhs k i).1 ∈ Set.Icc (0 : ℝ) 1 ∧ (sensorLhs k i).2 ∈ Set.Icc (0 : ℝ) 1)
    (randint : ℕ → Fin cfg.numSensorPoints → ℤ) (θ : Weights) (files : Files) (R : InverseResult)
    (hatt : cfg.useAttention = true → mc.attention = attentionDot) (hint : cfg.meshGenerationMethod = "internal")
    (hjoin : ∀ a b, mc.env.join cfg.outputPath a = mc.env.join cfg.outputPath b → a = b)
    (h : mainInverse mc pb cfg sample lhs sensorLhs randint θ files = .ok R)
    (hpng : mc.env.join cfg.outputPath "inverse_eps_prediction.png" = pngPath cfg.outputPath "inverse_eps_prediction")
    (s : Pyplot) :
    ∃ (o o' : GeometryObject) (files' : Files) (cells : List Quad) (bd : List (ℤ × List (List ℝ)))
      (nq : ℕ) (S S' : Fespace2D (ℝ → ℝ → ℝ) ℝ (cfg.feOrder.toNat ^ 2) nq)
      (D : DataHandler2D (cfg.feOrder.toNat ^ 2) nq) (bdv : List (ℝ × ℝ) × List ℝ) (specs : List LayerSpec)
      (lr : LearningRate) (sensors pts : List (ℝ × ℝ)) (st : ℕ → TrainState) (outs : List (TrainOutInverse 1))
      (actual : ℝ) (T : Pyplot),
      (2 ≤ cfg.modelArchitecture.length ∧ cfg.modelArchitecture.getD 0 0 = 2 ∧
        cfg.modelArchitecture.getD (cfg.modelArchitecture.length - 1) 0 = 1) ∧ 2 ≤ cfg.epochs ∧
      newGeometry cfg.meshType "internal" cfg.nTestPointsX cfg.nTestPointsY cfg.outputPath false = .ok o ∧
      o.generateInternal mc.env files (cfg.xMin, cfg.xMax) (cfg.yMin, cfg.yMax) cfg.nCellsX cfg.nCellsY
        cfg.nBoundaryPoints sample = (.ok (.mesh cells bd), o', files') ∧
      Assembled mc cfg.forward pb.toProblem cfg.modelArchitecture (cells.flatMap fun c => List.ofFn c) cells
        (bdPairs bd) S S' D bdv specs ∧
      learningRateFnStaircase cfg.learningRate = .ok lr ∧
      sensors.length = 9 * cfg.numSensorPoints / 10 ∧
      (∀ p ∈ sensors, InBoundingBox (cells.flatMap fun c => List.ofFn c) p) ∧
      (cfg.xMin < cfg.xMax → cfg.yMin < cfg.yMax →
        ∀ p ∈ sensors, p ∈ domain (cfg.xMin, cfg.xMax) (cfg.yMin, cfg.yMax)) ∧
      IsTensorGrid (cfg.xMin, cfg.xMax) (cfg.yMin, cfg.yMax) cfg.nTestPointsX cfg.nTestPointsY pts ∧
      (st 0).adam = AdamState.init ∧
      (∀ k v, pb.inverseParams.lookup k = some v → (st 0).weights (.inverse k) = v) ∧
      (∀ k i j, (st 0).weights (.kernel k i j) = θ (.kernel k i j)) ∧
      (∀ k j, (st 0).weights (.bias k j) = θ (.bias k j)) ∧ outs.length = cfg.epochs ∧
      IsRun (trainStepInverseFull (pb.loss D.nCells _ nq) (modelDataOf D bdv cells.length) mc.act
        mc.attention cfg.useAttention 2 specs 1 cfg.beta (some pb.bilinearParams) (fun i => sensors.get i)
        (fun i => pb.exactSolution (sensors.get i).1 (sensors.get i).2)
        (pb.inverseParams.map Prod.fst) lr) st outs ∧
      IsInverseRecord mc cfg pts (fun p => pb.exactSolution p.1 p.2)
        (batchValue cfg.useAttention pts (mc.act cfg.activation) cfg.modelArchitecture) st outs R ∧
      pb.inverseActual.lookup "eps" = some actual ∧
      figuresInverse mc pb cfg sample lhs sensorLhs randint θ files s = .ok T ∧ T.figures = [] ∧
      IsFigureRecord cfg.outputPath cfg.nTestPointsX cfg.nTestPointsY
        (reportEpochs cfg.updateConsoleOutput cfg.epochs) pts (fun p => pb.exactSolution p.1 p.2)
        (fun e => batchValue cfg.useAttention pts (mc.act cfg.activation) cfg.modelArchitecture (st e).weights)
        (outs.map fun out => out.loss 0) ["final_prediction", "final_error", "inverse_eps_prediction"] s T ∧
      IsFinalFigures cfg.outputPath cfg.nTestPointsX cfg.nTestPointsY pts (fun p => pb.exactSolution p.1 p.2)
        (batchValue cfg.useAttention pts (mc.act cfg.activation) cfg.modelArchitecture (st cfg.epochs).weights)
        ((List.range cfg.epochs).map fun e => (st (e + 1)).weights (.inverse "eps")) actual T := by
  unfold mainInverse at h
  split at h
  · exact absurd h (by simp)
  rename_i P hP
  have hfig : figuresInverse mc pb cfg sample lhs sensorLhs randint θ files s
      = figuresRunInverse mc cfg pb P (P.model mc cfg pb (outDim P.base.specs))
        (initialInverse θ (paramsAsTensors pb.inverseParams)) s := by
    unfold figuresInverse
    rw [hP]
  obtain ⟨he2, -, hin, hout, -, -, -⟩ := runInverse_dims mc cfg pb P _ _ R h
  rw [hout, paramsAsTensors_eq] at h hfig
  obtain ⟨hU, o, o', files', cells, bd, nq, S, S', D, bdv, lr, specs, inDim, pts, o'', h1, h2, h3, h4, h5, h6, h7, h8, h9,
    h10, h11⟩ := prepareInverse_ok mc cfg pb sample lhs sensorLhs randint files P hint hP
  obtain ⟨base, sensor, actual⟩ := P
  dsimp only at h6 h7 h9 hin hout
  subst h9
  dsimp only at hin hout
  subst hin
  obtain ⟨d2, d0, dl⟩ := dims_facts _ _ _ h3.layers h5 hout
  have htp : pts ≠ [] := by
    rintro rfl
    have htest : (0 < cfg.nTestPointsX ∧ 0 < cfg.nTestPointsY) := by
      by_contra htp
      have : (o.generateInternal mc.env files (cfg.xMin, cfg.xMax) (cfg.yMin, cfg.yMax) cfg.nCellsX cfg.nCellsY
          cfg.nBoundaryPoints sample).1 = .error .zeroDivisionError := by
        obtain ⟨-, o1, o2, o3, o4, -⟩ := newGeometry_ok h1
        unfold GeometryObject.generateInternal GeometryObject.generateVtk
        simp only [generateQuadMeshInternal, o1, o2, o3, o4, hint, if_true, Bool.false_eq_true, if_false]
        rw [if_pos (by omega)]
      rw [h2] at this
      exact absurd this (by simp)
    have := h10.1
    simp only [List.length_nil] at this
    have := Nat.mul_pos htest.1 htest.2
    omega
  have hsen := C40_internal S' pb.exactSolution cfg.numSensorPoints sensorLhs none randint hlhs
  rw [hint] at h6
  have hmp : S'.meshPoints ≠ [] := by
    intro hc
    rw [hsen.2 hc] at h6
    exact absurd h6 (by simp)
  obtain ⟨sp, sv, s1, s2, s3, rfl⟩ := hsen.1 hmp
  obtain rfl := Except.ok.inj (s1.symm.trans h6)
  have hpred := inverse_predict ⟨⟨_, nq, D, bdv, cells.length, 2, specs, lr, o', files'⟩,
    (sp, sp.map fun p => pb.exactSolution p.1 p.2), actual⟩ mc cfg pb cfg.modelArchitecture hatt rfl d2 h3.layers d0 dl pts
  obtain ⟨st, outs, T, k1, k2, k3, k4, t1, t2, t3, t4⟩ := figuresRunInverse_record mc cfg _
    (batchValue cfg.useAttention pts (mc.act cfg.activation) cfg.modelArchitecture) pts hjoin pb _ o'' hpred (inverse_floats _ mc cfg pb)
    (inverse_lossLine _ mc cfg pb) _
    (fun s out s' hs => (inverse_step _ mc cfg pb 1 s out s' hs).2.2) h11 htp h10.1 _ R h hpng s
  obtain ⟨i1, i2, i3⟩ := initialInverse_eq θ pb.inverseParams
  rw [h8] at s3
  refine ⟨o, o', files', cells, bd, nq, S, S', D, bdv, specs, lr, sp, pts, st, outs, actual, T, ⟨d2, d0, dl⟩, he2, hint ▸ h1, h2,
    h3, h4, s2, s3, ?_, h10, by rw [k1], by rw [k1]; exact i1, by rw [k1]; exact i2, by rw [k1]; exact i3, k2, ?_, k4, h7,
    hfig.trans t1, t2, t3, t4⟩
  · intro hx hy p hp
    obtain ⟨⟨a, ha, ha'⟩, ⟨b, hb, hb'⟩, ⟨c, hc, hc'⟩, e, he, he'⟩ := s3 p hp
    have hdom := corners_in_domain o mc.env files (cfg.xMin, cfg.xMax) (cfg.yMin, cfg.yMax) hx hy cfg.nCellsX cfg.nCellsY
      cfg.nBoundaryPoints sample h2
    exact ⟨⟨(hdom a ha).1.1.trans ha', hb'.trans (hdom b hb).1.2⟩, (hdom c hc).2.1.trans hc', he'.trans (hdom e he).2.2⟩
  · intro k hk
    have := k3 k hk
    rw [show (fun i : Fin sp.length => pb.exactSolution (sp.get i).1 (sp.get i).2)
      = fun i : Fin sp.length => (sp.map fun p => pb.exactSolution p.1 p.2).getD i.val 0 from
      funext fun i => by rw [getD_map_pts sp _ i.isLt, List.getD_eq_getElem _ _ i.isLt]; rfl]
    exact this

/-- The image of the shipped inverse script shows 10000 values of `eps` beside the exact value. -/
example (quad : QuadRoutines) (sample : Fin 4 → Fin (2000 / 4) → ℝ) (lhs : ℕ → Fin (2 ^ 8 + 1) → ℝ × ℝ)
    (randint : ℕ → Fin 50 → ℤ) (θ : Weights) (s : Pyplot) :
    ∃ T fig points actual, figuresInverse (demoMachine quad) problemInverse configInverse sample lhs
        (fun _ _ => (1 / 2, 1 / 3)) randint θ demoFiles s = .ok T ∧
      T.images (pngPath configInverse.outputPath "inverse_eps_prediction") = some fig ∧
      fig.drawn = [.curve points (some "Predicted Epsilon"), .axhline actual "Actual Epsilon"] ∧
      points.length = 10000 ∧ ConstInverse.inverseParamsActualDict.lookup "eps" = some actual := by
  obtain ⟨R, hR⟩ := C78_shipped (demoMachine quad) (fun _ _ _ _ => ⟨_, rfl⟩) (fun _ => by simp [demoMachine])
    (fun _ => rfl) sample lhs (fun _ _ => (1 / 2, 1 / 3)) randint θ demoFiles
  obtain ⟨-, -, -, -, -, -, -, -, -, -, -, -, -, pts, st, outs, actual, T, -, -, -, -, -, -, -, -, -, -, -, -, -, -, -, -,
    -, ha, hT, -, -, hfin⟩ := C83_inverse (demoMachine quad) problemInverse configInverse sample lhs
    (fun _ _ => (1 / 2, 1 / 3)) (fun _ _ => by norm_num) randint θ demoFiles R nofun rfl
    (fun a b h => by simpa [demoMachine, demoEnv] using h) hR rfl s
  obtain ⟨fig, points, h1, h2, ⟨h3, -⟩, -⟩ := hfin.eps
  exact ⟨T, fig, points, actual, hT, h1, h2, by rw [h3, List.length_map, List.length_range]; rfl, ha⟩

end FastVPINNs
