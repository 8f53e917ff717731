import Verif.Model.AccuracyInverse
import Verif.Props.AccuracyTests
import Verif.Props.DriverDomain

/-! # C104: the accuracy tests of the inverse problems -/

namespace FastVPINNs

open Spec

/-! ## The constant coefficient -/

/-- **C104** (problem of the inverse tests).  In the tests with an unknown constant the exact solution satisfies the
equation that the loss stands for with one value of the unknown only, 0.3, the value the result is compared with - the
value of `eps` among the other parameters, 2, does not enter; the initial guesses are not this value; and the boundary
functions are the exact solution. -/
theorem C104_inverse_problem : ∀ pb ∈ [testInverse, testInverseCircle],
    (∀ p a, p.lookup "eps" = some a →
      (Consistent .poissonInverse pb.bilinearParams p pb.exactSolution pb.rhs ↔ a = 0.3)) ∧
    ¬ Consistent .poissonInverse pb.bilinearParams pb.inverseParams pb.exactSolution pb.rhs ∧
    ∀ e ∈ pb.boundaryFunctionDict, e.2 = pb.exactSolution := by
  have h : ∀ pb ∈ [testInverse, testInverseCircle], ∀ p a, p.lookup "eps" = some a →
      (Consistent .poissonInverse pb.bilinearParams p pb.exactSolution pb.rhs ↔ a = 0.3) := by
    simp only [List.mem_cons, List.not_mem_nil, or_false, forall_eq_or_imp, forall_eq]
    exact ⟨fun p a ha => C60_const_inverse.2.1 p a ha, fun p a ha => C60_const_inverse.2.1 p a ha⟩
  intro pb hpb
  refine ⟨h pb hpb, ?_, ?_⟩
  · simp only [List.mem_cons, List.not_mem_nil, or_false] at hpb
    rcases hpb with rfl | rfl
    · exact fun hc => absurd ((h _ (by simp) _ 2 rfl).1 hc) (by norm_num)
    · exact fun hc => absurd ((h _ (by simp) _ 3 rfl).1 hc) (by norm_num)
  · simp only [List.mem_cons, List.not_mem_nil, or_false] at hpb
    rcases hpb with rfl | rfl <;>
      simp [testInverseCircle, testInverse, problemInverse, ConstInverse.boundaryFunctionDict] <;> rfl

lemma computeErrors_empty : computeErrorsCombined (array1 ([] : List ℝ)) (array1 []) = .error .valueError := by
  simp [computeErrorsCombined, computeL2Error, computeLinfError, NDArray.flatten, array1, npSub, bind, Except.bind,
    show npMax [] = .error .valueError from rfl]

/-- How the last part of a test ends. -/
lemma accuracyInverseAssert_ok {dout : ℕ} (mc : Machine) (pb : InverseProblem) (epochs : ℕ) (rms : Bool)
    (tol tolEps : ℝ) (htol : 0 < tol) (P : PreparedInverse) (M : DriverModel (TrainOutInverse dout × ℝ)) (θ : Weights)
    (value : Weights → ℝ × ℝ → ℝ) (pts : List (ℝ × ℝ)) (o' : GeometryObject)
    (hpred : ∀ θ, M.predict θ pts = .ok (pts.map (value θ)))
    (hpts : P.base.geometry.getTestPoints mc.env P.base.files = (.ok (.points pts), o', P.base.files))
    (step : TrainState → Except PyErr (TrainOutInverse dout × TrainState))
    (hstep : ∀ s out s', M.step s = .ok (out, s') → step s = .ok (out.1, s') ∧ out.2 = s'.weights (.inverse "eps"))
    (b : Bool) (h : accuracyInverseAssert mc pb epochs rms tol tolEps P M θ = .ok b) :
    pts ≠ [] ∧ 0 < epochs ∧ ∃ st outs, st 0 = ⟨θ, AdamState.init⟩ ∧ outs.length = epochs ∧ IsRun step st outs ∧
      (b = true ↔
        (if rms then (pts.map fun p => (pb.exactSolution p.1 p.2 - value (st epochs).weights p) ^ 2).sum
            < tol ^ 2 * pts.length
          else (pts.map fun p => |pb.exactSolution p.1 p.2 - value (st epochs).weights p|).sum < tol * pts.length) ∧
        |(st epochs).weights (.inverse "eps") - 0.3| < tolEps) := by
  unfold accuracyInverseAssert at h
  rw [hpts] at h
  dsimp only at h
  cases htr : trainEpochs M.step epochs ⟨θ, AdamState.init⟩ with
  | error e => simp [htr] at h
  | ok r =>
    obtain ⟨outs, s⟩ := r
    rw [htr] at h
    dsimp only at h
    rw [hpred] at h
    dsimp only at h
    have hne : pts ≠ [] := by
      rintro rfl
      simp only [List.map_nil, computeErrors_empty] at h
      exact absurd h (by simp)
    obtain ⟨l2, linf, l2r, linfr, l1, l1r, hE, herr⟩ := errors_at pts hne (fun p => pb.exactSolution p.1 p.2)
      (value s.weights)
    rw [hE] at h
    dsimp only at h
    obtain ⟨hlen, st, hrun, h0, hend⟩ := (trainEpochs_iff _ _ _ _ _).1 htr
    rcases List.eq_nil_or_concat outs with rfl | ⟨l, last, rfl⟩
    · simp at h
    rw [List.concat_eq_append] at h hlen hrun
    rw [List.getLast?_concat] at h
    dsimp only at h
    have hpos : 0 < epochs := by rw [← hlen]; simp
    have hlast : last.2 = (st epochs).weights (.inverse "eps") := by
      have hk : l.length < (l ++ [last]).length := by simp
      have := (hstep _ _ _ (hrun l.length hk)).2
      simp only [List.getElem_concat_length] at this
      rw [this, ← hlen]
      simp
    refine ⟨hne, hpos, st, (l ++ [last]).map Prod.fst, h0, by simpa using hlen, ?_, ?_⟩
    · intro k hk
      simp only [List.length_map] at hk
      simp only [List.getElem_map]
      exact (hstep _ _ _ (hrun k hk)).1
    · obtain rfl := Except.ok.inj h
      rw [decide_eq_true_iff, hlast, hend]
      have hn : (0 : ℝ) < pts.length := by exact_mod_cast List.length_pos_iff.2 hne
      cases rms with
      | true =>
        have := l1_le_l2 pts hne _ _ _ _ _ _ _ _ tol htol herr
        simp only [true_imp_iff, if_true, ← and_assoc]
        rw [this]
      | false =>
        simp only [Bool.false_eq_true, false_imp_iff, true_and, if_false, ← herr.mean]
        rw [mul_comm tol, mul_lt_mul_iff_right₀ hn]

lemma accuracyInverseAssert_succeeds {dout : ℕ} (mc : Machine) (pb : InverseProblem) (epochs : ℕ) (he : 0 < epochs)
    (rms : Bool) (tol tolEps : ℝ) (P : PreparedInverse) (M : DriverModel (TrainOutInverse dout × ℝ)) (θ : Weights)
    (value : Weights → ℝ × ℝ → ℝ) (pts : List (ℝ × ℝ)) (hne : pts ≠ []) (o' : GeometryObject)
    (hpred : ∀ θ, M.predict θ pts = .ok (pts.map (value θ)))
    (hpts : P.base.geometry.getTestPoints mc.env P.base.files = (.ok (.points pts), o', P.base.files))
    (hstep : ∀ s, ∃ r, M.step s = .ok r) :
    ∃ b, accuracyInverseAssert mc pb epochs rms tol tolEps P M θ = .ok b := by
  unfold accuracyInverseAssert
  rw [hpts]
  dsimp only
  obtain ⟨⟨outs, s⟩, htr⟩ := trainEpochs_succeeds M.step hstep epochs ⟨θ, AdamState.init⟩
  obtain ⟨l2, linf, l2r, linfr, l1, l1r, hE, -⟩ := errors_at pts hne (fun p => pb.exactSolution p.1 p.2)
    (value s.weights)
  obtain ⟨hlen, -⟩ := (trainEpochs_iff _ _ _ _ _).1 htr
  rw [htr]
  dsimp only
  rw [hpred]
  dsimp only
  rw [hE]
  dsimp only
  rcases List.eq_nil_or_concat outs with rfl | ⟨l, last, rfl⟩
  · simp at hlen
    omega
  · rw [List.concat_eq_append, List.getLast?_concat]
    exact ⟨_, rfl⟩

/-- **C104** (inverse test on the square).  A test with an unknown constant on the square that ends without an exception
other than an `AssertionError` has trained the network and the unknown, from the drawn weights and the guess, with the
loss, tensors, boundary data and learning rate assembled from its settings for the generated cells and with `⌊0.9 n⌋`
sensors in the domain at which the values are those of the exact solution; it passes exactly if the mean square
difference of the trained network and the exact solution over the test points is below the square of the tolerance and
the trained value of the unknown is within the other tolerance of 0.3. -/
theorem C104_inverse_square (mc : Machine) (pb : InverseProblem) (cfg : InverseConfig) (tol tolEps : ℝ) (htol : 0 < tol)
    (sample : Fin 4 → Fin (cfg.nBoundaryPoints / 4) → ℝ)
    (lhs : ℕ → Fin (2 ^ cfg.boundaryRefinementLevel + 1) → ℝ × ℝ) (sensorLhs : (k : ℕ) → Fin k → ℝ × ℝ)
    (hlhs : ∀ k i, (sensorLhs k i).1 ∈ Set.Icc (0 : ℝ) 1 ∧ (sensorLhs k i).2 ∈ Set.Icc (0 : ℝ) 1)
    (randint : ℕ → Fin cfg.numSensorPoints → ℤ) (θ : Weights) (files : Files) (passed : Bool)
    (hint : cfg.meshGenerationMethod = "internal") (hatt : cfg.useAttention = false)
    (d2 : 2 ≤ cfg.modelArchitecture.length) (d0 : cfg.modelArchitecture.getD 0 0 = 2)
    (dl : cfg.modelArchitecture.getD (cfg.modelArchitecture.length - 1) 0 = 1)
    (h : accuracyInverseSquare mc pb cfg tol tolEps sample lhs sensorLhs randint θ files = .ok passed) :
    ∃ (o o' : GeometryObject) (files' : Files) (cells : List Quad) (bd : List (ℤ × List (List ℝ)))
      (nq : ℕ) (S S' : Fespace2D (ℝ → ℝ → ℝ) ℝ (cfg.feOrder.toNat ^ 2) nq)
      (D : DataHandler2D (cfg.feOrder.toNat ^ 2) nq) (bdv : List (ℝ × ℝ) × List ℝ) (specs : List LayerSpec)
      (lr : LearningRate) (sensors pts : List (ℝ × ℝ)) (st : ℕ → TrainState) (outs : List (TrainOutInverse 1)),
      0 < cfg.epochs ∧
      newGeometry cfg.meshType "internal" cfg.nTestPointsX cfg.nTestPointsY cfg.outputPath false = .ok o ∧
      o.generateInternal mc.env files (cfg.xMin, cfg.xMax) (cfg.yMin, cfg.yMax) cfg.nCellsX cfg.nCellsY
        cfg.nBoundaryPoints sample = (.ok (.mesh cells bd), o', files') ∧
      Assembled mc cfg.forward pb.toProblem cfg.modelArchitecture (cells.flatMap fun c => List.ofFn c) cells
        (bdPairs bd) S S' D bdv specs ∧
      learningRateFnStaircase cfg.learningRate = .ok lr ∧
      sensors.length = 9 * cfg.numSensorPoints / 10 ∧
      (∀ p ∈ sensors, InBoundingBox (cells.flatMap fun c => List.ofFn c) p) ∧
      IsTensorGrid (cfg.xMin, cfg.xMax) (cfg.yMin, cfg.yMax) cfg.nTestPointsX cfg.nTestPointsY pts ∧ pts ≠ [] ∧
      (st 0).adam = AdamState.init ∧
      (∀ k v, pb.inverseParams.lookup k = some v → (st 0).weights (.inverse k) = v) ∧
      (∀ k i j, (st 0).weights (.kernel k i j) = θ (.kernel k i j)) ∧
      (∀ k j, (st 0).weights (.bias k j) = θ (.bias k j)) ∧ outs.length = cfg.epochs ∧
      IsRun (trainStepInverseFull (pb.loss D.nCells _ nq) (modelDataOf D bdv cells.length) mc.act
        mc.attention false 2 specs 1 cfg.beta (some pb.bilinearParams) (fun i => sensors.get i)
        (fun i => pb.exactSolution (sensors.get i).1 (sensors.get i).2)
        (pb.inverseParams.map Prod.fst) lr) st outs ∧
      (passed = true ↔
        (pts.map fun p => (pb.exactSolution p.1 p.2
          - networkValue (mc.act cfg.activation) cfg.modelArchitecture (st cfg.epochs).weights p) ^ 2).sum
          < tol ^ 2 * pts.length ∧
        |(st cfg.epochs).weights (.inverse "eps") - 0.3| < tolEps) := by
  unfold accuracyInverseSquare at h
  split at h
  · exact absurd h (by simp)
  rename_i P hP
  rw [paramsAsTensors_eq] at h
  obtain ⟨hU, o, o', files', cells, bd, nq, S, S', D, bdv, lr, specs, inDim, pts, o'', h1, h2, h3, h4, h5, h6, h7, h8, h9,
    h10, h11⟩ := prepareInverse_ok mc cfg pb sample lhs sensorLhs randint files P hint hP
  obtain ⟨base, sensor, actual⟩ := P
  dsimp only at h6 h7 h9
  subst h9
  obtain rfl : inDim = 2 := by
    rw [pyIndex_zero, List.head?_eq_getElem?] at h5
    rw [List.getD_eq_getElem?_getD, h5] at d0
    exact d0
  rw [show outDim specs = 1 from (outDim_layerSpecs _ _ _ h3.layers).trans dl] at h
  have hsen := C40_internal S' pb.exactSolution cfg.numSensorPoints sensorLhs none randint hlhs
  rw [hint] at h6
  have hmp : S'.meshPoints ≠ [] := by
    intro hc
    rw [hsen.2 hc] at h6
    exact absurd h6 (by simp)
  obtain ⟨sp, sv, s1, s2, s3, rfl⟩ := hsen.1 hmp
  obtain rfl := Except.ok.inj (s1.symm.trans h6)
  have hpred := inverse_predict ⟨⟨_, nq, D, bdv, cells.length, 2, specs, lr, o', files'⟩,
    (sp, sp.map fun p => pb.exactSolution p.1 p.2), actual⟩ mc cfg pb cfg.modelArchitecture (by simp [hatt]) rfl d2
    h3.layers d0 dl pts
  obtain ⟨hne, hpos, st, outs, k1, k2, k3, k4⟩ := accuracyInverseAssert_ok mc pb _ true tol tolEps htol _ _ _ _ pts o''
    hpred h11 _ (fun s out s' hs => (inverse_step _ mc cfg pb 1 s out s' hs).2.2) passed h
  obtain ⟨i1, i2, i3⟩ := initialInverse_eq θ pb.inverseParams
  rw [h8] at s3
  refine ⟨o, o', files', cells, bd, nq, S, S', D, bdv, specs, lr, sp, pts, st, outs, hpos, hint ▸ h1, h2, h3, h4, s2, s3,
    h10, hne, by rw [k1], by rw [k1]; exact i1, by rw [k1]; exact i2, by rw [k1]; exact i3, k2, ?_, ?_⟩
  · intro k hk
    have := k3 k hk
    rw [show (fun i : Fin sp.length => pb.exactSolution (sp.get i).1 (sp.get i).2)
      = fun i : Fin sp.length => (sp.map fun p => pb.exactSolution p.1 p.2).getD i.val 0 from
      funext fun i => by rw [getD_map_pts sp _ i.isLt, List.getD_eq_getElem _ _ i.isLt]; rfl]
    rw [← hatt]
    exact this
  · simp only [batchValue, hatt, if_true, Bool.false_eq_true, if_false] at k4
    exact k4

/-- The learning rate is the only object that `lrFn` decides. -/
lemma prepareModel_lr (mc : Machine) (cfg : ForwardConfig) (pb : Problem) (ld : List ℕ)
    (lrFn : List (String × PyVal) → Except PyErr LearningRate) (o : GeometryObject) (files : Files)
    (cells : List Quad) (bd : BdDict) (B : Prepared)
    (h : prepareModel mc cfg pb ld lrFn o files cells bd = .ok B) :
    lrFn cfg.learningRate = .ok B.lr ∧ ∀ lrFn' d lr', lrFn' d = .ok lr' →
      prepareModel mc { cfg with learningRate := d } pb ld lrFn' o files cells bd = .ok { B with lr := lr' } := by
  unfold prepareModel at h
  split at h
  · exact absurd h (by simp)
  rename_i nq S hS
  split at h
  · exact absurd h (by simp)
  rename_i D S' hD
  split at h
  · exact absurd h (by simp)
  rename_i bdv hbdv
  split at h
  · exact absurd h (by simp)
  rename_i lr hlr
  split at h
  · exact absurd h (by simp)
  rename_i specs hspecs
  split at h
  · exact absurd h (by simp)
  rename_i inDim hin
  obtain rfl := Except.ok.inj h
  refine ⟨hlr, fun lrFn' d lr' hl => ?_⟩
  unfold prepareModel
  dsimp only
  rw [hS]
  simp only [hD, hbdv, hl, hspecs, hin]

/-- The preparation of the test on the disc, in terms of that of a forward problem. -/
lemma prepareInverseFile_iff (mc : Machine) (cfg : InverseConfig) (pb : InverseProblem)
    (lhs : ℕ → Fin (2 ^ cfg.boundaryRefinementLevel + 1) → ℝ × ℝ) (csv : List (ℝ × ℝ × ℝ))
    (randint : ℕ → Fin cfg.numSensorPoints → ℤ) (files : Files) (d : List (String × PyVal)) (lr₀ : LearningRate)
    (hd : learningRateFn d = .ok lr₀) (B : Prepared) (sensor : List (ℝ × ℝ) × List ℝ) :
    prepareInverseFile mc cfg pb lhs csv randint files = .ok ⟨B, sensor, 0.3⟩ ↔
      prepareExternal mc { cfg.forward with learningRate := d } pb.toProblem cfg.modelArchitecture lhs files
        = .ok { B with lr := lr₀ } ∧
      learningRateFnStaircase cfg.learningRate = .ok B.lr ∧
      getSensorDataExternal pb.exactSolution cfg.numSensorPoints (some csv) randint = .ok sensor := by
  unfold prepareInverseFile prepareExternal
  dsimp only [InverseConfig.forward]
  by_cases hdt : cfg.dtype ∈ ["float64", "float32"]
  swap
  · simp [hdt]
  simp only [hdt, not_true_eq_false, if_false]
  cases newGeometry cfg.meshType cfg.meshGenerationMethod cfg.nTestPointsX cfg.nTestPointsY cfg.outputPath false with
  | error e => simp
  | ok o =>
    dsimp only
    rcases GeometryObject.readMesh mc.env o files cfg.meshFileName cfg.boundaryRefinementLevel
      cfg.boundarySamplingMethod lhs with ⟨r, o', files'⟩
    cases r with
    | error e => simp
    | ok v =>
      cases v with
      | mesh cells bd =>
        dsimp only
        constructor
        · intro h
          split at h
          · exact absurd h (by simp)
          rename_i B' hB
          split at h
          · exact absurd h (by simp)
          rename_i s hs
          simp only [Except.ok.injEq, PreparedInverse.mk.injEq] at h
          obtain ⟨rfl, rfl, -⟩ := h
          obtain ⟨h1, h2⟩ := prepareModel_lr _ _ _ _ _ _ _ _ _ _ hB
          exact ⟨h2 learningRateFn d lr₀ hd, h1, hs⟩
        · rintro ⟨h1, h2, h3⟩
          have := (prepareModel_lr _ _ _ _ _ _ _ _ _ _ h1).2 learningRateFnStaircase cfg.learningRate B.lr h2
          dsimp only at this
          rw [this, h3]
      | _ => simp

/-- The learning rate of a dictionary with all keys. -/
lemma staticRate : ∃ lr, learningRateFn (testLearningRate false) = .ok lr := ⟨_, rfl⟩

lemma fullStep_cast {n n' : ℕ} (h : n = n') {nc nt nq nIn nBd : ℕ} (L : LossFunction nc nt nq)
    (M : ModelData nc nt nq nIn nBd) (act : String → ℝ → ℝ) (attention : Batch → Except PyErr Batch) (b : Bool)
    (inDim : ℕ) (specs : List LayerSpec) (d : ℕ) (beta : ℝ) (p : ParamDict) (sp : Fin n → ℝ × ℝ) (sv : Fin n → ℝ)
    (keys : List String) (lr : LearningRate) (s : TrainState) :
    trainStepInverseFull L M act attention b inDim specs d beta p sp sv keys lr s
      = trainStepInverseFull L M act attention b inDim specs d beta p (fun i => sp (i.cast h.symm))
        (fun i => sv (i.cast h.symm)) keys lr s := by
  subst h
  rfl

/-- **C104** (inverse test on the disc).  The test with an unknown constant on a mesh file: the sensors are lines of the
file with the sensor data, chosen by the draws, never the first line, and the exact solution is not used for them; the
test passes exactly if the mean absolute difference of the trained network and the exact solution over the vertices of
the mesh is below the tolerance and the trained value of the unknown is within the other tolerance of 0.3. -/
theorem C104_inverse_disc (mc : Machine) (pb : InverseProblem) (cfg : InverseConfig) (tol tolEps : ℝ) (htol : 0 < tol)
    (lhs : ℕ → Fin (2 ^ cfg.boundaryRefinementLevel + 1) → ℝ × ℝ) (csv : List (ℝ × ℝ × ℝ))
    (randint : ℕ → Fin cfg.numSensorPoints → ℤ) (hr : ∀ m i, 0 < m → 0 ≤ randint m i ∧ randint m i < m)
    (θ : Weights) (files : Files) (passed : Bool)
    (hext : cfg.meshGenerationMethod = "external") (hatt : cfg.useAttention = false)
    (d2 : 2 ≤ cfg.modelArchitecture.length) (d0 : cfg.modelArchitecture.getD 0 0 = 2)
    (dl : cfg.modelArchitecture.getD (cfg.modelArchitecture.length - 1) 0 = 1)
    (hvtk : ∀ m, mc.env.read files cfg.meshFileName = .ok m → VtkRoundTrip mc.env m)
    (h : accuracyInverseDisc mc pb cfg tol tolEps lhs csv randint θ files = .ok passed) :
    ∃ (m : MeshioMesh) (cells : List Quad) (bd : List (ℤ × List (List ℝ)))
      (mp : List (ℝ × ℝ)) (nq : ℕ) (S S' : Fespace2D (ℝ → ℝ → ℝ) ℝ (cfg.feOrder.toNat ^ 2) nq)
      (D : DataHandler2D (cfg.feOrder.toNat ^ 2) nq) (bdv : List (ℝ × ℝ) × List ℝ) (specs : List LayerSpec)
      (lr : LearningRate) (row : Fin cfg.numSensorPoints → ℝ × ℝ × ℝ) (st : ℕ → TrainState)
      (outs : List (TrainOutInverse 1)),
      0 < cfg.epochs ∧ mc.env.read files cfg.meshFileName = .ok m ∧
      readMesh (mc.env.read files) cfg.meshFileName cfg.boundaryRefinementLevel cfg.boundarySamplingMethod lhs
        = .ok (cells, bd) ∧
      Assembled mc cfg.forward pb.toProblem cfg.modelArchitecture mp cells (bdPairs bd) S S' D bdv specs ∧
      learningRateFnStaircase cfg.learningRate = .ok lr ∧
      (∀ i, csv[(randint (csv.length - 1) i).toNat + 1]? = some (row i)) ∧ planePoints m ≠ [] ∧
      (st 0).adam = AdamState.init ∧
      (∀ k v, pb.inverseParams.lookup k = some v → (st 0).weights (.inverse k) = v) ∧
      (∀ k i j, (st 0).weights (.kernel k i j) = θ (.kernel k i j)) ∧
      (∀ k j, (st 0).weights (.bias k j) = θ (.bias k j)) ∧ outs.length = cfg.epochs ∧
      IsRun (trainStepInverseFull (pb.loss D.nCells _ nq) (modelDataOf D bdv cells.length) mc.act
        mc.attention false 2 specs 1 cfg.beta (some pb.bilinearParams) (fun i => ((row i).1, (row i).2.1))
        (fun i => (row i).2.2) (pb.inverseParams.map Prod.fst) lr) st outs ∧
      (passed = true ↔
        ((planePoints m).map fun p => |pb.exactSolution p.1 p.2
          - networkValue (mc.act cfg.activation) cfg.modelArchitecture (st cfg.epochs).weights p|).sum
          < tol * (planePoints m).length ∧
        |(st cfg.epochs).weights (.inverse "eps") - 0.3| < tolEps) := by
  unfold accuracyInverseDisc at h
  split at h
  · exact absurd h (by simp)
  rename_i P hP
  rw [paramsAsTensors_eq] at h
  obtain ⟨lr₀, hlr₀⟩ := staticRate
  obtain ⟨B, sensor, actual⟩ := P
  obtain rfl : actual = 0.3 := by
    have h' := hP
    unfold prepareInverseFile at h'
    split_ifs at h'
    split at h'
    · exact absurd h' (by simp)
    split at h'
    · exact absurd h' (by simp)
    · split at h'
      · exact absurd h' (by simp)
      split at h'
      · exact absurd h' (by simp)
      simp only [Except.ok.injEq, PreparedInverse.mk.injEq] at h'
      exact h'.2.2.symm
    · exact absurd h' (by simp)
  obtain ⟨hE, hlr, hs⟩ := (prepareInverseFile_iff mc cfg pb lhs csv randint files _ lr₀ hlr₀ B sensor).1 hP
  obtain ⟨o', m, cells, bd, mp, nq, S, S', D, bdv, lr', specs, inDim, -, -, h2, h3, h4, h5, h6, h7, -, -, h8, -⟩ :=
    prepareExternal_ok mc { cfg.forward with learningRate := testLearningRate false } pb.toProblem _ lhs files _ hext hvtk hE
  have hB : B = ⟨_, nq, D, bdv, cells.length, inDim, specs, B.lr, o',
      writeFile files (mc.env.join cfg.outputPath "external.vtk") (mc.env.vtk m)⟩ := by
    have := congrArg (fun X : Prepared => { X with lr := B.lr }) h7
    exact this
  generalize B.lr = lr at hB hlr
  subst hB
  dsimp only at h8
  obtain rfl : inDim = 2 := by
    rw [pyIndex_zero, List.head?_eq_getElem?] at h6
    rw [List.getD_eq_getElem?_getD, h6] at d0
    exact d0
  rw [show outDim specs = 1 from (outDim_layerSpecs _ _ _ h4.layers).trans dl] at h
  obtain ⟨hc1, hc2⟩ := C40_external S' pb.exactSolution cfg.numSensorPoints (fun _ _ => (0, 0)) (some csv) randint hr
  have hs' : getSensorData S' pb.exactSolution cfg.numSensorPoints "external" (fun _ _ => (0, 0)) (some csv) randint
      = .ok sensor := by simpa [getSensorData] using hs
  have h2' : 2 ≤ csv.length := by
    by_contra hc
    have := hc2 (by rintro _ ⟨rfl⟩; omega)
    rw [hs'] at this
    exact absurd this (by simp)
  obtain ⟨first, df, rfl, hdf⟩ : ∃ first df, csv = first :: df ∧ df ≠ [] := by
    match csv, h2' with
    | first :: a :: df, _ => exact ⟨first, a :: df, rfl, by simp⟩
  obtain ⟨sp, sv, c1, c2, c3, c4⟩ := hc1 first df rfl hdf
  obtain rfl := Except.ok.inj ((c1 pb.exactSolution first).symm.trans hs')
  choose row r1 r2 r3 using c4
  have hpred := inverse_predict ⟨⟨_, nq, D, bdv, cells.length, 2, specs, lr, o',
      writeFile files (mc.env.join cfg.outputPath "external.vtk") (mc.env.vtk m)⟩,
    (sp, sv), 0.3⟩ mc cfg pb cfg.modelArchitecture (by simp [hatt]) rfl d2 h4.layers d0 dl (planePoints m)
  obtain ⟨hne, hpos, st, outs, k1, k2, k3, k4⟩ := accuracyInverseAssert_ok mc pb _ false tol tolEps htol _ _ _ _ _ o'
    hpred h8 _ (fun s out s' hs => (inverse_step _ mc cfg pb 1 s out s' hs).2.2) passed h
  obtain ⟨i1, i2, i3⟩ := initialInverse_eq θ pb.inverseParams
  refine ⟨m, cells, bd, mp, nq, S, S', D, bdv, specs, lr, row, st, outs, hpos, h2, h3, ?_, hlr, ?_,
    hne, by rw [k1], by rw [k1]; exact i1, by rw [k1]; exact i2, by rw [k1]; exact i3, k2, ?_, ?_⟩
  · exact ⟨h4.1, h4.2, h4.3, h4.4⟩
  · intro i
    simpa using r1 i
  · intro k hk
    have := k3 k hk
    dsimp only at this
    rw [fullStep_cast c2, hatt] at this
    rw [show (fun i => ((row i).1, (row i).2.1)) = fun i : Fin cfg.numSensorPoints => sp.get (i.cast c2.symm) from
      funext fun i => ?_, show (fun i => (row i).2.2) = fun i : Fin cfg.numSensorPoints => sv.getD (i.cast c2.symm).val 0
      from funext fun i => ?_]
    · exact this
    · rw [List.getD_eq_getElem?_getD]
      show _ = (sv[i.val]?).getD 0
      rw [r3 i]
      rfl
    · have := r2 i
      rw [List.getElem?_eq_getElem (by rw [c2]; exact i.isLt)] at this
      exact (Option.some.inj this).symm
  · simp only [batchValue, hatt, Bool.false_eq_true, if_false] at k4
    exact k4


/-! ## The coefficient function -/

lemma errors_length (a b : List ℝ) (ha : a.length ≠ 1) (hb : b.length ≠ 1) (r)
    (h : computeErrorsCombined (array1 a) (array1 b) = .ok r) : a.length = b.length ∧ b ≠ [] := by
  by_cases hl : a.length = b.length
  · refine ⟨hl, ?_⟩
    rintro rfl
    obtain rfl := List.length_eq_zero_iff.1 hl
    rw [computeErrors_empty] at h
    exact absurd h (by simp)
  · simp [computeErrorsCombined, computeL2Error, NDArray.flatten, array1, npSub, hl, ha, hb, bind, Except.bind] at h

lemma mean_zip (a : List ℝ) (pts : List (ℝ × ℝ)) (f : ℝ × ℝ → ℝ) :
    ((a.zip (pts.map f)).map fun p => |p.1 - p.2|) = List.zipWith (fun v p => |v - f p|) a pts := by
  rw [List.zip, List.map_zipWith, List.zipWith_map_right]

/-- **C104** (test with an unknown coefficient function).  A test with an unknown coefficient function on a mesh file
with more than one vertex that ends without an exception other than an `AssertionError` has trained a network with two outputs with the loss,
tensors, boundary data and learning rate assembled from its settings and with sensors that are drawn lines of the file
with the sensor data; it passes exactly if the mean absolute differences of output 0 from the third column of that file
and of output 1 from the actual coefficient, at the vertices of the mesh, are both below the tolerance.  Line `k` of the
file is compared with vertex `k`, whatever point is in this line; the exact solution of the test is not used. -/
theorem C104_domain (mc : Machine) (pb : DomainProblem) (cfg : InverseConfig) (tol : ℝ)
    (csv : List (ℝ × ℝ × ℝ)) (sensorLhs : (k : ℕ) → Fin k → ℝ × ℝ) (randint : ℕ → Fin cfg.numSensorPoints → ℤ)
    (hr : ∀ m i, 0 < m → 0 ≤ randint m i ∧ randint m i < m)
    (sample : Fin 4 → Fin (cfg.nBoundaryPoints / 4) → ℝ)
    (lhs : ℕ → Fin (2 ^ cfg.boundaryRefinementLevel + 1) → ℝ × ℝ) (θ : Weights) (files : Files) (passed : Bool)
    (hext : cfg.meshGenerationMethod = "external") (hatt : cfg.useAttention = false)
    (d2 : 2 ≤ cfg.modelArchitecture.length) (d0 : cfg.modelArchitecture.getD 0 0 = 2)
    (dl : cfg.modelArchitecture.getD (cfg.modelArchitecture.length - 1) 0 = 2)
    (hvtk : ∀ m, mc.env.read files cfg.meshFileName = .ok m → VtkRoundTrip mc.env m)
    (hone : ∀ m, mc.env.read files cfg.meshFileName = .ok m → (planePoints m).length ≠ 1)
    (h : accuracyDomain mc pb cfg tol csv sensorLhs randint sample lhs θ files = .ok passed) :
    ∃ (m : MeshioMesh) (cells : List Quad) (bd : List (ℤ × List (List ℝ)))
      (mp : List (ℝ × ℝ)) (nq : ℕ) (S S' : Fespace2D (ℝ → ℝ → ℝ) ℝ (cfg.feOrder.toNat ^ 2) nq)
      (D : DataHandler2D (cfg.feOrder.toNat ^ 2) nq) (bdv : List (ℝ × ℝ) × List ℝ) (specs : List LayerSpec)
      (lr : LearningRate) (row : Fin cfg.numSensorPoints → ℝ × ℝ × ℝ) (st : ℕ → TrainState)
      (outs : List (TrainOutInverse 1)),
      mc.env.read files cfg.meshFileName = .ok m ∧
      readMesh (mc.env.read files) cfg.meshFileName cfg.boundaryRefinementLevel cfg.boundarySamplingMethod lhs
        = .ok (cells, bd) ∧
      Assembled mc cfg.forward pb.toProblem cfg.modelArchitecture mp cells (bdPairs bd) S S' D bdv specs ∧
      learningRateFn cfg.learningRate = .ok lr ∧
      (∀ i, csv[(randint (csv.length - 1) i).toNat + 1]? = some (row i)) ∧
      csv.length = (planePoints m).length ∧ 2 ≤ csv.length ∧
      st 0 = ⟨θ, AdamState.init⟩ ∧ outs.length = cfg.epochs ∧
      IsRun (trainStepWith (forwardInverseDomain (pb.loss D.nCells _ nq) (modelDataOf D bdv cells.length) mc.act
        mc.attention false 2 specs 2 cfg.beta (some pb.bilinearParams) (fun i => ((row i).1, (row i).2.1))
        (fun i => (row i).2.2)) (trainableVariables 2 specs []) lr) st outs ∧
      (passed = true ↔
        (List.zipWith (fun r p => |r.2.2
          - networkOutput (mc.act cfg.activation) cfg.modelArchitecture (st cfg.epochs).weights 0 p|) csv
          (planePoints m)).sum < tol * (planePoints m).length ∧
        ((planePoints m).map fun p => |pb.actualEps p.1 p.2
          - networkOutput (mc.act cfg.activation) cfg.modelArchitecture (st cfg.epochs).weights 1 p|).sum
          < tol * (planePoints m).length) := by
  unfold accuracyDomain at h
  split at h
  · exact absurd h (by simp)
  rename_i P hP
  obtain ⟨hE, nt₀, nq₀, S₀, hsen⟩ := prepareDomain_ok mc cfg pb _ sample lhs files P hext hP
  obtain ⟨o', m, cells, bd, mp, nq, S, S', D, bdv, lr, specs, inDim, -, -, h1, h2, h3, h4, h5, h6, h7, h8, h9, -⟩ :=
    prepareExternal_ok mc cfg.forward pb.toProblem _ lhs files P.base hext hvtk hE
  obtain ⟨base, sensor, geometry⟩ := P
  dsimp only at h6 hE hsen h9 h
  subst h6
  dsimp only at hsen h9 h
  obtain ⟨rfl, hsensor⟩ := sensors_external (.circle csv sensorLhs randint) mc.env pb S₀ o' geometry _ (planePoints m)
    sensor h9 hsen
  obtain rfl : inDim = 2 := by
    rw [pyIndex_zero, List.head?_eq_getElem?] at h5
    rw [List.getD_eq_getElem?_getD, h5] at d0
    exact d0
  have hout : outDim specs = 2 := (outDim_layerSpecs _ _ _ h3.layers).trans dl
  rw [hout, h9] at h
  dsimp only at h
  have hcall := domain_call ⟨⟨_, nq, D, bdv, cells.length, 2, specs, lr, geometry,
    writeFile files (mc.env.join cfg.outputPath "external.vtk") (mc.env.vtk m)⟩, sensor, geometry⟩ mc cfg pb
    cfg.modelArchitecture (by simp [hatt]) rfl d2 h3.layers d0 2 dl.ge (planePoints m)
  simp only [SensorsAre] at hsensor
  have hc := C40_external S' pb.exactSolution cfg.numSensorPoints sensorLhs (some csv) randint hr
  have hget : getSensorData S' pb.exactSolution cfg.numSensorPoints "external" sensorLhs (some csv) randint
      = .ok sensor := by
    simpa [getSensorData] using hsensor
  have h2' : 2 ≤ csv.length := by
    by_contra hcon
    have := hc.2 (by rintro _ ⟨rfl⟩; omega)
    rw [hget] at this
    exact absurd this (by simp)
  obtain ⟨first, df, rfl, hdf⟩ : ∃ first df, csv = first :: df ∧ df ≠ [] := by
    match csv, h2' with
    | first :: a :: df, _ => exact ⟨first, a :: df, rfl, by simp⟩
  obtain ⟨sp, sv, c1, c2, c3, c4⟩ := hc.1 first df rfl hdf
  obtain rfl := Except.ok.inj ((c1 pb.exactSolution first).symm.trans hget)
  choose row r1 r2 r3 using c4
  rw [DomainSource.exact, if_neg (by simp)] at h
  dsimp only at h
  split at h
  · exact absurd h (by simp)
  rename_i outs s htr
  obtain ⟨y, hy, hy0, hy1⟩ := hcall s.weights
  dsimp only [InverseConfig.forward] at h hy
  rw [hy] at h
  dsimp only at h
  rw [hy0, hy1] at h
  dsimp only at h
  split at h
  · exact absurd h (by simp)
  rename_i e1 e2 e3 e4 l1 e5 hE1
  split at h
  · exact absurd h (by simp)
  rename_i f1 f2 f3 f4 l1' f5 hE2
  obtain rfl := Except.ok.inj h
  obtain ⟨hlen, hne⟩ := errors_length _ _ (by simpa using show (first :: df).length ≠ 1 by omega)
    (by simpa using hone m h1) _ hE1
  obtain ⟨a1, a2, a3, a4, a5, a6, hA, hAe⟩ := errors_zip _ _ hlen hne
  rw [hE1] at hA
  obtain ⟨rfl, rfl, rfl, rfl, rfl, rfl⟩ : e1 = a1 ∧ e2 = a2 ∧ e3 = a3 ∧ e4 = a4 ∧ l1 = a5 ∧ e5 = a6 := by
    simpa using hA
  have hne' : planePoints m ≠ [] := by
    intro hcon
    rw [hcon] at hne
    exact hne rfl
  obtain ⟨b1, b2, b3, b4, b5, b6, hB, hBe⟩ := errors_at (planePoints m) hne' (fun p => pb.actualEps p.1 p.2)
    (batchOutput cfg.useAttention (planePoints m) (mc.act cfg.activation) cfg.modelArchitecture s.weights 1)
  rw [hE2] at hB
  obtain ⟨rfl, rfl, rfl, rfl, rfl, rfl⟩ : f1 = b1 ∧ f2 = b2 ∧ f3 = b3 ∧ f4 = b4 ∧ l1' = b5 ∧ f5 = b6 := by
    simpa using hB
  obtain ⟨hl, st, hrun, hst0, hend⟩ := (trainEpochs_iff _ _ _ _ _).1 htr
  have hn : (0 : ℝ) < (planePoints m).length := by exact_mod_cast List.length_pos_iff.2 hne'
  have hcsv : (first :: df).length = (planePoints m).length := by simpa using hlen
  refine ⟨m, cells, bd, mp, nq, S, S', D, bdv, specs, lr, row, st, outs, h1, h2, h3, h4, ?_, hcsv, h2', hst0, hl, ?_, ?_⟩
  · intro i
    simpa using r1 i
  · intro k hk
    have := hrun k hk
    rw [domain_step _ mc cfg pb _ rfl] at this
    dsimp only at this
    rw [forward_cast c2, hatt] at this
    rw [show (fun i => ((row i).1, (row i).2.1)) = fun i : Fin cfg.numSensorPoints => sp.get (i.cast c2.symm) from
      funext fun i => ?_, show (fun i => (row i).2.2) = fun i : Fin cfg.numSensorPoints => sv.getD (i.cast c2.symm).val 0
      from funext fun i => ?_]
    · exact this
    · rw [List.getD_eq_getElem?_getD]
      show _ = (sv[i.val]?).getD 0
      rw [r3 i]
      rfl
    · have := r2 i
      rw [List.getElem?_eq_getElem (by rw [c2]; exact i.isLt)] at this
      exact (Option.some.inj this).symm
  · rw [decide_eq_true_iff, hend]
    have hm1 := hAe.mean
    have hm2 := hBe.mean
    rw [mean_zip, List.zipWith_map_left] at hm1
    simp only [batchOutput, hatt, Bool.false_eq_true, if_false] at hm1 hm2
    have hz : ((List.map (fun r : ℝ × ℝ × ℝ => r.2.2) (first :: df)).zip
        (List.map (batchOutput cfg.useAttention (planePoints m) (mc.act cfg.activation) cfg.modelArchitecture s.weights 0)
          (planePoints m))).length = (planePoints m).length := by
      rw [List.length_zip, hlen, min_self, List.length_map]
    rw [hatt] at hz
    rw [hz] at hm1
    rw [← hm1, ← hm2, mul_comm tol, mul_lt_mul_iff_right₀ hn, mul_lt_mul_iff_right₀ hn]

/-! ## Completion -/

/-- **C104** (completion, inverse test on the square).  A test with valid settings and at least one epoch ends without
an exception other than an `AssertionError`. -/
theorem C104_inverse_square_completes (mc : Machine) (pb : InverseProblem) (cfg : InverseConfig)
    (hloss : ∀ nc nt nq, pb.loss nc nt nq = lossPoissonInverse nc nt nq) (tol tolEps : ℝ)
    (sample : Fin 4 → Fin (cfg.nBoundaryPoints / 4) → ℝ)
    (lhs : ℕ → Fin (2 ^ cfg.boundaryRefinementLevel + 1) → ℝ × ℝ) (sensorLhs : (k : ℕ) → Fin k → ℝ × ℝ)
    (randint : ℕ → Fin cfg.numSensorPoints → ℤ) (θ : Weights) (files : Files)
    (hatt : cfg.useAttention = false) (hint : cfg.meshGenerationMethod = "internal")
    (hmsh : ∀ x y hx hy, ∃ m, mc.env.parseMsh (mc.env.gmsh x y hx hy) = .ok m)
    (hv : ValidInverse pb cfg) (he : 0 < cfg.epochs) :
    ∃ passed, accuracyInverseSquare mc pb cfg tol tolEps sample lhs sensorLhs randint θ files = .ok passed := by
  have hld : cfg.modelArchitecture ≠ [] := by
    intro hc
    have := hv.depth
    rw [hc] at this
    simp at this
  obtain ⟨P, hP⟩ := (prepareInverse_iff mc cfg pb sample lhs sensorLhs randint files hint).2
    ⟨(prepareUniform_iff mc cfg.forward pb.toProblem cfg.modelArchitecture hld learningRateFnStaircase sample files
      hint hmsh).2 ⟨hv.setup.dtype, hv.setup.meshType, hv.setup.nCells,
        ⟨by have := hv.setup.testPoints; omega, by have := hv.setup.testPoints; omega⟩, hv.setup.feOrder,
        hv.setup.feType, hv.setup.quadOrder, hv.setup.quadType, hv.setup.boundary, hv.setup.plot,
        (C50_keys_staircase _).2.2 hv.setup.learningRate⟩, hv.target⟩
  unfold accuracyInverseSquare
  rw [hP]
  dsimp only
  obtain ⟨hU, o, o', files', cells, bd, nq, S, S', D, bdv, lr, specs, inDim, pts, o'', h1, h2, h3, h4, h5, h6, h7, h8,
    h9, h10, h11⟩ := prepareInverse_ok mc cfg pb sample lhs sensorLhs randint files P hint hP
  have hout : outDim P.base.specs = 1 := by
    rw [h9]
    exact (outDim_layerSpecs _ _ _ h3.layers).trans hv.output
  rw [hout]
  obtain ⟨base, sensor, actual⟩ := P
  dsimp only at h9
  subst h9
  obtain rfl : inDim = 2 := by
    have h0 := hv.input
    rw [pyIndex_zero, List.head?_eq_getElem?] at h5
    rw [List.getD_eq_getElem?_getD, h5] at h0
    exact h0
  have hne : pts ≠ [] := by
    rw [← List.length_pos_iff, h10.1]
    exact Nat.mul_pos (lt_of_lt_of_le (by norm_num) hv.setup.testPoints.1)
      (lt_of_lt_of_le (by norm_num) hv.setup.testPoints.2)
  have hpred := inverse_predict ⟨⟨_, nq, D, bdv, cells.length, 2, specs, lr, o', files'⟩, sensor, actual⟩ mc cfg pb
    cfg.modelArchitecture (by simp [hatt]) rfl hv.depth h3.layers hv.input hv.output pts
  refine accuracyInverseAssert_succeeds mc pb _ he true tol tolEps _ _ _ _ pts hne o'' hpred h11 fun s => ?_
  have hk := (lookup_iff_mem pb.inverseParams "eps").1 hv.guess
  refine inverse_step_of _ mc cfg pb 1 rfl hk s ?_
  obtain ⟨pt, hpt, -⟩ := C78_losses mc pb cfg hloss cfg.modelArchitecture hv.depth hv.input hv.output _ cells
    (bdPairs bd) nq S S' D bdv specs h3 lr (fun i => sensor.1.get i) (fun i => sensor.2.getD i.val 0)
  exact inverse_step_succeeds _ (hloss _ _ _) _ pt hpt _ _ _ _ _ _ _ _ _ hk _ s

/-- **C104** (completion, inverse test on the disc).  A test with valid settings, at least one epoch and at least two
lines of sensor data ends without an exception other than an `AssertionError`. -/
theorem C104_inverse_disc_completes (mc : Machine) (pb : InverseProblem) (cfg : InverseConfig)
    (hloss : ∀ nc nt nq, pb.loss nc nt nq = lossPoissonInverse nc nt nq) (tol tolEps : ℝ)
    (lhs : ℕ → Fin (2 ^ cfg.boundaryRefinementLevel + 1) → ℝ × ℝ) (csv : List (ℝ × ℝ × ℝ)) (hcsv : 2 ≤ csv.length)
    (randint : ℕ → Fin cfg.numSensorPoints → ℤ) (hr : ∀ m i, 0 < m → 0 ≤ randint m i ∧ randint m i < m)
    (θ : Weights) (files : Files)
    (hext : cfg.meshGenerationMethod = "external") (hatt : cfg.useAttention = false)
    (hvtk : ∀ m, mc.env.read files cfg.meshFileName = .ok m → VtkRoundTrip mc.env m)
    (cells : List Quad) (bd : List (ℤ × List (List ℝ)))
    (hread : readMesh (mc.env.read files) cfg.meshFileName cfg.boundaryRefinementLevel cfg.boundarySamplingMethod lhs
      = .ok (cells, bd))
    (hv : ValidExternal pb.toProblem cfg.forward .poissonInverse
      ["initial_learning_rate", "use_lr_scheduler", "decay_steps", "decay_rate", "staircase"] cfg.modelArchitecture
      cells bd)
    (hguess : ∃ v, pb.inverseParams.lookup "eps" = some v) (he : 0 < cfg.epochs) :
    ∃ passed, accuracyInverseDisc mc pb cfg tol tolEps lhs csv randint θ files = .ok passed := by
  have hld : cfg.modelArchitecture ≠ [] := by
    intro hc
    have := hv.depth
    rw [hc] at this
    simp at this
  obtain ⟨lr₀, hlr₀⟩ := staticRate
  obtain ⟨lr, hlr⟩ := (C50_keys_staircase _).2.2 hv.learningRate
  obtain ⟨B, hB⟩ := (prepareExternal_iff mc { cfg.forward with learningRate := testLearningRate false } pb.toProblem
    cfg.modelArchitecture hld lhs files hext).2
    ⟨hv.dtype, hv.meshType, cells, bd, hread, ⟨hv.cells, hv.feOrder, hv.feType, hv.quadOrder, hv.quadType, hv.boundary⟩,
      hv.plot, lr₀, hlr₀⟩
  obtain ⟨o', m, cells', bd', mp, nq, S, S', D, bdv, lr', specs, inDim, -, -, h2, h3, h4, h5, h6, rfl, -, -, h8, h10⟩ :=
    prepareExternal_ok mc { cfg.forward with learningRate := testLearningRate false } pb.toProblem _ lhs files _ hext hvtk hB
  obtain rfl : lr₀ = lr' := Except.ok.inj (hlr₀.symm.trans h5)
  obtain ⟨sensor, hs⟩ : ∃ sensor, getSensorDataExternal pb.exactSolution cfg.numSensorPoints (some csv) randint
      = .ok sensor := by
    have hc := (C40_external S' pb.exactSolution cfg.numSensorPoints (fun _ _ => (0, 0)) (some csv) randint hr).1
    match csv, hcsv with
    | first :: a :: df, _ =>
      obtain ⟨p, v, c1, -⟩ := hc first (a :: df) rfl (by simp)
      exact ⟨_, by simpa [getSensorData] using c1 pb.exactSolution first⟩
  have hP := (prepareInverseFile_iff mc cfg pb lhs csv randint files _ lr₀ hlr₀ ⟨_, nq, D, bdv, cells'.length, inDim,
    specs, lr, o', writeFile files (mc.env.join cfg.outputPath "external.vtk") (mc.env.vtk m)⟩ sensor).2
    ⟨hB, hlr, hs⟩
  unfold accuracyInverseDisc
  rw [hP]
  dsimp only
  obtain ⟨rfl, rfl⟩ := Prod.mk.inj (Except.ok.inj (hread.symm.trans h3))
  rw [show outDim specs = 1 from (outDim_layerSpecs _ _ _ h4.layers).trans hv.output]
  obtain rfl : inDim = 2 := by
    have h0 := hv.input
    rw [pyIndex_zero, List.head?_eq_getElem?] at h6
    rw [List.getD_eq_getElem?_getD, h6] at h0
    exact h0
  have hne : planePoints m ≠ [] := by
    obtain ⟨c, hc⟩ := List.exists_mem_of_ne_nil _ hv.cells
    exact List.ne_nil_of_mem (h10 c hc 0)
  have hpred := inverse_predict ⟨⟨_, nq, D, bdv, cells.length, 2, specs, lr, o',
      writeFile files (mc.env.join cfg.outputPath "external.vtk") (mc.env.vtk m)⟩, sensor, 0.3⟩ mc cfg pb
    cfg.modelArchitecture (by simp [hatt]) rfl hv.depth h4.layers hv.input hv.output (planePoints m)
  refine accuracyInverseAssert_succeeds mc pb _ he false tol tolEps _ _ _ _ _ hne o' hpred h8 fun s => ?_
  have hk := (lookup_iff_mem pb.inverseParams "eps").1 hguess
  refine inverse_step_of _ mc cfg pb 1 rfl hk s ?_
  obtain ⟨pt, hpt, -⟩ := C78_losses mc pb cfg hloss cfg.modelArchitecture hv.depth hv.input hv.output _ cells
    (bdPairs bd) nq S S' D bdv specs ⟨h4.1, h4.2, h4.3, h4.4⟩ lr (fun i => sensor.1.get i)
    (fun i => sensor.2.getD i.val 0)
  exact inverse_step_succeeds _ (hloss _ _ _) _ pt hpt _ _ _ _ _ _ _ _ _ hk _ s

/-- **C104** (completion, test with an unknown coefficient function).  A test with valid settings and a file with the
sensor data that has as many lines as the mesh has vertices, at least two, ends without an exception other than an
`AssertionError`. -/
theorem C104_domain_completes (mc : Machine) (pb : DomainProblem) (cfg : InverseConfig)
    (hloss : ∀ nc nt nq, pb.loss nc nt nq = lossCd2dInverseDomain nc nt nq) (tol : ℝ)
    (csv : List (ℝ × ℝ × ℝ)) (sensorLhs : (k : ℕ) → Fin k → ℝ × ℝ) (randint : ℕ → Fin cfg.numSensorPoints → ℤ)
    (hr : ∀ m i, 0 < m → 0 ≤ randint m i ∧ randint m i < m)
    (sample : Fin 4 → Fin (cfg.nBoundaryPoints / 4) → ℝ)
    (lhs : ℕ → Fin (2 ^ cfg.boundaryRefinementLevel + 1) → ℝ × ℝ) (θ : Weights) (files : Files)
    (hext : cfg.meshGenerationMethod = "external") (hatt : cfg.useAttention = false)
    (d2 : 2 ≤ cfg.modelArchitecture.length)
    (hvtk : ∀ m, mc.env.read files cfg.meshFileName = .ok m → VtkRoundTrip mc.env m)
    (hcsv : ∀ m, mc.env.read files cfg.meshFileName = .ok m → csv.length = (planePoints m).length ∧ 2 ≤ csv.length)
    (cells : List Quad) (bd : List (ℤ × List (List ℝ)))
    (hread : readMesh (mc.env.read files) cfg.meshFileName cfg.boundaryRefinementLevel cfg.boundarySamplingMethod lhs
      = .ok (cells, bd))
    (hv : ValidDomain pb cfg cells bd) :
    ∃ passed, accuracyDomain mc pb cfg tol csv sensorLhs randint sample lhs θ files = .ok passed := by
  have hld : cfg.modelArchitecture ≠ [] := by
    intro h
    rw [h] at d2
    simp at d2
  obtain ⟨B, hB⟩ := (prepareExternal_iff mc cfg.forward pb.toProblem cfg.modelArchitecture hld lhs files hext).2
    ⟨hv.dtype, hv.meshType, cells, bd, hread,
    ⟨hv.cells, hv.feOrder, hv.feType, hv.quadOrder, hv.quadType, hv.boundary⟩, fun h => absurd h (by simp [InverseConfig.forward]),
    (C50_keys cfg.learningRate).2.2 hv.learningRate⟩
  obtain ⟨o', m, cells', bd', mp, nq, S, S', D, bdv, lr, specs, inDim, -, -, h1, h2, h3, h4, h5, h6, h7, h8, h9,
    h10⟩ := prepareExternal_ok mc cfg.forward pb.toProblem _ lhs files B hext hvtk hB
  have hBo : B.geometry = o' := by rw [h6]
  obtain ⟨hsen, ye, hye, hlen⟩ := sourceFits_ok (.circle csv sensorLhs randint) hr mc.env pb o' B.files (planePoints m) h9
    (hcsv m h1)
  obtain ⟨P, hP⟩ := prepareDomain_of mc cfg pb (.circle csv sensorLhs randint) sample lhs files B hext hB
    (by rw [hBo]; exact hsen)
  obtain ⟨hE, nt₀, nq₀, S₀, hsen'⟩ := prepareDomain_ok mc cfg pb _ sample lhs files P hext hP
  have hPB : P.base = B := Except.ok.inj (hE.symm.trans hB)
  unfold accuracyDomain
  rw [hP]
  dsimp only
  obtain ⟨base, sensor, geometry⟩ := P
  dsimp only at hPB hsen' ⊢
  subst hPB
  subst h6
  dsimp only at hsen' h9 ⊢
  obtain ⟨rfl, -⟩ := sensors_external (.circle csv sensorLhs randint) mc.env pb S₀ o' geometry _ (planePoints m) sensor h9
    hsen'
  obtain ⟨rfl, rfl⟩ := Prod.mk.inj (Except.ok.inj (hread.symm.trans h2))
  obtain rfl : inDim = 2 := by
    have := hv.input
    rw [pyIndex_zero, List.head?_eq_getElem?] at h5
    rw [List.getD_eq_getElem?_getD, h5] at this
    exact this
  have hne : planePoints m ≠ [] := by
    obtain ⟨c, hc⟩ := List.exists_mem_of_ne_nil _ hv.cells
    exact List.ne_nil_of_mem (h10 c hc 0)
  rw [outDim_layerSpecs _ _ _ h3.layers, h9]
  dsimp only
  rw [hye]
  dsimp only
  obtain ⟨pt, hpt, -⟩ := C79_losses mc pb cfg hloss cfg.modelArchitecture d2 hv.input hv.output mp cells
    (bdPairs bd) nq S S' D bdv specs h3 lr (fun i => sensor.1.get i) (fun i => sensor.2.getD i.val 0)
  have hcall := domain_call ⟨⟨_, nq, D, bdv, cells.length, 2, specs, lr, geometry,
    writeFile files (mc.env.join cfg.forward.outputPath "external.vtk") (mc.env.vtk m)⟩, sensor, geometry⟩ mc cfg pb
    cfg.modelArchitecture (by simp [hatt]) rfl d2 h3.layers hv.input
    (cfg.modelArchitecture.getD (cfg.modelArchitecture.length - 1) 0) hv.output (planePoints m)
  have hstep : ∀ s, ∃ r, (PreparedDomain.model ⟨⟨cfg.forward.feOrder.toNat ^ 2, nq, D, bdv, cells.length, 2, specs, lr, geometry,
      writeFile files (mc.env.join cfg.forward.outputPath "external.vtk") (mc.env.vtk m)⟩, sensor, geometry⟩ mc cfg pb
      (cfg.modelArchitecture.getD (cfg.modelArchitecture.length - 1) 0)).step s = .ok r := by
    intro s
    rw [domain_step _ mc cfg pb _ rfl]
    exact (domain_step_iff hv.output _ (hloss _ _ _) _ pt hpt _ _ _ _ _ _ _ _ _ _ s).2 hv.parameters
  obtain ⟨⟨outs, s⟩, htr⟩ := trainEpochs_succeeds _ hstep cfg.epochs ⟨θ, AdamState.init⟩
  obtain ⟨y, hy, hy0, hy1⟩ := hcall s.weights
  rw [htr]
  dsimp only
  dsimp only [InverseConfig.forward] at hy ⊢
  rw [hy]
  dsimp only
  rw [hy0, hy1]
  dsimp only
  obtain ⟨a1, a2, a3, a4, a5, a6, hA, -⟩ := errors_zip ye
    ((planePoints m).map (batchOutput cfg.useAttention (planePoints m) (mc.act cfg.activation) cfg.modelArchitecture
      s.weights 0)) (by simpa using hlen) (by simpa using hne)
  obtain ⟨b1, b2, b3, b4, b5, b6, hB', -⟩ := errors_at (planePoints m) hne (fun p => pb.actualEps p.1 p.2)
    (batchOutput cfg.useAttention (planePoints m) (mc.act cfg.activation) cfg.modelArchitecture s.weights 1)
  rw [hA]
  dsimp only
  rw [hB']
  exact ⟨_, rfl⟩

/-- **C104** (the inverse tests as they are).  With the literals of the tests - any positive number of cells per side,
any positive number of epochs, any tolerances - the test on the square ends without an exception other than an
`AssertionError`, and so do the tests on the disc if the mesh file can be read and its only boundary tag is 1000. -/
theorem C104_inverse_shipped (mc : Machine) (tol tolEps : ℝ) (epochs : ℕ) (he : 0 < epochs) (θ : Weights) (files : Files) :
    (∀ (n : ℕ) (sample : Fin 4 → Fin (500 / 4) → ℝ) (lhs : ℕ → Fin (2 ^ 0 + 1) → ℝ × ℝ)
      (sensorLhs : (k : ℕ) → Fin k → ℝ × ℝ) (randint : ℕ → Fin 50 → ℤ), 0 < n →
      (∀ x y hx hy, ∃ m, mc.env.parseMsh (mc.env.gmsh x y hx hy) = .ok m) →
      ∃ passed, accuracyInverseSquare mc testInverse (testInverseSquare n epochs) tol tolEps sample lhs sensorLhs randint
        θ files = .ok passed) ∧
    (∀ (lhs : ℕ → Fin (2 ^ 2 + 1) → ℝ × ℝ) (csv : List (ℝ × ℝ × ℝ)) (cells : List Quad) (pts : List (List ℝ)),
      (∀ m, mc.env.read files "tests/support_files/circle_quad.mesh" = .ok m → VtkRoundTrip mc.env m) →
      readMesh (mc.env.read files) "tests/support_files/circle_quad.mesh" 2 "uniform" lhs = .ok (cells, [(1000, pts)]) →
      cells ≠ [] → 2 ≤ csv.length →
      (∀ (randint : ℕ → Fin 100 → ℤ), (∀ m i, 0 < m → 0 ≤ randint m i ∧ randint m i < m) →
        ∃ passed, accuracyInverseDisc mc testInverseCircle (testInverseDisc epochs) tol tolEps lhs csv randint θ files
          = .ok passed) ∧
      ∀ (sensorLhs : (k : ℕ) → Fin k → ℝ × ℝ) (randint : ℕ → Fin 500 → ℤ) (sample : Fin 4 → Fin (0 / 4) → ℝ),
        (∀ m i, 0 < m → 0 ≤ randint m i ∧ randint m i < m) →
        (∀ m, mc.env.read files "tests/support_files/circle_quad.mesh" = .ok m →
          csv.length = (planePoints m).length) →
        ∃ passed, accuracyDomain mc testDomain (testDomainDisc epochs) tol csv sensorLhs randint sample lhs θ files
          = .ok passed) := by
  constructor
  · intro n sample lhs sensorLhs randint hn hmsh
    refine C104_inverse_square_completes mc testInverse (testInverseSquare n epochs) (fun _ _ _ => rfl) tol tolEps sample
      lhs sensorLhs randint θ files rfl rfl hmsh ⟨⟨.inr rfl, rfl, ?_, ?_, ?_, ?_, ?_, .inr rfl, ?_, ?_, ?_, ?_⟩, ⟨2, rfl⟩,
        ⟨_, rfl⟩, ?_, rfl, rfl⟩ he
    all_goals simp [testInverseSquare, testSquare, testInverse, problemInverse, InverseConfig.forward, requiredParams,
      testLearningRate, ConstInverse.boundaryFunctionDict, List.lookup, hn]
  · intro lhs csv cells pts hvtk hread hc hcsv
    constructor
    · intro randint hr
      refine C104_inverse_disc_completes mc testInverseCircle (testInverseDisc epochs) (fun _ _ _ => rfl) tol tolEps lhs
        csv hcsv randint hr θ files rfl rfl hvtk cells [(1000, pts)] hread
        ⟨.inr rfl, rfl, hc, ?_, ?_, ?_, .inr rfl, ?_, ?_, ?_, ?_, ?_, rfl, rfl⟩ ⟨3, rfl⟩ he
      all_goals simp [testInverseDisc, testDisc, testSquare, testInverseCircle, InverseConfig.forward, requiredParams,
        testLearningRate, List.lookup]
    · intro sensorLhs randint sample hr hl
      refine C104_domain_completes mc testDomain (testDomainDisc epochs) (fun _ _ _ => rfl) tol csv sensorLhs randint hr
        sample lhs θ files rfl rfl (by simp [testDomainDisc]) hvtk (fun m hm => ⟨hl m hm, hcsv⟩) cells [(1000, pts)] hread
        ⟨.inr rfl, rfl, hc, ?_, ?_, ?_, .inr rfl, ?_, ?_, ?_, rfl, ?_⟩
      all_goals simp [testDomainDisc, testDisc, testSquare, testDomain, List.lookup]

/-- **C104** (the exact solution of the test with an unknown coefficient function).  It has no influence. -/
theorem C104_domain_exact (mc : Machine) (pb : DomainProblem) (u : ℝ → ℝ → ℝ) (cfg : InverseConfig) (tol : ℝ)
    (csv : List (ℝ × ℝ × ℝ)) (sensorLhs : (k : ℕ) → Fin k → ℝ × ℝ) (randint : ℕ → Fin cfg.numSensorPoints → ℤ)
    (sample : Fin 4 → Fin (cfg.nBoundaryPoints / 4) → ℝ)
    (lhs : ℕ → Fin (2 ^ cfg.boundaryRefinementLevel + 1) → ℝ × ℝ) (θ : Weights) (files : Files)
    (hext : cfg.meshGenerationMethod = "external") :
    accuracyDomain mc { pb with exactSolution := u } cfg tol csv sensorLhs randint sample lhs θ files
      = accuracyDomain mc pb cfg tol csv sensorLhs randint sample lhs θ files := by
  have hs : ∀ {nt nq : ℕ} (S : Fespace2D (ℝ → ℝ → ℝ) ℝ nt nq) (o : GeometryObject) (f : Files),
      (DomainSource.circle csv sensorLhs randint).sensors mc.env "external" { pb with exactSolution := u } S o f
        = (DomainSource.circle csv sensorLhs randint).sensors mc.env "external" pb S o f := fun _ _ _ => rfl
  have hp : prepareDomain mc cfg { pb with exactSolution := u } (.circle csv sensorLhs randint) sample lhs files
      = prepareDomain mc cfg pb (.circle csv sensorLhs randint) sample lhs files := by
    unfold prepareDomain prepareDomainModel
    rw [hext]
    simp only [hs]
  unfold accuracyDomain
  rw [hp]
  rfl

/-! ## Concrete tests -/

/-- The hypotheses of the theorems on the square are met by the test as it is, with two cells per side and 2000
epochs. -/
example (quad : QuadRoutines) (sample : Fin 4 → Fin (500 / 4) → ℝ) (lhs : ℕ → Fin (2 ^ 0 + 1) → ℝ × ℝ)
    (randint : ℕ → Fin 50 → ℤ) (θ : Weights) :
    ∃ passed, accuracyInverseSquare (demoMachine quad) testInverse (testInverseSquare 2 2000) 8e-2 8e-2 sample lhs
        (fun _ _ => (1 / 2, 1 / 3)) randint θ demoFiles = .ok passed ∧
      9 * (testInverseSquare 2 2000).numSensorPoints / 10 = 45 := by
  obtain ⟨passed, h⟩ := (C104_inverse_shipped (demoMachine quad) 8e-2 8e-2 2000 (by norm_num) θ demoFiles).1 2 sample lhs
    (fun _ _ => (1 / 2, 1 / 3)) randint (by norm_num) (fun _ _ _ _ => ⟨_, rfl⟩)
  exact ⟨passed, h, rfl⟩

/-- Settings and problems for the demonstration mesh. -/
noncomputable def demoInverseDisc : InverseConfig :=
  { testInverseDisc 7 with meshFileName := "meshes/demo.v2.mesh" }

noncomputable def demoInverseProblem : InverseProblem :=
  { testInverseCircle with boundaryFunctionDict := [(7, fun x _ => x), (5, fun _ _ => 1)] }

noncomputable def demoDomainDisc : InverseConfig :=
  { testDomainDisc 7 with meshFileName := "meshes/demo.v2.mesh" }

noncomputable def demoDomainTest : DomainProblem :=
  { testDomain with boundaryFunctionDict := [(7, fun x _ => x), (5, fun _ _ => 1)] }

/-- The hypotheses of the theorems on the disc are met by the demonstration mesh with a line of sensor data for every
vertex. -/
example (quad : QuadRoutines) (sample : Fin 4 → Fin (0 / 4) → ℝ) (lhs : ℕ → Fin (2 ^ 2 + 1) → ℝ × ℝ) (θ : Weights) :
    (∀ m, (demoMachine quad).env.read demoFiles demoInverseDisc.meshFileName = .ok m →
      VtkRoundTrip (demoMachine quad).env m ∧ (planePoints m).length ≠ 1) ∧
    (∃ passed, accuracyInverseDisc (demoMachine quad) demoInverseProblem demoInverseDisc 8e-2 8e-2 lhs
      ((planePoints demoMesh).map fun p => (p.1, p.2, 3)) (fun _ _ => 0) θ demoFiles = .ok passed) ∧
    ∃ passed, accuracyDomain (demoMachine quad) demoDomainTest demoDomainDisc 8.3e-2
      ((planePoints demoMesh).map fun p => (p.1, p.2, 3)) (fun _ _ => (0, 0)) (fun _ _ => 0) sample lhs θ demoFiles
        = .ok passed := by
  have hr : (demoMachine quad).env.read demoFiles "meshes/demo.v2.mesh" = .ok demoMesh := by
    simp [MeshFiles.read, demoFiles, demoEnv, demoMachine]
  have hvtk : ∀ m, (demoMachine quad).env.read demoFiles "meshes/demo.v2.mesh" = .ok m →
      VtkRoundTrip (demoMachine quad).env m := by
    intro m hm
    obtain rfl := Except.ok.inj (hr.symm.trans hm)
    exact fun path => ⟨demoMesh, by simp [demoEnv, demoMachine], rfl⟩
  have h := C10_sampling_method ((demoMachine quad).env.read demoFiles) "meshes/demo.v2.mesh" 2 "uniform" lhs demoMesh
    demo_extension hr demoMesh_wellFormed
  obtain ⟨⟨cells, d⟩, hd⟩ := (h.1 (by simp [cellsOfType, demoMesh])).1.2 (Or.inl rfl)
  obtain ⟨⟨tags, ht, hk⟩, -⟩ := C08_grouping _ _ 2 _ lhs cells d demoMesh hr hd
  have hkeys : d.map Prod.fst = [7, 5] := by
    simp only [demoMesh, List.head?_cons, Option.some.injEq] at ht
    rw [hk, ← ht]
    simp [demoMesh, cellsOfType]
    decide
  have hcells : cells ≠ [] := by
    have := (C06_anticlockwise _ _ 2 _ lhs cells d demoMesh hr hd).1
    rw [← List.length_pos_iff, this]
    simp [cellsOfType, demoMesh]
  have hbd : ∀ e ∈ d, e.2 ≠ [] → ∃ g : ℝ → ℝ → ℝ, [((7 : ℤ), fun x (_ : ℝ) => x), (5, fun _ _ => 1)].lookup e.1 = some g := by
    intro e he _
    have : e.1 ∈ d.map Prod.fst := List.mem_map_of_mem he
    rw [hkeys] at this
    simp only [List.mem_cons, List.not_mem_nil, or_false] at this
    rcases this with h | h <;> rw [h] <;> exact ⟨_, rfl⟩
  have hrand : ∀ (n m : ℕ) (_ : Fin n), 0 < m → (0 : ℤ) ≤ 0 ∧ (0 : ℤ) < m := fun _ m _ hm => ⟨le_rfl, by exact_mod_cast hm⟩
  have hlen : 2 ≤ ((planePoints demoMesh).map fun p => (p.1, p.2, (3 : ℝ))).length := by
    simp [planePoints, demoMesh]
  refine ⟨fun m hm => ⟨hvtk m hm, ?_⟩, ?_, ?_⟩
  · obtain rfl := Except.ok.inj (hr.symm.trans hm)
    simp [planePoints, demoMesh]
  · refine C104_inverse_disc_completes (demoMachine quad) demoInverseProblem demoInverseDisc (fun _ _ _ => rfl) _ _ lhs
      _ hlen _ (hrand _) θ demoFiles rfl rfl hvtk cells d hd
      ⟨.inr rfl, rfl, hcells, ?_, ?_, ?_, .inr rfl, hbd, ?_, ?_, ?_, ?_, rfl, rfl⟩ ⟨3, rfl⟩ (by norm_num [demoInverseDisc, testInverseDisc, testDisc, testSquare])
    all_goals simp [demoInverseDisc, testInverseDisc, testDisc, testSquare, InverseConfig.forward, requiredParams,
      testLearningRate, List.lookup]
  · refine C104_domain_completes (demoMachine quad) demoDomainTest demoDomainDisc (fun _ _ _ => rfl) _ _ _ _ (hrand _)
      sample lhs θ demoFiles rfl rfl (by simp [demoDomainDisc, testDomainDisc]) hvtk (fun m hm => ⟨?_, hlen⟩) cells d hd
      ⟨.inr rfl, rfl, hcells, ?_, ?_, ?_, .inr rfl, hbd, ?_, ?_, rfl, ?_⟩
    on_goal 1 =>
      obtain rfl := Except.ok.inj (hr.symm.trans hm)
      simp
    all_goals simp [demoDomainDisc, testDomainDisc, testDisc, testSquare, demoDomainTest, testDomain, List.lookup]

end FastVPINNs
