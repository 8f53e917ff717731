import Verif.Model.AccuracyTests
import Verif.Props.DriverShipped
import Verif.Props.Study
import Verif.Props.Examples
import Verif.Props.Notebook

/-! # C104: the accuracy tests -/

namespace FastVPINNs

open Spec

/-! ## The problems -/

lemma cosh_double (a : ℝ) : Real.cosh (2 * a) + 1 = 2 * Real.cosh a ^ 2 := by
  rw [Real.cosh_two_mul, Real.cosh_sq]
  ring

lemma tanh_half_sq (a : ℝ) : 1 - Real.tanh a ^ 2 = 2 / (Real.cosh (2 * a) + 1) := by
  have h := (Real.cosh_pos a).ne'
  rw [cosh_double, Real.tanh_eq_sinh_div_cosh]
  field_simp
  rw [Real.sinh_sq]
  ring

lemma tanh_half (a : ℝ) : Real.sinh (2 * a) / (Real.cosh (2 * a) + 1) = Real.tanh a := by
  have h := (Real.cosh_pos a).ne'
  rw [cosh_double, Real.sinh_two_mul, Real.tanh_eq_sinh_div_cosh]
  field_simp

lemma testCd2d_rhs_eq (x y : ℝ) :
    testCd2dRhs x y = 0.2 * Real.pi * Real.sin (2 * Real.pi * y) * Real.tanh (Real.pi * x)
      + 4.0 * Real.pi ^ 2 * Real.cos (2 * Real.pi * y) * Real.tanh (Real.pi * x)
      + 2 * Real.pi ^ 2 * Real.cos (2 * Real.pi * y) * Real.tanh (Real.pi * x) * (1 - Real.tanh (Real.pi * x) ^ 2)
      + 0.2 * Real.pi * Real.cos (2 * Real.pi * y) * (1 - Real.tanh (Real.pi * x) ^ 2) := by
  have h1 := tanh_half (Real.pi * x)
  have h2 := tanh_half_sq (Real.pi * x)
  have hpos : (0 : ℝ) < Real.cosh (2 * (Real.pi * x)) + 1 := by
    rw [cosh_double]
    have := Real.cosh_pos (Real.pi * x)
    positivity
  simp only [testCd2dRhs, show 2 * Real.pi * x = 2 * (Real.pi * x) by ring, show (0.2 : ℝ) = 1 / 5 by norm_num,
    show (0.4 : ℝ) = 2 / 5 by norm_num, lit_four]
  rw [h2]
  generalize Real.cosh (2 * (Real.pi * x)) + 1 = c at h1 hpos ⊢
  generalize Real.sinh (2 * (Real.pi * x)) = s at h1 ⊢
  generalize Real.tanh (Real.pi * x) = t at h1 ⊢
  have hc := hpos.ne'
  obtain rfl : s = t * c := (div_eq_iff hc).1 h1
  field_simp
  ring

lemma testCd2d_arithmetic (p t c s : ℝ) :
    -(1 * (p * -(2 * t * (p * (1 - t ^ 2))) * c) + 1 * (t * -(2 * p * (2 * p * c))))
      + (1 / 5 * (p * (1 - t ^ 2) * c) + -(1 / 10) * (t * -(2 * p * s))) + 0 * (t * c)
      = 1 / 5 * p * s * t + 4 * p ^ 2 * c * t + 2 * p ^ 2 * c * t * (1 - t ^ 2) + 1 / 5 * p * c * (1 - t ^ 2) := by
  ring

/-- **C104** (problems).  In each of the forward accuracy tests the exact solution, against which the network is
compared, satisfies the equation that the loss stands for, with the right-hand side and the coefficients of the test. -/
theorem C104_problems :
    (∀ pb ∈ [testPoisson, testPoissonCircle],
      Consistent .poisson pb.bilinearParams [] pb.exactSolution pb.rhs) ∧
    (∀ pb ∈ [testCd2d, testCd2dCircle], Consistent .cd2d pb.bilinearParams [] pb.exactSolution pb.rhs) ∧
    ∀ pb ∈ [testHelmholtz, testHelmholtzCircle],
      Consistent .helmholtz pb.bilinearParams [] pb.exactSolution pb.rhs := by
  have hP : Consistent .poisson [("eps", 1.0)] [] testPoissonExact testPoissonRhs := by
    refine ⟨1.0, (0, 0), 0, fun _ _ => ⟨1.0, ⟨_, rfl, rfl⟩, rfl, rfl, rfl⟩, ?_⟩
    have h : testPoissonRhs
        = fun x y => -2.0 * (4.0 * Real.pi) ^ 2 * (Real.sin (4.0 * Real.pi * x) * Real.sin (4.0 * Real.pi * y)) := by
      funext x y
      simp only [testPoissonRhs, mul_assoc]
    rw [h]
    exact sinSin_solves (4.0 * Real.pi) _
  have hT : ∀ x : ℝ, HasDerivAt (fun s => Real.tanh (Real.pi * s)) (Real.pi * (1 - Real.tanh (Real.pi * x) ^ 2)) x :=
    fun x => ((hasDerivAt_tanh (Real.pi * x)).comp x ((hasDerivAt_id x).const_mul Real.pi)).congr_deriv
      (by simp [mul_comm])
  have hC : Consistent .cd2d [("eps", 1.0), ("b_x", 0.2), ("b_y", -0.1), ("c", 0.0)] [] testCd2dExact testCd2dRhs := by
    refine ⟨1.0, (0.2, -0.1), 0.0, fun _ _ => ⟨1.0, ⟨_, rfl, rfl⟩, rfl, ⟨_, rfl, rfl⟩, ⟨_, rfl, rfl⟩, ⟨_, rfl, rfl⟩⟩,
      solvesOn_of
        (ux := fun z => Real.pi * (1 - Real.tanh (Real.pi * z.1) ^ 2) * Real.cos (2 * Real.pi * z.2))
        (uy := fun z => Real.tanh (Real.pi * z.1) * -(2 * Real.pi * Real.sin (2 * Real.pi * z.2)))
        (fx := fun z => 1.0 * (Real.pi * (-(2 * Real.tanh (Real.pi * z.1)
          * (Real.pi * (1 - Real.tanh (Real.pi * z.1) ^ 2)))) * Real.cos (2 * Real.pi * z.2)))
        (fy := fun z => 1.0 * (Real.tanh (Real.pi * z.1)
          * -(2 * Real.pi * (2 * Real.pi * Real.cos (2 * Real.pi * z.2)))))
        (fun z => (hT z.1).mul_const (Real.cos (2 * Real.pi * z.2)))
        (fun z => (hasDerivAt_cos_mul (2 * Real.pi) z.2).const_mul (Real.tanh (Real.pi * z.1)))
        (fun z => ?_)
        (fun z => ((((hasDerivAt_sin_mul (2 * Real.pi) z.2).const_mul (2 * Real.pi)).fun_neg).const_mul
          (Real.tanh (Real.pi * z.1))).const_mul _)
        (fun z => ?_) _⟩
    · have h : HasDerivAt (fun s => 1 - Real.tanh (Real.pi * s) ^ 2)
          (-(2 * Real.tanh (Real.pi * z.1) * (Real.pi * (1 - Real.tanh (Real.pi * z.1) ^ 2)))) z.1 :=
        (((hT z.1).fun_pow 2).const_sub 1).congr_deriv (by simp)
      exact ((h.const_mul Real.pi).mul_const (Real.cos (2 * Real.pi * z.2))).const_mul _
    · rw [testCd2d_rhs_eq]
      simp only [testCd2dExact, show (0.2 : ℝ) = 1 / 5 by norm_num, lit_zero, lit_one, lit_four, lit_tenth]
      exact testCd2d_arithmetic _ _ _ _
  have hH : Consistent .helmholtz [("eps", 1.0), ("k", 1.0)] [] testHelmholtzExact testHelmholtzRhs := by
    obtain ⟨e, b, r, hc, hs⟩ := C60_helmholtz
    refine ⟨e, b, r, fun nc nq => ?_, hs⟩
    obtain ⟨ep, k, ⟨p, hp, h1⟩, ⟨p', hp', h2⟩, h3⟩ := hc nc nq
    cases hp
    cases hp'
    exact ⟨ep, k, ⟨_, rfl, h1⟩, ⟨_, rfl, h2⟩, h3⟩
  simp only [List.mem_cons, List.not_mem_nil, or_false, forall_eq_or_imp, forall_eq]
  exact ⟨⟨hP, hP⟩, ⟨hC, hC⟩, hH, hH⟩

/-- **C104** (boundary).  Whatever the draws, the boundary data of the tests are the values of the exact solution at the
boundary points: on the unit square for the Poisson problem with zero boundary values, on any mesh for the others. -/
theorem C104_boundary {ext : QuadRoutines} {mp : List (ℝ × ℝ)} {cells : List Quad} {s : FESettings}
    {f : ℝ → ℝ → ℝ} {plot : Bool} {nq : ℕ} {S : Fespace2D (ℝ → ℝ → ℝ) ℝ (s.feOrder.toNat ^ 2) nq} :
    (∀ (g : Geometry2D) (nx ny nb : ℕ) (smp : Fin 4 → Fin (nb / 4) → ℝ), (∀ a k, 0 ≤ smp a k ∧ smp a k ≤ 1) →
      fespace2D ext mp cells (generateQuadMeshInternal g (0, 1) (0, 1) nx ny nb smp).bdDict s
        testPoisson.boundaryFunctionDict f plot = .ok ⟨nq, S⟩ →
      ∃ px py, getDirichletInput S = .ok (px, py) ∧ px.length = 4 * (nb / 4) ∧
        py = px.map fun z => testPoisson.exactSolution z.1 z.2) ∧
    ∀ pb ∈ [testPoissonCircle, testCd2d, testCd2dCircle, testHelmholtz, testHelmholtzCircle], ∀ bd,
      fespace2D ext mp cells bd s pb.boundaryFunctionDict f plot = .ok ⟨nq, S⟩ →
      ∃ px py, getDirichletInput S = .ok (px, py) ∧ px = (taggedPoints bd).map Prod.snd ∧
        py = px.map fun z => pb.exactSolution z.1 z.2 := by
  constructor
  · intro g nx ny nb smp hs h
    have hd : testPoisson.boundaryFunctionDict = UniformPoisson.boundaryFunctionDict := by
      simp only [testPoisson, UniformPoisson.boundaryFunctionDict, List.cons.injEq, Prod.mk.injEq, true_and, and_true]
      refine ⟨?_, ?_, ?_, ?_⟩ <;> funext x y <;>
        norm_num [UniformPoisson.bottomBoundary, UniformPoisson.rightBoundary, UniformPoisson.topBoundary,
          UniformPoisson.leftBoundary]
    rw [hd] at h
    exact C60_uniform_boundary g nx ny nb smp hs h
  · intro pb hpb bd h
    refine ⟨_, _, dirichlet_matches h pb.exactSolution ?_, rfl, by rw [List.map_map]; rfl⟩
    intro tag pt _ g hg
    have key : ∀ l : List (ℤ × (ℝ → ℝ → ℝ)), l.lookup tag = some g → ∃ e ∈ l, e.2 = g := by
      intro l
      induction l with
      | nil => simp
      | cons e l ih =>
        intro hl
        rw [List.lookup_cons] at hl
        split at hl
        · exact ⟨e, by simp, Option.some.inj hl⟩
        · obtain ⟨e', he', h'⟩ := ih hl
          exact ⟨e', by simp [he'], h'⟩
    obtain ⟨e, he, rfl⟩ := key _ hg
    have : ∀ e ∈ pb.boundaryFunctionDict, e.2 = pb.exactSolution := by
      simp only [List.mem_cons, List.not_mem_nil, or_false] at hpb
      rcases hpb with rfl | rfl | rfl | rfl | rfl <;>
        simp [testPoissonCircle, testPoisson, testCd2d, testCd2dCircle, testHelmholtz, testHelmholtzCircle]
    rw [this e he]

/-! ## What is asserted -/

lemma l1_le_l2 (pts : List (ℝ × ℝ)) (hne : pts ≠ []) (u v : ℝ × ℝ → ℝ) (l2 linf l2r linfr l1 l1r tol : ℝ)
    (htol : 0 < tol) (h : ErrorsAt pts u v l2 linf l2r linfr l1 l1r) :
    (l2 < tol ∧ l1 < tol ↔ (pts.map fun p => (u p - v p) ^ 2).sum < tol ^ 2 * pts.length) := by
  have hn : (0 : ℝ) < pts.length := by exact_mod_cast List.length_pos_iff.2 hne
  have hl1 : l1 ≤ l2 := by
    have hcs : ∀ l : List (ℝ × ℝ), (l.map fun p => |u p - v p|).sum ^ 2
        ≤ l.length * (l.map fun p => (u p - v p) ^ 2).sum := by
      intro l
      induction l with
      | nil => simp
      | cons p l ih =>
        simp only [List.map_cons, List.sum_cons, List.length_cons]
        push_cast
        set A := (l.map fun p => |u p - v p|).sum
        set B := (l.map fun p => (u p - v p) ^ 2).sum
        have hB : 0 ≤ B := List.sum_nonneg (by simp only [List.mem_map]; rintro _ ⟨q, -, rfl⟩; positivity)
        have hsq := sq_abs (u p - v p)
        set d := |u p - v p|
        rw [← hsq]
        rcases l.length.eq_zero_or_pos with h0 | h0
        · have hA : A = 0 := by
            have : l = [] := List.length_eq_zero_iff.1 h0
            simp [A, this]
          rw [h0, hA]
          push_cast
          nlinarith
        · have hk : (1 : ℝ) ≤ l.length := by exact_mod_cast h0
          nlinarith [sq_nonneg (A - l.length * d), sq_nonneg d, sq_nonneg A,
            mul_le_mul_of_nonneg_left ih (by linarith : (0 : ℝ) ≤ l.length)]
    have := hcs pts
    rw [← h.mean, ← h.rms] at this
    have h2 : l1 ^ 2 ≤ l2 ^ 2 := by
      have : (pts.length : ℝ) ^ 2 * l1 ^ 2 ≤ (pts.length : ℝ) ^ 2 * l2 ^ 2 := by nlinarith
      exact le_of_mul_le_mul_left this (by positivity)
    exact (le_abs_self l1).trans (abs_le_of_sq_le_sq' h2 h.rms_nonneg |> fun h => abs_le.2 h)
  rw [← h.rms]
  constructor
  · rintro ⟨h1, -⟩
    have : l2 ^ 2 < tol ^ 2 := by
      have := h.rms_nonneg
      nlinarith
    nlinarith
  · intro h1
    have h2 : l2 ^ 2 < tol ^ 2 := by
      rw [mul_comm (tol ^ 2)] at h1
      exact lt_of_mul_lt_mul_left h1 hn.le
    have h3 : l2 < tol := lt_of_pow_lt_pow_left₀ 2 htol.le h2
    exact ⟨h3, hl1.trans_lt h3⟩

/-- How the last part of a test ends. -/
lemma accuracyAssert_iff {α : Type} (mc : Machine) (pb : Problem) (epochs : ℕ) (tol : ℝ) (htol : 0 < tol)
    (checkRate : Bool) (P : Prepared) (M : DriverModel α) (θ : Weights) (value : Weights → ℝ × ℝ → ℝ)
    (pts : List (ℝ × ℝ)) (o' : GeometryObject) (hne : pts ≠ [])
    (hpred : ∀ θ, M.predict θ pts = .ok (pts.map (value θ)))
    (hpts : P.geometry.getTestPoints mc.env P.files = (.ok (.points pts), o', P.files)) :
    (∀ b, accuracyAssert mc pb epochs tol checkRate P M θ = .ok b →
      ∃ outs s, trainEpochs M.step epochs ⟨θ, AdamState.init⟩ = .ok (outs, s) ∧
        (b = true ↔ (pts.map fun p => (pb.exactSolution p.1 p.2 - value s.weights p) ^ 2).sum < tol ^ 2 * pts.length ∧
          (checkRate = true → P.lr.at s.adam.iterations < 0.001))) ∧
    ((checkRate = true → mc.lrNumpy P.lr = .ok ()) → (∃ r, trainEpochs M.step epochs ⟨θ, AdamState.init⟩ = .ok r) →
      ∃ b, accuracyAssert mc pb epochs tol checkRate P M θ = .ok b) := by
  unfold accuracyAssert
  rw [hpts]
  dsimp only
  cases htr : trainEpochs M.step epochs ⟨θ, AdamState.init⟩ with
  | error e => simp
  | ok r =>
    obtain ⟨outs, s⟩ := r
    obtain ⟨l2, linf, l2r, linfr, l1, l1r, hE, herr⟩ := errors_at pts hne (fun p => pb.exactSolution p.1 p.2)
      (value s.weights)
    have hiff := l1_le_l2 pts hne _ _ _ _ _ _ _ _ tol htol herr
    dsimp only
    rw [hpred]
    dsimp only
    rw [hE]
    dsimp only
    by_cases hb : l2 < tol ∧ l1 < tol
    · rw [if_pos hb]
      cases checkRate with
      | false => exact ⟨fun b h => ⟨outs, s, rfl, by simp at h; simp [← h, hiff.1 hb]⟩, fun _ _ => ⟨true, rfl⟩⟩
      | true =>
        simp only [if_true]
        cases hlr : mc.lrNumpy P.lr with
        | error e => exact ⟨fun b h => absurd h (by simp), fun h => absurd (h trivial) (by simp)⟩
        | ok u =>
          refine ⟨fun b h => ⟨outs, s, rfl, ?_⟩, fun _ _ => ⟨_, rfl⟩⟩
          simp only [Except.ok.injEq] at h
          rw [← h, decide_eq_true_iff]
          exact ⟨fun h' => ⟨hiff.1 hb, fun _ => h'⟩, fun h' => h'.2 trivial⟩
    · rw [if_neg hb]
      refine ⟨fun b h => ⟨outs, s, rfl, ?_⟩, fun _ _ => ⟨_, rfl⟩⟩
      simp only [Except.ok.injEq] at h
      rw [← h]
      exact ⟨fun h => absurd h (by simp), fun h => absurd (hiff.2 h.1) hb⟩

/-- The layers `[2, w, w, w, 1]`. -/
lemma threeLayers_specs (w : ℕ) (a : String) :
    layerSpecs [2, w, w, w, 1] a = .ok [⟨w, some a⟩, ⟨w, some a⟩, ⟨w, some a⟩, ⟨1, none⟩] := rfl

lemma run_iterations {α : Type} (fwd : Forward α) (vars : List Var) (lr : LearningRate) (st : ℕ → TrainState)
    (outs : List α) (h0 : (st 0).adam.iterations = 0) (h : IsRun (trainStepWith fwd vars lr) st outs) :
    ∀ k ≤ outs.length, (st k).adam.iterations = k := by
  intro k
  induction k with
  | zero => exact fun _ => h0
  | succ k ih =>
    intro hk
    have hstep := h k hk
    unfold trainStepWith at hstep
    split at hstep
    · exact absurd hstep (by simp)
    · simp only [Except.ok.injEq, Prod.mk.injEq] at hstep
      rw [← hstep.2]
      simp only [applyGradients]
      rw [ih (by omega)]

lemma accuracy_points {α : Type} (mc : Machine) (pb : Problem) (epochs : ℕ) (tol : ℝ) (checkRate : Bool)
    (P : Prepared) (M : DriverModel α) (θ : Weights) (b : Bool) (pts : List (ℝ × ℝ)) (o' : GeometryObject)
    (value : Weights → ℝ × ℝ → ℝ) (hpred : ∀ θ, M.predict θ pts = .ok (pts.map (value θ)))
    (hpts : P.geometry.getTestPoints mc.env P.files = (.ok (.points pts), o', P.files))
    (h : accuracyAssert mc pb epochs tol checkRate P M θ = .ok b) : pts ≠ [] := by
  rintro rfl
  unfold accuracyAssert at h
  rw [hpts] at h
  dsimp only at h
  split at h
  · exact absurd h (by simp)
  rw [hpred] at h
  dsimp only at h
  rw [show computeErrorsCombined (array1 (([] : List (ℝ × ℝ)).map fun p => pb.exactSolution p.1 p.2))
    (array1 (([] : List (ℝ × ℝ)).map (value _))) = .error .valueError from by
      simp [computeErrorsCombined, computeL2Error, computeLinfError, NDArray.flatten, array1,
        npSub, bind, Except.bind, show npMax [] = .error .valueError from rfl]] at h
  exact absurd h (by simp)

/-- **C104** (tests on the square).  A test on the square that ends without an exception other than an
`AssertionError` has trained the network with widths 2, 30, 30, 30, 1 with the loss, tensors, boundary data and learning
rate assembled from its settings for the cells of the generated mesh; it passes exactly if the mean square difference of
the trained network and the exact solution over the tensor grid of test points is below the square of the tolerance -
the second condition, on the mean absolute difference, never decides - and, where the learning rate is checked, the rate
after all steps is below 0.001. -/
theorem C104_uniform (mc : Machine) (pb : Problem) (cfg : ForwardConfig) (tol : ℝ) (htol : 0 < tol) (checkRate : Bool)
    (sample : Fin 4 → Fin (cfg.nBoundaryPoints / 4) → ℝ) (θ : Weights) (files : Files) (passed : Bool)
    (hint : cfg.meshGenerationMethod = "internal") (hatt : cfg.useAttention = false)
    (h : accuracyUniform mc pb cfg tol checkRate sample θ files = .ok passed) :
    ∃ (o o' : GeometryObject) (files' : Files) (cells : List Quad) (bd : List (ℤ × List (List ℝ)))
      (mp : List (ℝ × ℝ)) (nq : ℕ) (S S' : Fespace2D (ℝ → ℝ → ℝ) ℝ (cfg.feOrder.toNat ^ 2) nq)
      (D : DataHandler2D (cfg.feOrder.toNat ^ 2) nq) (bdv : List (ℝ × ℝ) × List ℝ) (specs : List LayerSpec)
      (lr : LearningRate) (pts : List (ℝ × ℝ)) (st : ℕ → TrainState) (outs : List (TrainOut 1)),
      newGeometry cfg.meshType "internal" cfg.nTestPointsX cfg.nTestPointsY cfg.outputPath false = .ok o ∧
      o.generateInternal mc.env files (cfg.xMin, cfg.xMax) (cfg.yMin, cfg.yMax) cfg.nCellsX cfg.nCellsY
        cfg.nBoundaryPoints sample = (.ok (.mesh cells bd), o', files') ∧
      Assembled mc cfg pb [2, 30, 30, 30, 1] mp cells (bdPairs bd) S S' D bdv specs ∧
      learningRateFn cfg.learningRate = .ok lr ∧
      IsTensorGrid (cfg.xMin, cfg.xMax) (cfg.yMin, cfg.yMax) cfg.nTestPointsX cfg.nTestPointsY pts ∧ pts ≠ [] ∧
      st 0 = ⟨θ, AdamState.init⟩ ∧ outs.length = cfg.epochs ∧
      IsRun (trainStepWith (forwardDense (pb.loss D.nCells _ nq) (modelDataOf D bdv cells.length) mc.act
        mc.attention false 2 specs 1 cfg.beta (some pb.bilinearParams)) (trainableVariables 2 specs []) lr) st outs ∧
      (passed = true ↔
        (pts.map fun p => (pb.exactSolution p.1 p.2
          - networkValue (mc.act cfg.activation) [2, 30, 30, 30, 1] (st cfg.epochs).weights p) ^ 2).sum
          < tol ^ 2 * pts.length ∧
        (checkRate = true → lr.at cfg.epochs < 0.001)) := by
  unfold accuracyUniform at h
  split at h
  · exact absurd h (by simp)
  rename_i P hP
  obtain ⟨o, o', files', cells, bd, mp, nq, S, S', D, bdv, lr, specs, inDim, pts, o'', -, h1, h2, h3, h4, h5, rfl,
    h7, h8⟩ := prepareUniform_ok mc cfg pb _ _ sample files P hint hP
  obtain rfl : 2 = inDim := Except.ok.inj h5
  obtain rfl : specs = [⟨30, some cfg.activation⟩, ⟨30, some cfg.activation⟩, ⟨30, some cfg.activation⟩, ⟨1, none⟩] :=
    Except.ok.inj (h3.layers.symm.trans (threeLayers_specs 30 cfg.activation))
  have hpred := dense_predict ⟨_, nq, D, bdv, cells.length, 2, [⟨30, some cfg.activation⟩, ⟨30, some cfg.activation⟩,
    ⟨30, some cfg.activation⟩, ⟨1, none⟩], lr, o', files'⟩ mc cfg pb [2, 30, 30, 30, 1] (by simp [hatt]) rfl (by decide)
    (threeLayers_specs 30 cfg.activation) rfl rfl pts
  have hne := accuracy_points mc pb _ tol checkRate _ _ θ passed pts o'' _ hpred h8 h
  obtain ⟨outs, s, htr, hR⟩ := (accuracyAssert_iff mc pb _ tol htol checkRate _ _ θ _ pts o'' hne hpred h8).1 passed h
  obtain ⟨hlen, st, hrun, h0, hend⟩ := (trainEpochs_iff _ _ _ _ _).1 htr
  have hrun' : IsRun (trainStepWith (forwardDense (pb.loss D.nCells _ nq) (modelDataOf D bdv cells.length) mc.act
        mc.attention false 2 [⟨30, some cfg.activation⟩, ⟨30, some cfg.activation⟩, ⟨30, some cfg.activation⟩, ⟨1, none⟩]
        1 cfg.beta (some pb.bilinearParams)) (trainableVariables 2 [⟨30, some cfg.activation⟩, ⟨30, some cfg.activation⟩,
          ⟨30, some cfg.activation⟩, ⟨1, none⟩] []) lr) st outs := by
    intro k hk
    have := hrun k hk
    simp only [Prepared.dense, if_true, hatt] at this
    rw [show paramsAsTensors pb.bilinearParams = pb.bilinearParams by simp [paramsAsTensors]] at this
    exact this
  have hit : (st cfg.epochs).adam.iterations = cfg.epochs :=
    run_iterations _ _ _ _ _ (by rw [h0]; rfl) hrun' _ hlen.ge
  refine ⟨o, o', files', cells, bd, mp, nq, S, S', D, bdv, _, lr, pts, st, outs, hint ▸ h1, h2, h3, h4, h7, hne, h0,
    hlen, hrun', ?_⟩
  rw [← hend, hit] at hR
  simp only [batchValue, hatt] at hR
  exact hR

/-- **C104** (test with hard constraints).  The same for the test with hard constraints: it compares the trained network
times the factor that vanishes on the boundary of the square. -/
theorem C104_hard (mc : Machine) (pb : Problem) (cfg : ForwardConfig) (tol : ℝ) (htol : 0 < tol)
    (sample : Fin 4 → Fin (cfg.nBoundaryPoints / 4) → ℝ) (θ : Weights) (files : Files) (passed : Bool)
    (hint : cfg.meshGenerationMethod = "internal") (hatt : cfg.useAttention = false)
    (h : accuracyHard mc pb cfg tol sample θ files = .ok passed) :
    ∃ (o o' : GeometryObject) (files' : Files) (cells : List Quad) (bd : List (ℤ × List (List ℝ)))
      (mp : List (ℝ × ℝ)) (nq : ℕ) (S S' : Fespace2D (ℝ → ℝ → ℝ) ℝ (cfg.feOrder.toNat ^ 2) nq)
      (D : DataHandler2D (cfg.feOrder.toNat ^ 2) nq) (bdv : List (ℝ × ℝ) × List ℝ) (specs : List LayerSpec)
      (lr : LearningRate) (pts : List (ℝ × ℝ)) (st : ℕ → TrainState) (outs : List TrainOutHard),
      newGeometry cfg.meshType "internal" cfg.nTestPointsX cfg.nTestPointsY cfg.outputPath false = .ok o ∧
      o.generateInternal mc.env files (cfg.xMin, cfg.xMax) (cfg.yMin, cfg.yMax) cfg.nCellsX cfg.nCellsY
        cfg.nBoundaryPoints sample = (.ok (.mesh cells bd), o', files') ∧
      Assembled mc cfg pb [2, 30, 30, 30, 1] mp cells (bdPairs bd) S S' D bdv specs ∧
      learningRateFnStaircase cfg.learningRate = .ok lr ∧
      IsTensorGrid (cfg.xMin, cfg.xMax) (cfg.yMin, cfg.yMax) cfg.nTestPointsX cfg.nTestPointsY pts ∧ pts ≠ [] ∧
      st 0 = ⟨θ, AdamState.init⟩ ∧ outs.length = cfg.epochs ∧
      IsRun (trainStepWith (forwardHard (pb.loss D.nCells _ nq) (modelDataOf D bdv cells.length) mc.act
        mc.attention false 2 specs 1 cfg.beta (some pb.bilinearParams) applyHardBoundaryConstraints)
        (trainableVariables 2 specs []) lr) st outs ∧
      (passed = true ↔
        (pts.map fun p => (pb.exactSolution p.1 p.2
          - squareFactor p * networkValue (mc.act cfg.activation) [2, 30, 30, 30, 1] (st cfg.epochs).weights p) ^ 2).sum
          < tol ^ 2 * pts.length) := by
  unfold accuracyHard at h
  split at h
  · exact absurd h (by simp)
  rename_i P hP
  obtain ⟨o, o', files', cells, bd, mp, nq, S, S', D, bdv, lr, specs, inDim, pts, o'', -, h1, h2, h3, h4, h5, rfl,
    h7, h8⟩ := prepareUniform_ok mc cfg pb _ _ sample files P hint hP
  obtain rfl : 2 = inDim := Except.ok.inj h5
  obtain rfl : specs = [⟨30, some cfg.activation⟩, ⟨30, some cfg.activation⟩, ⟨30, some cfg.activation⟩, ⟨1, none⟩] :=
    Except.ok.inj (h3.layers.symm.trans (threeLayers_specs 30 cfg.activation))
  have hpred := hard_predict ⟨_, nq, D, bdv, cells.length, 2, [⟨30, some cfg.activation⟩, ⟨30, some cfg.activation⟩,
    ⟨30, some cfg.activation⟩, ⟨1, none⟩], lr, o', files'⟩ mc cfg pb [2, 30, 30, 30, 1] (by simp [hatt]) rfl (by decide)
    (threeLayers_specs 30 cfg.activation) rfl rfl pts
  have hne := accuracy_points mc pb _ tol false _ _ θ passed pts o''
    (fun w p => squareFactor p * batchValue cfg.useAttention pts (mc.act cfg.activation) [2, 30, 30, 30, 1] w p) hpred h8 h
  obtain ⟨outs, s, htr, hR⟩ := (accuracyAssert_iff mc pb _ tol htol false _ _ θ
    (fun w p => squareFactor p * batchValue cfg.useAttention pts (mc.act cfg.activation) [2, 30, 30, 30, 1] w p)
    pts o'' hne hpred h8).1 passed h
  obtain ⟨hlen, st, hrun, h0, hend⟩ := (trainEpochs_iff _ _ _ _ _).1 htr
  refine ⟨o, o', files', cells, bd, mp, nq, S, S', D, bdv, _, lr, pts, st, outs, hint ▸ h1, h2, h3, h4, h7, hne, h0,
    hlen, ?_, ?_⟩
  · intro k hk
    have := hrun k hk
    simp only [Prepared.hard, if_true, hatt] at this
    rw [show paramsAsTensors pb.bilinearParams = pb.bilinearParams by simp [paramsAsTensors]] at this
    exact this
  · rw [← hend] at hR
    simp only [batchValue, hatt, Bool.false_eq_true, false_imp_iff, and_true] at hR
    exact hR

/-- **C104** (tests on the disc).  The same for a test on an external mesh: the network with widths 2, 50, 50, 50, 1 is
trained on the cells of the file and compared with the exact solution at the vertices of the mesh. -/
theorem C104_external (mc : Machine) (pb : Problem) (cfg : ForwardConfig) (tol : ℝ) (htol : 0 < tol)
    (lhs : ℕ → Fin (2 ^ cfg.boundaryRefinementLevel + 1) → ℝ × ℝ) (θ : Weights) (files : Files) (passed : Bool)
    (hext : cfg.meshGenerationMethod = "external") (hatt : cfg.useAttention = false)
    (hvtk : ∀ m, mc.env.read files cfg.meshFileName = .ok m → VtkRoundTrip mc.env m)
    (h : accuracyExternal mc pb cfg tol lhs θ files = .ok passed) :
    ∃ (m : MeshioMesh) (cells : List Quad) (bd : List (ℤ × List (List ℝ)))
      (mp : List (ℝ × ℝ)) (nq : ℕ) (S S' : Fespace2D (ℝ → ℝ → ℝ) ℝ (cfg.feOrder.toNat ^ 2) nq)
      (D : DataHandler2D (cfg.feOrder.toNat ^ 2) nq) (bdv : List (ℝ × ℝ) × List ℝ) (specs : List LayerSpec)
      (lr : LearningRate) (st : ℕ → TrainState) (outs : List (TrainOut 1)),
      mc.env.read files cfg.meshFileName = .ok m ∧
      readMesh (mc.env.read files) cfg.meshFileName cfg.boundaryRefinementLevel cfg.boundarySamplingMethod lhs
        = .ok (cells, bd) ∧
      Assembled mc cfg pb [2, 50, 50, 50, 1] mp cells (bdPairs bd) S S' D bdv specs ∧
      learningRateFn cfg.learningRate = .ok lr ∧ planePoints m ≠ [] ∧
      st 0 = ⟨θ, AdamState.init⟩ ∧ outs.length = cfg.epochs ∧
      IsRun (trainStepWith (forwardDense (pb.loss D.nCells _ nq) (modelDataOf D bdv cells.length) mc.act
        mc.attention false 2 specs 1 cfg.beta (some pb.bilinearParams)) (trainableVariables 2 specs []) lr) st outs ∧
      (passed = true ↔
        ((planePoints m).map fun p => (pb.exactSolution p.1 p.2
          - networkValue (mc.act cfg.activation) [2, 50, 50, 50, 1] (st cfg.epochs).weights p) ^ 2).sum
          < tol ^ 2 * (planePoints m).length) := by
  unfold accuracyExternal at h
  split at h
  · exact absurd h (by simp)
  rename_i P hP
  obtain ⟨o', m, cells, bd, mp, nq, S, S', D, bdv, lr, specs, inDim, -, h1, h2, h3, h4, h5, h6, rfl, -, -, h8, -⟩ :=
    prepareExternal_ok mc cfg pb _ lhs files P hext hvtk hP
  obtain rfl : 2 = inDim := Except.ok.inj h6
  obtain rfl : specs = [⟨50, some cfg.activation⟩, ⟨50, some cfg.activation⟩, ⟨50, some cfg.activation⟩, ⟨1, none⟩] :=
    Except.ok.inj (h4.layers.symm.trans (threeLayers_specs 50 cfg.activation))
  have hpred := dense_predict ⟨_, nq, D, bdv, cells.length, 2, [⟨50, some cfg.activation⟩, ⟨50, some cfg.activation⟩,
    ⟨50, some cfg.activation⟩, ⟨1, none⟩], lr, o',
      writeFile files (mc.env.join cfg.outputPath "external.vtk") (mc.env.vtk m)⟩ mc cfg pb [2, 50, 50, 50, 1]
    (by simp [hatt]) rfl (by decide) (threeLayers_specs 50 cfg.activation) rfl rfl (planePoints m)
  have hne := accuracy_points mc pb _ tol false _ _ θ passed _ o' _ hpred h8 h
  obtain ⟨outs, s, htr, hR⟩ := (accuracyAssert_iff mc pb _ tol htol false _ _ θ _ _ o' hne hpred h8).1 passed h
  obtain ⟨hlen, st, hrun, h0, hend⟩ := (trainEpochs_iff _ _ _ _ _).1 htr
  refine ⟨m, cells, bd, mp, nq, S, S', D, bdv, _, lr, st, outs, h2, h3, h4, h5, hne, h0, hlen, ?_, ?_⟩
  · intro k hk
    have := hrun k hk
    simp only [Prepared.dense, if_true, hatt] at this
    rw [show paramsAsTensors pb.bilinearParams = pb.bilinearParams by simp [paramsAsTensors]] at this
    exact this
  · rw [← hend] at hR
    simp only [batchValue, hatt, Bool.false_eq_true, false_imp_iff, and_true] at hR
    exact hR

/-- **C104** (learning rate).  The check of the learning rate in the test with the scheduler holds exactly if at least
1000 steps have been done, hence for the 6500 of the test; the rate itself is `0.001 · 0.99 ^ ⌊steps / 1000⌋`. -/
theorem C104_rate : ∃ lr, learningRateFn (testLearningRate true) = .ok lr ∧
    ∀ steps : ℕ, lr.at steps = 0.001 * 0.99 ^ (steps / 1000) ∧ (lr.at steps < 0.001 ↔ 1000 ≤ steps) := by
  refine ⟨.exponentialDecay 0.001 1000 0.99 true, rfl, fun steps => ?_⟩
  have hv : LearningRate.at (.exponentialDecay 0.001 1000 0.99 true) steps = 0.001 * 0.99 ^ (steps / 1000) := by
    have : ⌊(steps : ℝ) / 1000⌋ = ((steps / 1000 : ℕ) : ℤ) := by
      rw [show ((1000 : ℝ)) = ((1000 : ℕ) : ℝ) by norm_num, Int.floor_div_natCast, Int.floor_natCast]
      rfl
    simp only [LearningRate.at, this, zpow_natCast]
  refine ⟨hv, ?_⟩
  rw [hv]
  constructor
  · intro h
    by_contra hlt
    rw [Nat.div_eq_of_lt (by omega)] at h
    norm_num at h
  · intro h
    have : (0.99 : ℝ) ^ (steps / 1000) < 1 := pow_lt_one₀ (by norm_num) (by norm_num) (by omega)
    nlinarith

/-- **C104** (no other end, square).  With settings valid for the script on the rectangle, a test on the square ends by
passing or with an `AssertionError`, never with another exception, whatever the draws and the initial weights; where the
learning rate is checked, if the optimizer can give it. -/
theorem C104_square_completes (mc : Machine) (pb : Problem) (cfg : ForwardConfig) (kind : LossKind) (hk : kind.forward)
    (hloss : ∀ nc nt nq, pb.loss nc nt nq = lossOf kind nc nt nq)
    (hmsh : ∀ x y hx hy, ∃ m, mc.env.parseMsh (mc.env.gmsh x y hx hy) = .ok m)
    (hint : cfg.meshGenerationMethod = "internal") (hatt : cfg.useAttention = false) (checkRate : Bool)
    (hlr : checkRate = true → ∀ lr, mc.lrNumpy lr = .ok ()) (tol : ℝ) (htol : 0 < tol)
    (sample : Fin 4 → Fin (cfg.nBoundaryPoints / 4) → ℝ) (θ : Weights) (files : Files) :
    (ValidSetup pb cfg kind ["initial_learning_rate", "use_lr_scheduler", "decay_steps", "decay_rate"] →
      ∃ passed, accuracyUniform mc pb cfg tol checkRate sample θ files = .ok passed) ∧
    (ValidSetup pb cfg kind ["initial_learning_rate", "use_lr_scheduler", "decay_steps", "decay_rate", "staircase"] →
      ∃ passed, accuracyHard mc pb cfg tol sample θ files = .ok passed) := by
  constructor
  · intro hv
    obtain ⟨P, hP⟩ := (prepareUniform_iff mc cfg pb [2, 30, 30, 30, 1] (by decide) learningRateFn sample files hint
      hmsh).2 ⟨hv.dtype, hv.meshType, hv.nCells, ⟨by have := hv.testPoints.1; omega, by have := hv.testPoints.2; omega⟩,
      hv.feOrder, hv.feType, hv.quadOrder, hv.quadType, hv.boundary, hv.plot,
      (C50_keys cfg.learningRate).2.2 hv.learningRate⟩
    unfold accuracyUniform
    rw [hP]
    dsimp only
    obtain ⟨o, o', files', cells, bd, mp, nq, S, S', D, bdv, lr, specs, inDim, pts, o'', -, h1, h2, h3, h4, h5, rfl,
      h7, h8⟩ := prepareUniform_ok mc cfg pb _ _ sample files P hint hP
    obtain rfl : 2 = inDim := Except.ok.inj h5
    obtain rfl : specs = [⟨30, some cfg.activation⟩, ⟨30, some cfg.activation⟩, ⟨30, some cfg.activation⟩, ⟨1, none⟩] :=
      Except.ok.inj (h3.layers.symm.trans (threeLayers_specs 30 cfg.activation))
    have hne : pts ≠ [] := by
      rw [← List.length_pos_iff, h7.1]
      exact Nat.mul_pos (by have := hv.testPoints.1; omega) (by have := hv.testPoints.2; omega)
    have hpred := dense_predict ⟨_, nq, D, bdv, cells.length, 2, [⟨30, some cfg.activation⟩, ⟨30, some cfg.activation⟩,
      ⟨30, some cfg.activation⟩, ⟨1, none⟩], lr, o', files'⟩ mc cfg pb [2, 30, 30, 30, 1] (by simp [hatt]) rfl
      (by decide) (threeLayers_specs 30 cfg.activation) rfl rfl pts
    refine (accuracyAssert_iff mc pb _ tol htol checkRate _ _ θ _ pts o'' hne hpred h8).2 (fun h => hlr h _)
      (trainEpochs_succeeds _ (fun s => ?_) _ _)
    obtain ⟨pt, hpt, -⟩ := C76_losses mc pb cfg kind hk hloss [2, 30, 30, 30, 1] (by decide) rfl rfl mp cells
      (bdPairs bd) nq S S' D bdv _ h3 lr
    simp only [Prepared.dense, if_true]
    rw [show paramsAsTensors pb.bilinearParams = pb.bilinearParams by simp [paramsAsTensors]]
    exact (dense_step_iff _ kind hk (hloss _ _ _) _ pt hpt _ _ _ _ _ _ _ _ s).2
      ((coefficients_exist kind hk pb.bilinearParams D.nCells nq).2 hv.parameters)
  · intro hv
    obtain ⟨P, hP⟩ := (prepareUniform_iff mc cfg pb [2, 30, 30, 30, 1] (by decide) learningRateFnStaircase sample files
      hint hmsh).2 ⟨hv.dtype, hv.meshType, hv.nCells,
      ⟨by have := hv.testPoints.1; omega, by have := hv.testPoints.2; omega⟩, hv.feOrder, hv.feType, hv.quadOrder,
      hv.quadType, hv.boundary, hv.plot, (C50_keys_staircase cfg.learningRate).2.2 hv.learningRate⟩
    unfold accuracyHard
    rw [hP]
    dsimp only
    obtain ⟨o, o', files', cells, bd, mp, nq, S, S', D, bdv, lr, specs, inDim, pts, o'', -, h1, h2, h3, h4, h5, rfl,
      h7, h8⟩ := prepareUniform_ok mc cfg pb _ _ sample files P hint hP
    obtain rfl : 2 = inDim := Except.ok.inj h5
    obtain rfl : specs = [⟨30, some cfg.activation⟩, ⟨30, some cfg.activation⟩, ⟨30, some cfg.activation⟩, ⟨1, none⟩] :=
      Except.ok.inj (h3.layers.symm.trans (threeLayers_specs 30 cfg.activation))
    have hne : pts ≠ [] := by
      rw [← List.length_pos_iff, h7.1]
      exact Nat.mul_pos (by have := hv.testPoints.1; omega) (by have := hv.testPoints.2; omega)
    have hpred := hard_predict ⟨_, nq, D, bdv, cells.length, 2, [⟨30, some cfg.activation⟩, ⟨30, some cfg.activation⟩,
      ⟨30, some cfg.activation⟩, ⟨1, none⟩], lr, o', files'⟩ mc cfg pb [2, 30, 30, 30, 1] (by simp [hatt]) rfl
      (by decide) (threeLayers_specs 30 cfg.activation) rfl rfl pts
    refine (accuracyAssert_iff mc pb _ tol htol false _ _ θ
      (fun w p => squareFactor p * batchValue cfg.useAttention pts (mc.act cfg.activation) [2, 30, 30, 30, 1] w p) pts
      o'' hne hpred h8).2 (fun h => absurd h (by simp)) (trainEpochs_succeeds _ (fun s => ?_) _ _)
    obtain ⟨pt, hpt, -⟩ := C76_hard_losses mc pb cfg kind hk hloss [2, 30, 30, 30, 1] (by decide) rfl rfl mp
      cells (bdPairs bd) nq S S' D bdv _ h3 lr
    simp only [Prepared.hard, if_true]
    rw [show paramsAsTensors pb.bilinearParams = pb.bilinearParams by simp [paramsAsTensors]]
    exact (hard_step_iff _ kind hk (hloss _ _ _) _ pt hpt _ _ _ _ _ _ _ _ _ s).2
      ((coefficients_exist kind hk pb.bilinearParams D.nCells nq).2 hv.parameters)

/-- **C104** (no other end, disc).  The same on a mesh file that can be read. -/
theorem C104_disc_completes (mc : Machine) (pb : Problem) (cfg : ForwardConfig) (kind : LossKind) (hk : kind.forward)
    (hloss : ∀ nc nt nq, pb.loss nc nt nq = lossOf kind nc nt nq)
    (hext : cfg.meshGenerationMethod = "external") (hatt : cfg.useAttention = false) (tol : ℝ) (htol : 0 < tol)
    (lhs : ℕ → Fin (2 ^ cfg.boundaryRefinementLevel + 1) → ℝ × ℝ) (θ : Weights) (files : Files)
    (hvtk : ∀ m, mc.env.read files cfg.meshFileName = .ok m → VtkRoundTrip mc.env m)
    (cells : List Quad) (bd : List (ℤ × List (List ℝ)))
    (hread : readMesh (mc.env.read files) cfg.meshFileName cfg.boundaryRefinementLevel cfg.boundarySamplingMethod lhs
      = .ok (cells, bd))
    (hv : ValidExternal pb cfg kind ["initial_learning_rate", "use_lr_scheduler", "decay_steps", "decay_rate"]
      [2, 50, 50, 50, 1] cells bd) :
    ∃ passed, accuracyExternal mc pb cfg tol lhs θ files = .ok passed := by
  obtain ⟨P, hP⟩ := (prepareExternal_iff mc cfg pb [2, 50, 50, 50, 1] (by decide) lhs files hext).2
    ⟨hv.dtype, hv.meshType, cells, bd, hread, ⟨hv.cells, hv.feOrder, hv.feType, hv.quadOrder, hv.quadType, hv.boundary⟩,
      hv.plot, (C50_keys cfg.learningRate).2.2 hv.learningRate⟩
  unfold accuracyExternal
  rw [hP]
  dsimp only
  obtain ⟨o', m, cells', bd', mp, nq, S, S', D, bdv, lr, specs, inDim, -, h1, h2, h3, h4, h5, h6, rfl, -, -, h8, h10⟩ :=
    prepareExternal_ok mc cfg pb _ lhs files P hext hvtk hP
  obtain ⟨rfl, rfl⟩ := Prod.mk.inj (Except.ok.inj (hread.symm.trans h3))
  obtain rfl : 2 = inDim := Except.ok.inj h6
  obtain rfl : specs = [⟨50, some cfg.activation⟩, ⟨50, some cfg.activation⟩, ⟨50, some cfg.activation⟩, ⟨1, none⟩] :=
    Except.ok.inj (h4.layers.symm.trans (threeLayers_specs 50 cfg.activation))
  have hne : planePoints m ≠ [] := by
    obtain ⟨c, hc⟩ := List.exists_mem_of_ne_nil _ hv.cells
    exact List.ne_nil_of_mem (h10 c hc 0)
  have hpred := dense_predict ⟨_, nq, D, bdv, cells.length, 2, [⟨50, some cfg.activation⟩, ⟨50, some cfg.activation⟩,
    ⟨50, some cfg.activation⟩, ⟨1, none⟩], lr, o',
      writeFile files (mc.env.join cfg.outputPath "external.vtk") (mc.env.vtk m)⟩ mc cfg pb [2, 50, 50, 50, 1]
    (by simp [hatt]) rfl (by decide) (threeLayers_specs 50 cfg.activation) rfl rfl (planePoints m)
  refine (accuracyAssert_iff mc pb _ tol htol false _ _ θ _ _ o' hne hpred h8).2 (fun h => absurd h (by simp))
    (trainEpochs_succeeds _ (fun s => ?_) _ _)
  obtain ⟨pt, hpt, -⟩ := C76_losses mc pb cfg kind hk hloss [2, 50, 50, 50, 1] (by decide) rfl rfl mp cells
    (bdPairs bd) nq S S' D bdv _ h4 lr
  simp only [Prepared.dense, if_true]
  rw [show paramsAsTensors pb.bilinearParams = pb.bilinearParams by simp [paramsAsTensors]]
  exact (dense_step_iff _ kind hk (hloss _ _ _) _ pt hpt _ _ _ _ _ _ _ _ s).2
    ((coefficients_exist kind hk pb.bilinearParams D.nCells nq).2 hv.parameters)

/-- The problems of the tests on the square, with their losses, conditions and coefficients. -/
lemma testProblems : ∀ pb ∈ [testPoisson, testCd2d, testHelmholtz, testPoissonCircle, testCd2dCircle,
      testHelmholtzCircle],
    ∃ kind : LossKind, kind.forward ∧ (∀ nc nt nq, pb.loss nc nt nq = lossOf kind nc nt nq) ∧
      (∀ k ∈ requiredParams kind, ∃ v, pb.bilinearParams.lookup k = some v) ∧
      ∃ g, pb.boundaryFunctionDict.lookup 1000 = some g := by
  intro pb hpb
  simp only [List.mem_cons, List.not_mem_nil, or_false] at hpb
  rcases hpb with rfl | rfl | rfl | rfl | rfl | rfl
  · exact ⟨.poisson, by simp [LossKind.forward], fun _ _ _ => rfl, by simp [requiredParams, testPoisson, List.lookup],
      _, rfl⟩
  · exact ⟨.cd2d, by simp [LossKind.forward], fun _ _ _ => rfl, by simp [requiredParams, testCd2d, List.lookup], _, rfl⟩
  · exact ⟨.helmholtz, by simp [LossKind.forward], fun _ _ _ => rfl,
      by simp [requiredParams, testHelmholtz, List.lookup], _, rfl⟩
  · exact ⟨.poisson, by simp [LossKind.forward], fun _ _ _ => rfl,
      by simp [requiredParams, testPoissonCircle, testPoisson, List.lookup], _, rfl⟩
  · exact ⟨.cd2d, by simp [LossKind.forward], fun _ _ _ => rfl,
      by simp [requiredParams, testCd2dCircle, testCd2d, List.lookup], _, rfl⟩
  · exact ⟨.helmholtz, by simp [LossKind.forward], fun _ _ _ => rfl,
      by simp [requiredParams, testHelmholtzCircle, testHelmholtz, List.lookup], _, rfl⟩

/-- **C104** (the tests as they are).  With the literals of the tests - any positive number of cells per side, any number
of epochs, any supported test functions, quadrature and precision, any activation - the tests on the square end by
passing or with an `AssertionError`; so do the tests on the disc if the mesh file can be read, has a cell, and has no
boundary tag but 1000. -/
theorem C104_shipped (mc : Machine) (tol : ℝ) (htol : 0 < tol) (epochs : ℕ) (dtype : String)
    (hd : dtype = "float64" ∨ dtype = "float32") (θ : Weights) (files : Files) :
    (∀ (n : ℕ) (feType quadType activation : String) (scheduler checkRate : Bool) (sample : Fin 4 → Fin (500 / 4) → ℝ),
      (∀ x y hx hy, ∃ m, mc.env.parseMsh (mc.env.gmsh x y hx hy) = .ok m) → 0 < n →
      feType ∈ ["legendre", "jacobi", "legendre_special", "chebyshev_2", "jacobi_plain"] →
      quadType = "gauss-legendre" ∨ quadType = "gauss-jacobi" →
      (checkRate = true → ∀ lr, mc.lrNumpy lr = .ok ()) →
      (∀ pb ∈ [testPoisson, testCd2d, testHelmholtz], ∃ passed, accuracyUniform mc pb
        (testSquare n epochs feType quadType activation dtype scheduler) tol checkRate sample θ files = .ok passed) ∧
      ∃ passed, accuracyHard mc testPoisson (testSquare n epochs feType quadType activation dtype scheduler) tol sample θ
        files = .ok passed) ∧
    ∀ (lhs : ℕ → Fin (2 ^ 2 + 1) → ℝ × ℝ) (cells : List Quad) (pts : List (List ℝ)),
      (∀ m, mc.env.read files "tests/support_files/circle_quad.mesh" = .ok m → VtkRoundTrip mc.env m) →
      readMesh (mc.env.read files) "tests/support_files/circle_quad.mesh" 2 "uniform" lhs = .ok (cells, [(1000, pts)]) →
      cells ≠ [] →
      ∀ pb ∈ [testPoissonCircle, testCd2dCircle, testHelmholtzCircle],
        ∃ passed, accuracyExternal mc pb (testDisc epochs dtype) tol lhs θ files = .ok passed := by
  constructor
  · intro n feType quadType activation scheduler checkRate sample hmsh hn hfe hq hlr
    have hb : ∀ pb ∈ [testPoisson, testCd2d, testHelmholtz], 4 ≤ 500 → ∀ tag ∈ [(1000 : ℤ), 1001, 1002, 1003],
        ∃ g, pb.boundaryFunctionDict.lookup tag = some g := by
      simp [testPoisson, testCd2d, testHelmholtz, List.lookup]
    have hkeys : ∀ k ∈ ["initial_learning_rate", "use_lr_scheduler", "decay_steps", "decay_rate", "staircase"],
        ∃ v, (testLearningRate scheduler).lookup k = some v := by
      simp [testLearningRate, List.lookup]
    have hv : ∀ pb ∈ [testPoisson, testCd2d, testHelmholtz], ∀ kind : LossKind,
        (∀ k ∈ requiredParams kind, ∃ v, pb.bilinearParams.lookup k = some v) → ∀ keys : List String,
        (∀ k ∈ keys, k ∈ ["initial_learning_rate", "use_lr_scheduler", "decay_steps", "decay_rate", "staircase"]) →
        ValidSetup pb (testSquare n epochs feType quadType activation dtype scheduler) kind keys :=
      fun pb hpb kind hpar keys hk => ⟨hd, rfl, ⟨hn, hn⟩, ⟨by simp [testSquare], by simp [testSquare]⟩,
        ⟨by simp [testSquare], by simp [testSquare]⟩, hfe, ⟨by simp [testSquare], by simp [testSquare]⟩, hq, hb pb hpb,
        fun _ => by simp [testSquare], fun k h => hkeys k (hk k h), hpar⟩
    constructor
    · intro pb hpb
      obtain ⟨kind, hk, hloss, hpar, -⟩ := testProblems pb (by
        simp only [List.mem_cons, List.not_mem_nil, or_false] at hpb ⊢
        tauto)
      exact (C104_square_completes mc pb (testSquare n epochs feType quadType activation dtype scheduler) kind hk hloss
        hmsh rfl rfl checkRate hlr tol htol sample θ files).1 (hv pb hpb kind hpar _ (by simp))
    · obtain ⟨kind, hk, hloss, hpar, -⟩ := testProblems testPoisson (by simp)
      exact (C104_square_completes mc testPoisson (testSquare n epochs feType quadType activation dtype scheduler) kind
        hk hloss hmsh rfl rfl false (by simp) tol htol sample θ files).2 (hv _ (by simp) kind hpar _ (by simp))
  · intro lhs cells pts hvtk hread hc pb hpb
    obtain ⟨kind, hk, hloss, hpar, hg⟩ := testProblems pb (by
      simp only [List.mem_cons, List.not_mem_nil, or_false] at hpb ⊢
      tauto)
    refine C104_disc_completes mc pb (testDisc epochs dtype) kind hk hloss rfl rfl tol htol lhs θ files hvtk cells
      [(1000, pts)] hread ⟨hd, rfl, hc, ?_, ?_, ?_, .inr rfl, ?_, ?_, ?_, hpar, by decide, rfl, rfl⟩
    · simp [testDisc]
    · simp [testDisc, testSquare]
    · simp [testDisc]
    · simpa using fun _ => hg
    · simp [testDisc, testSquare]
    · simp [testDisc, testSquare, testLearningRate, List.lookup]

/-- The hypotheses are met by the test with the scheduler (`test_accuracy_poisson.py:304-399`, here for any number of
epochs from 1000 on): it ends, and the learning rate does not decide. -/
example (quad : QuadRoutines) (sample : Fin 4 → Fin (500 / 4) → ℝ) (θ : Weights) (epochs : ℕ) (he : 1000 ≤ epochs) :
    ∃ passed lr, accuracyUniform (demoMachine quad) testPoisson
        (testSquare 2 epochs "jacobi" "gauss-jacobi" "tanh" "float32" true) 6e-2 true sample θ demoFiles = .ok passed ∧
      learningRateFn (testSquare 2 epochs "jacobi" "gauss-jacobi" "tanh" "float32" true).learningRate = .ok lr ∧
      lr.at epochs < 0.001 := by
  obtain ⟨passed, h⟩ := ((C104_shipped (demoMachine quad) 6e-2 (by norm_num) epochs "float32" (.inr rfl) θ demoFiles).1 2
    "jacobi" "gauss-jacobi" "tanh" true true sample (fun _ _ _ _ => ⟨_, rfl⟩) (by norm_num) (by simp) (.inr rfl)
    (fun _ _ => rfl)).1 testPoisson (by simp)
  obtain ⟨lr, hlr, hat⟩ := C104_rate
  exact ⟨passed, lr, h, hlr, ((hat epochs).2).2 he⟩

/-- The hypotheses of the theorems on the disc are met by the demonstration mesh. -/
example (quad : QuadRoutines) (lhs : ℕ → Fin (2 ^ 2 + 1) → ℝ × ℝ) (θ : Weights) :
    ∃ passed, accuracyExternal (demoMachine quad) demoProblem demoConfig 6e-2 lhs θ demoFiles = .ok passed := by
  obtain ⟨hjoin, hvtk, hR, -⟩ := demoConfig_runs quad lhs θ
  obtain ⟨⟨cells, bd, hread, hv⟩, -⟩ := (C76_external_completes (demoMachine quad) demoProblem
    ForwardConfig.modelArchitecture demoConfig .cd2d (Or.inr (Or.inl rfl)) (fun _ _ _ => rfl) lhs θ demoFiles nofun rfl
    hjoin hvtk).1.1 hR
  exact C104_disc_completes (demoMachine quad) demoProblem demoConfig .cd2d (Or.inr (Or.inl rfl)) (fun _ _ _ => rfl) rfl
    rfl 6e-2 (by norm_num) lhs θ demoFiles hvtk cells bd hread ⟨hv.dtype, hv.meshType, hv.cells, hv.feOrder, hv.feType,
      hv.quadOrder, hv.quadType, hv.boundary, hv.plot, hv.learningRate, hv.parameters, by decide, rfl, rfl⟩

end FastVPINNs
