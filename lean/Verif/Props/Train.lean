import Verif.Lemmas.Train
import Mathlib.Tactic.Linarith
import Mathlib.Analysis.Calculus.Deriv.Mul

/-! # C47, C49: the training losses -/

namespace FastVPINNs

open Spec

variable {nc nt nq nIn nBd nS dout : ℕ} (M : ModelData nc nt nq nIn nBd) (pt : Fin nc → Fin nq → ℝ × ℝ)
  (hM : Shaped M pt) (beta : ℝ) (p ip : ParamDict) (sp : Fin nS → ℝ × ℝ) (sv : Fin nS → ℝ)

lemma pdeLoss_nonneg (u : ℝ × ℝ → ℝ) (a b r) : 0 ≤ pdeLoss M pt u a b r :=
  Finset.sum_nonneg fun _ _ => meanSq_nonneg _

lemma pdeLoss_eq_zero (hnt : nt ≠ 0) (u : ℝ × ℝ → ℝ) (a b r) :
    pdeLoss M pt u a b r = 0 ↔ AllResidualsZero M pt u a b r := by
  unfold pdeLoss AllResidualsZero
  rw [Finset.sum_eq_zero_iff_of_nonneg fun _ _ => meanSq_nonneg _]
  simp [meanSq_eq_zero hnt]

lemma zero_combination {x y β : ℝ} (hx : 0 ≤ x) (hy : 0 ≤ y) (hβ : 0 < β) :
    x + β * y = 0 ↔ x = 0 ∧ y = 0 := by
  rw [add_eq_zero_iff_of_nonneg hx (by positivity), mul_eq_zero, or_iff_right hβ.ne']

include hM in
/-- **C47** (`DenseModel`).  With any of the forward losses and any row-wise network `u`, the step
returns exactly when the parameters of the loss are given; `loss_pde` is then the sum over the cells of
the mean squared residuals of `u` and its gradient at the points of the same cell, `loss_dirichlet` the
mean squared boundary error and `loss` the first plus `beta` times the second.  For `beta > 0` the loss is
zero exactly when all residuals and all boundary errors are. -/
theorem C47_dense (kind : LossKind) (hk : kind.forward) (net : Network 1) (u : Fin 1 → ℝ × ℝ → ℝ)
    (hu : RowWise net u) :
    ((∃ out, trainStepDense (lossOf kind nc nt nq) M net beta p = .ok out) ↔
      ∃ a b r, Coefficients (nc := nc) (nq := nq) kind p none [] a b r) ∧
    ∀ out, trainStepDense (lossOf kind nc nt nq) M net beta p = .ok out →
      ∃ a b r, Coefficients kind p none [] a b r ∧ out.lossPde = pdeLoss M pt (u 0) a b r ∧
        out.lossDirichlet 0 = meanSq (fun i => u 0 (M.dirichletInput i) - M.dirichletActual i) ∧
        out.loss 0 = out.lossPde + beta * out.lossDirichlet 0 ∧
        (0 < beta → nt ≠ 0 → nBd ≠ 0 → (out.loss 0 = 0 ↔ AllResidualsZero M pt (u 0) a b r ∧
          ∀ i, u 0 (M.dirichletInput i) = M.dirichletActual i)) := by
  have hres := cellsResidual_eq (lossOf kind nc nt nq) M net u hu pt hM p []
  rw [forward_call hk] at hres
  constructor
  · constructor
    · rintro ⟨out, h⟩
      unfold trainStepDense at h
      cases hr : cellsResidual (lossOf kind nc nt nq) M net p [] with
      | error e => simp [hr] at h
      | ok loss =>
        obtain ⟨a, b, r, hc, -⟩ := (runLoss_ok_iff _ _ _ _ _ _ _ _ _ _ _ _).1 (hres.symm.trans hr)
        exact ⟨a, b, r, hc⟩
    · rintro ⟨a, b, r, hc⟩
      rw [(runLoss_ok_iff _ _ _ _ _ _ _ _ _ _ _ _).2 ⟨a, b, r, hc, rfl⟩] at hres
      exact ⟨_, by unfold trainStepDense; rw [hres]⟩
  · intro out h
    unfold trainStepDense at h
    cases hr : cellsResidual (lossOf kind nc nt nq) M net p [] with
    | error e => simp [hr] at h
    | ok loss =>
      obtain ⟨a, b, r, hc, rfl⟩ := (runLoss_ok_iff _ _ _ _ _ _ _ _ _ _ _ _).1 (hres.symm.trans hr)
      simp only [hr, Except.ok.injEq] at h
      subst h
      have h1 : (0.0 : ℝ) + ∑ c, meanSq (testedResidual M.preMultiplierVal M.preMultiplierGradX
          M.preMultiplierGradY (fun c q => u 0 (pt c q)) (fun c q => dx (u 0) (pt c q))
          (fun c q => dy (u 0) (pt c q)) M.forceMatrix a b r c) = pdeLoss M pt (u 0) a b r := by
        norm_num [pdeLoss]
      have h2 : meanSquareError (net _ M.dirichletInput) M.dirichletActual 0
          = meanSq (fun i => u 0 (M.dirichletInput i) - M.dirichletActual i) := by
        rw [meanSquareError_eq]
        exact congrArg meanSq (funext fun i => by rw [hu])
      refine ⟨a, b, r, hc, h1, h2, rfl, fun hb hnt hbd => ?_⟩
      simp only [h1, h2]
      rw [zero_combination (pdeLoss_nonneg _ _ _ _ _ _) (meanSq_nonneg _) hb, pdeLoss_eq_zero _ _ hnt,
        meanSq_eq_zero hbd]
      simp only [sub_eq_zero]

include hM in
/-- **C47** (`DenseModel_Hard`).  The loss is the PDE loss alone; the boundary loss is reported as zero
and `beta` has no influence. -/
theorem C47_hard (kind : LossKind) (hk : kind.forward) (net : Network 1) (u : Fin 1 → ℝ × ℝ → ℝ)
    (hu : RowWise net u) :
    ((∃ out, trainStepHard (lossOf kind nc nt nq) M net beta p = .ok out) ↔
      ∃ a b r, Coefficients (nc := nc) (nq := nq) kind p none [] a b r) ∧
    ∀ out, trainStepHard (lossOf kind nc nt nq) M net beta p = .ok out →
      (∀ beta', trainStepHard (lossOf kind nc nt nq) M net beta' p = .ok out) ∧
      ∃ a b r, Coefficients kind p none [] a b r ∧ out.lossPde = pdeLoss M pt (u 0) a b r ∧
        out.lossDirichlet = 0 ∧ out.loss = out.lossPde ∧
        (nt ≠ 0 → (out.loss = 0 ↔ AllResidualsZero M pt (u 0) a b r)) := by
  have hres := cellsResidual_eq (lossOf kind nc nt nq) M net u hu pt hM p []
  rw [forward_call hk] at hres
  constructor
  · constructor
    · rintro ⟨out, h⟩
      unfold trainStepHard at h
      cases hr : cellsResidual (lossOf kind nc nt nq) M net p [] with
      | error e => simp [hr] at h
      | ok loss =>
        obtain ⟨a, b, r, hc, -⟩ := (runLoss_ok_iff _ _ _ _ _ _ _ _ _ _ _ _).1 (hres.symm.trans hr)
        exact ⟨a, b, r, hc⟩
    · rintro ⟨a, b, r, hc⟩
      rw [(runLoss_ok_iff _ _ _ _ _ _ _ _ _ _ _ _).2 ⟨a, b, r, hc, rfl⟩] at hres
      exact ⟨_, by unfold trainStepHard; rw [hres]⟩
  · intro out h
    refine ⟨fun _ => h, ?_⟩
    unfold trainStepHard at h
    cases hr : cellsResidual (lossOf kind nc nt nq) M net p [] with
    | error e => simp [hr] at h
    | ok loss =>
      obtain ⟨a, b, r, hc, rfl⟩ := (runLoss_ok_iff _ _ _ _ _ _ _ _ _ _ _ _).1 (hres.symm.trans hr)
      simp only [hr, Except.ok.injEq] at h
      subst h
      have h1 : (0.0 : ℝ) + ∑ c, meanSq (testedResidual M.preMultiplierVal M.preMultiplierGradX
          M.preMultiplierGradY (fun c q => u 0 (pt c q)) (fun c q => dx (u 0) (pt c q))
          (fun c q => dy (u 0) (pt c q)) M.forceMatrix a b r c) = pdeLoss M pt (u 0) a b r := by
        norm_num [pdeLoss]
      refine ⟨a, b, r, hc, h1, by norm_num, rfl, fun hnt => ?_⟩
      simp only [h1]
      exact pdeLoss_eq_zero _ _ hnt _ _ _ _

include hM in
/-- **C47** (`DenseModel_Inverse`).  As for `DenseModel`, with `eps` from the current inverse parameters
and ten times the mean squared sensor error added. -/
theorem C47_inverse (net : Network 1) (u : Fin 1 → ℝ × ℝ → ℝ) (hu : RowWise net u) :
    ((∃ out, trainStepInverse (lossPoissonInverse nc nt nq) M sp sv ip net beta p = .ok out) ↔
      ∃ eps, HasParam ip "eps" eps) ∧
    ∀ out, trainStepInverse (lossPoissonInverse nc nt nq) M sp sv ip net beta p = .ok out →
      ∃ eps, HasParam ip "eps" eps ∧ out.lossPde = pdeLoss M pt (u 0) (fun _ _ => eps) (0, 0) 0 ∧
        out.lossDirichlet 0 = meanSq (fun i => u 0 (M.dirichletInput i) - M.dirichletActual i) ∧
        out.sensorLoss 0 = meanSq (fun i => u 0 (sp i) - sv i) ∧ out.inverseParams = ip ∧
        out.loss 0 = out.lossPde + beta * out.lossDirichlet 0 + 10 * out.sensorLoss 0 ∧
        (0 < beta → nt ≠ 0 → nBd ≠ 0 → nS ≠ 0 → (out.loss 0 = 0 ↔
          AllResidualsZero M pt (u 0) (fun _ _ => eps) (0, 0) 0 ∧
          (∀ i, u 0 (M.dirichletInput i) = M.dirichletActual i) ∧ ∀ i, u 0 (sp i) = sv i)) := by
  have hres := cellsResidual_eq (lossPoissonInverse nc nt nq) M net u hu pt hM p
    [("inverse_params_dict", .params ip)]
  have hcall : (lossPoissonInverse nc nt nq).call (lossKwargs M (fun c q => u 0 (pt c q))
      (fun c q => dx (u 0) (pt c q)) (fun c q => dy (u 0) (pt c q)) p
        ++ [("inverse_params_dict", .params ip)])
      = runLoss .poissonInverse M.preMultiplierVal M.preMultiplierGradX M.preMultiplierGradY
          (fun c q => u 0 (pt c q)) (fun c q => dx (u 0) (pt c q)) (fun c q => dy (u 0) (pt c q))
          M.forceMatrix p ip [] := rfl
  rw [hcall] at hres
  constructor
  · constructor
    · rintro ⟨out, h⟩
      unfold trainStepInverse at h
      cases hr : cellsResidual (lossPoissonInverse nc nt nq) M net p
          [("inverse_params_dict", .params ip)] with
      | error e => simp [hr] at h
      | ok loss =>
        obtain ⟨a, b, r, ⟨eps, hc, -⟩, -⟩ := (runLoss_ok_iff _ _ _ _ _ _ _ _ _ _ _ _).1 (hres.symm.trans hr)
        exact ⟨eps, hc⟩
    · rintro ⟨eps, hc⟩
      rw [(runLoss_ok_iff .poissonInverse _ _ _ _ _ _ _ _ _ _ _).2
        ⟨_, _, _, ⟨eps, hc, rfl, rfl, rfl⟩, rfl⟩] at hres
      exact ⟨_, by unfold trainStepInverse; rw [hres]⟩
  · intro out h
    unfold trainStepInverse at h
    cases hr : cellsResidual (lossPoissonInverse nc nt nq) M net p
        [("inverse_params_dict", .params ip)] with
    | error e => simp [hr] at h
    | ok loss =>
      obtain ⟨a, b, r, ⟨eps, hc, rfl, rfl, rfl⟩, rfl⟩ :=
        (runLoss_ok_iff _ _ _ _ _ _ _ _ _ _ _ _).1 (hres.symm.trans hr)
      simp only [hr, Except.ok.injEq] at h
      subst h
      have h1 : (0.0 : ℝ) + ∑ c, meanSq (testedResidual M.preMultiplierVal M.preMultiplierGradX
          M.preMultiplierGradY (fun c q => u 0 (pt c q)) (fun c q => dx (u 0) (pt c q))
          (fun c q => dy (u 0) (pt c q)) M.forceMatrix (fun _ _ => eps) (0, 0) 0 c)
          = pdeLoss M pt (u 0) (fun _ _ => eps) (0, 0) 0 := by
        norm_num [pdeLoss]
      have h2 : meanSquareError (net _ M.dirichletInput) M.dirichletActual 0
          = meanSq (fun i => u 0 (M.dirichletInput i) - M.dirichletActual i) := by
        rw [meanSquareError_eq]
        exact congrArg meanSq (funext fun i => by rw [hu])
      have h3 : meanSquareError (net _ sp) sv 0 = meanSq (fun i => u 0 (sp i) - sv i) := by
        rw [meanSquareError_eq]
        exact congrArg meanSq (funext fun i => by rw [hu])
      refine ⟨eps, hc, h1, h2, h3, rfl, rfl, fun hb hnt hbd hS => ?_⟩
      simp only [h1, h2, h3]
      rw [zero_combination (add_nonneg (pdeLoss_nonneg _ _ _ _ _ _)
          (mul_nonneg hb.le (meanSq_nonneg _))) (meanSq_nonneg _) (by norm_num),
        zero_combination (pdeLoss_nonneg _ _ _ _ _ _) (meanSq_nonneg _) hb, pdeLoss_eq_zero _ _ hnt,
        meanSq_eq_zero hbd, meanSq_eq_zero hS]
      simp only [sub_eq_zero, and_assoc]

include hM in
/-- **C47** (`DenseModel_Inverse_Domain`).  Output 0 of the network is the solution, output 1 the
diffusion coefficient at the same point; boundary and sensor errors are those of output 0. -/
theorem C47_inverse_domain (hd : 2 ≤ dout) (net : Network dout) (u : Fin dout → ℝ × ℝ → ℝ)
    (hu : RowWise net u) :
    ((∃ out, trainStepInverseDomain (lossCd2dInverseDomain nc nt nq) M sp sv net beta p = .ok out) ↔
      ∃ bx b2 r, HasParam p "b_x" bx ∧ HasParam p "b_y" b2 ∧ HasParam p "c" r) ∧
    ∀ out, trainStepInverseDomain (lossCd2dInverseDomain nc nt nq) M sp sv net beta p = .ok out →
      ∃ bx b2 r, HasParam p "b_x" bx ∧ HasParam p "b_y" b2 ∧ HasParam p "c" r ∧
        out.lossPde = pdeLoss M pt (u ⟨0, by omega⟩) (fun c q => u ⟨1, by omega⟩ (pt c q)) (bx, b2) r ∧
        out.lossDirichlet 0
          = meanSq (fun i => u ⟨0, by omega⟩ (M.dirichletInput i) - M.dirichletActual i) ∧
        out.sensorLoss 0 = meanSq (fun i => u ⟨0, by omega⟩ (sp i) - sv i) ∧
        out.loss 0 = out.lossPde + beta * out.lossDirichlet 0 + 10 * out.sensorLoss 0 ∧
        (0 < beta → nt ≠ 0 → nBd ≠ 0 → nS ≠ 0 → (out.loss 0 = 0 ↔
          AllResidualsZero M pt (u ⟨0, by omega⟩) (fun c q => u ⟨1, by omega⟩ (pt c q)) (bx, b2) r ∧
          (∀ i, u ⟨0, by omega⟩ (M.dirichletInput i) = M.dirichletActual i) ∧
          ∀ i, u ⟨0, by omega⟩ (sp i) = sv i)) := by
  set u0 := u ⟨0, by omega⟩ with hu0
  set u1 := u ⟨1, by omega⟩ with hu1
  have hgrad : tapeGradient (ι := Fin nIn) (fun X r => net _ X r ⟨0, by omega⟩) M.inputTensor
      = fun r => (dx u0 (M.inputTensor r), dy u0 (M.inputTensor r)) := by
    funext r
    exact tapeGradient_rows (Equiv.refl _) _ u0 (fun X i => hu _ X i _) _ r
  obtain ⟨gx, hgx, hgx'⟩ := reshapeCells_ok (nc := nc) (nq := nq) M.nCells
    (fun r => dx u0 (M.inputTensor r)) hM.cells hM.rows
  obtain ⟨gy, hgy, hgy'⟩ := reshapeCells_ok (nc := nc) (nq := nq) M.nCells
    (fun r => dy u0 (M.inputTensor r)) hM.cells hM.rows
  obtain ⟨v, hv, hv'⟩ := reshapeCells_ok (nc := nc) (nq := nq) M.nCells
    (fun r => net _ M.inputTensor r ⟨0, by omega⟩) hM.cells hM.rows
  obtain ⟨k, hk, hk'⟩ := reshapeCells_ok (nc := nc) (nq := nq) M.nCells
    (fun r => net _ M.inputTensor r ⟨1, by omega⟩) hM.cells hM.rows
  have e1 : gx = fun c q => dx u0 (pt c q) := by
    funext c q
    rw [hgx' c q (rowIndex hM.rows c q) rfl, hM.point c q (rowIndex hM.rows c q) rfl]
  have e2 : gy = fun c q => dy u0 (pt c q) := by
    funext c q
    rw [hgy' c q (rowIndex hM.rows c q) rfl, hM.point c q (rowIndex hM.rows c q) rfl]
  have e3 : v = fun c q => u0 (pt c q) := by
    funext c q
    rw [hv' c q (rowIndex hM.rows c q) rfl, hu, hM.point c q (rowIndex hM.rows c q) rfl]
  have e4 : k = fun c q => u1 (pt c q) := by
    funext c q
    rw [hk' c q (rowIndex hM.rows c q) rfl, hu, hM.point c q (rowIndex hM.rows c q) rfl]
  have hstep : trainStepInverseDomain (lossCd2dInverseDomain nc nt nq) M sp sv net beta p
      = match runLoss .cd2dInverseDomain M.preMultiplierVal M.preMultiplierGradX M.preMultiplierGradY
            (fun c q => u0 (pt c q)) (fun c q => dx u0 (pt c q)) (fun c q => dy u0 (pt c q))
            M.forceMatrix p none [fun c q => u1 (pt c q)] with
        | .error e => .error e
        | .ok residuals => .ok ⟨0.0 + ∑ c, residuals c,
            meanSquareError (fun r (_ : Fin 1) => net _ M.dirichletInput r ⟨0, by omega⟩) M.dirichletActual,
            fun j => 0.0 + ∑ c, residuals c
              + beta * meanSquareError (fun r (_ : Fin 1) => net _ M.dirichletInput r ⟨0, by omega⟩)
                  M.dirichletActual j
              + 10 * meanSquareError (fun r (_ : Fin 1) => net _ sp r ⟨0, by omega⟩) sv j,
            none, meanSquareError (fun r (_ : Fin 1) => net _ sp r ⟨0, by omega⟩) sv⟩ := by
    unfold trainStepInverseDomain
    rw [dif_pos hd]
    simp only [hgrad, hgx, hgy, hv, hk]
    rw [e1, e2, e3, e4]
    rfl
  constructor
  · rw [hstep]
    constructor
    · rintro ⟨out, h⟩
      cases hr : runLoss .cd2dInverseDomain M.preMultiplierVal M.preMultiplierGradX M.preMultiplierGradY
            (fun c q => u0 (pt c q)) (fun c q => dx u0 (pt c q)) (fun c q => dy u0 (pt c q))
            M.forceMatrix p none [fun c q => u1 (pt c q)] with
      | error e => simp [hr] at h
      | ok loss =>
        obtain ⟨a, b, r, ⟨-, hx, hy, hc⟩, -⟩ := (runLoss_ok_iff _ _ _ _ _ _ _ _ _ _ _ _).1 hr
        exact ⟨b.1, b.2, r, hx, hy, hc⟩
    · rintro ⟨bx, b2, r, hx, hy, hc⟩
      rw [(runLoss_ok_iff .cd2dInverseDomain _ _ _ _ _ _ _ _ _ _ _).2
        ⟨_, (bx, b2), r, ⟨rfl, hx, hy, hc⟩, rfl⟩]
      exact ⟨_, rfl⟩
  · intro out h
    rw [hstep] at h
    cases hr : runLoss .cd2dInverseDomain M.preMultiplierVal M.preMultiplierGradX M.preMultiplierGradY
          (fun c q => u0 (pt c q)) (fun c q => dx u0 (pt c q)) (fun c q => dy u0 (pt c q))
          M.forceMatrix p none [fun c q => u1 (pt c q)] with
    | error e => simp [hr] at h
    | ok loss =>
      obtain ⟨a, ⟨bx, b2⟩, r, ⟨ha, hx, hy, hc⟩, rfl⟩ := (runLoss_ok_iff _ _ _ _ _ _ _ _ _ _ _ _).1 hr
      simp only [List.head?_cons, Option.some.injEq] at ha
      subst ha
      simp only [hr, Except.ok.injEq] at h
      subst h
      have h1 : (0.0 : ℝ) + ∑ c, meanSq (testedResidual M.preMultiplierVal M.preMultiplierGradX
          M.preMultiplierGradY (fun c q => u0 (pt c q)) (fun c q => dx u0 (pt c q))
          (fun c q => dy u0 (pt c q)) M.forceMatrix (fun c q => u1 (pt c q)) (bx, b2) r c)
          = pdeLoss M pt u0 (fun c q => u1 (pt c q)) (bx, b2) r := by
        norm_num [pdeLoss]
      have h2 : meanSquareError (fun r (_ : Fin 1) => net _ M.dirichletInput r ⟨0, by omega⟩)
          M.dirichletActual 0 = meanSq (fun i => u0 (M.dirichletInput i) - M.dirichletActual i) := by
        rw [meanSquareError_eq]
        exact congrArg meanSq (funext fun i => by rw [hu])
      have h3 : meanSquareError (fun r (_ : Fin 1) => net _ sp r ⟨0, by omega⟩) sv 0
          = meanSq (fun i => u0 (sp i) - sv i) := by
        rw [meanSquareError_eq]
        exact congrArg meanSq (funext fun i => by rw [hu])
      refine ⟨bx, b2, r, hx, hy, hc, h1, h2, h3, rfl, fun hb hnt hbd hS => ?_⟩
      simp only [h1, h2, h3]
      rw [zero_combination (add_nonneg (pdeLoss_nonneg _ _ _ _ _ _)
          (mul_nonneg hb.le (meanSq_nonneg _))) (meanSq_nonneg _) (by norm_num),
        zero_combination (pdeLoss_nonneg _ _ _ _ _ _) (meanSq_nonneg _) hb, pdeLoss_eq_zero _ _ hnt,
        meanSq_eq_zero hbd, meanSq_eq_zero hS]
      simp only [sub_eq_zero, and_assoc]

/-- **C47** (shapes).  The step of the models with a scalar solution fails with `ValueError` when
`n_cells` is not the number of cells, when the input tensor has not one row per quadrature point, or when
the network has not exactly one output - for every loss function. -/
theorem C47_shapes (L : LossFunction nc nt nq) (net : Network dout) (hIn : nIn ≠ 0)
    (h : ¬ (M.nCells = nc ∧ nIn = nc * nq ∧ dout = 1)) :
    trainStepDense L M net beta p = .error .valueError ∧ trainStepHard L M net beta p = .error .valueError ∧
    trainStepInverse L M sp sv ip net beta p = .error .valueError := by
  have hres : ∀ extra, cellsResidual L M net p extra = .error .valueError := by
    intro extra
    unfold cellsResidual
    by_cases h1 : M.nCells = nc ∧ nIn = nc * nq
    · have h2 : ¬ (M.nCells = nc ∧ nIn * dout = nc * nq) := by
        rintro ⟨-, h3⟩
        refine h ⟨h1.1, h1.2, ?_⟩
        rw [← h1.2] at h3
        exact Nat.eq_of_mul_eq_mul_left (Nat.pos_of_ne_zero hIn) (by rw [h3, mul_one])
      obtain ⟨gx, hgx, -⟩ := reshapeCells_ok (nc := nc) (nq := nq) M.nCells
        (fun r => (tapeGradient (ι := Fin nIn × Fin dout) (fun X i => net _ X i.1 i.2)
          M.inputTensor r).1) h1.1 h1.2
      obtain ⟨gy, hgy, -⟩ := reshapeCells_ok (nc := nc) (nq := nq) M.nCells
        (fun r => (tapeGradient (ι := Fin nIn × Fin dout) (fun X i => net _ X i.1 i.2)
          M.inputTensor r).2) h1.1 h1.2
      simp only [hgx, hgy, reshapeCells_error _ _ h2]
    · simp only [reshapeCells_error _ _ h1]
  simp only [trainStepDense, trainStepHard, trainStepInverse, hres, and_self]

include hM in
/-- **C49** (training).  With a shape-correct model, `DenseModel_Inverse` cannot be trained with the loss
of `cd2d_inverse.py`: the step raises `TypeError` whatever the parameters are. -/
theorem C49_cd2d_inverse_unusable (net : Network 1) (u : Fin 1 → ℝ × ℝ → ℝ) (hu : RowWise net u) :
    trainStepInverse (lossCd2dInverse nc nt nq) M sp sv ip net beta p = .error .typeError := by
  unfold trainStepInverse
  rw [cellsResidual_eq _ M net u hu pt hM]
  rfl

/-! ## A concrete case -/

/-- Two cells, one test function, two points per cell, two boundary points. -/
noncomputable def demoModel : ModelData 2 1 2 4 2 where
  preMultiplierVal := fun _ _ _ => 1
  preMultiplierGradX := fun c _ _ => c.val
  preMultiplierGradY := fun _ _ q => q.val
  forceMatrix := fun _ c => 3 * c.val + 2
  inputTensor := fun r => (r.val, 1)
  dirichletInput := fun i => (i.val, 0)
  dirichletActual := fun i => i.val
  nCells := 2

/-- The network `u(x, y) = x + 2 y`, one output. -/
def demoNet : Network 1 := fun _ X r _ => (X r).1 + 2 * (X r).2

/-- The model and the network meet the hypotheses of C47; the loss is one
(residuals `∑ q (c·1 + q·2) - (3c+2) = -c` for `eps = 1`, hence zero in cell 0, `1` in cell 1). -/
example : Shaped demoModel (fun c q => ((c.val * 2 + q.val : ℕ), 1)) ∧
    RowWise demoNet (fun _ z => z.1 + 2 * z.2) ∧ LossKind.forward .poisson ∧
    ∃ out, trainStepDense (lossOf .poisson 2 1 2) demoModel demoNet 10 (some [("eps", 1)]) = .ok out ∧
      out.lossDirichlet 0 = 0 ∧ out.loss 0 = 1 := by
  have hS : Shaped demoModel (fun c q => ((c.val * 2 + q.val : ℕ), 1)) :=
    ⟨rfl, rfl, fun c q r hr => by simp [demoModel, hr]⟩
  have hR : RowWise demoNet (fun _ z => z.1 + 2 * z.2) := fun _ _ _ _ => rfl
  have hdx : ∀ z : ℝ × ℝ, dx (fun z => z.1 + 2 * z.2) z = 1 := by
    intro z
    simp only [dx]
    rw [deriv_add_const]
    exact deriv_id _
  have hdy : ∀ z : ℝ × ℝ, dy (fun z => z.1 + 2 * z.2) z = 2 := by
    intro z
    simp only [dy]
    rw [deriv_const_add]
    simp
  refine ⟨hS, hR, Or.inl rfl, ?_⟩
  obtain ⟨h1, h2⟩ := C47_dense demoModel _ hS 10 (some [("eps", 1)]) .poisson (Or.inl rfl) demoNet _ hR
  obtain ⟨out, ho⟩ := h1.2 ⟨_, _, _, 1, ⟨_, rfl, rfl⟩, rfl, rfl, rfl⟩
  obtain ⟨a, b, r, ⟨eps, ⟨l, hl, he⟩, rfl, rfl, rfl⟩, h3, h4, h5, -⟩ := h2 out ho
  simp only [Option.some.injEq] at hl
  subst hl
  have : eps = 1 := by
    simp [List.lookup] at he
    exact he.symm
  subst this
  have h4' : out.lossDirichlet 0 = 0 := by
    rw [h4]
    simp [meanSq, demoModel]
  refine ⟨out, ho, h4', ?_⟩
  rw [h5, h4', h3]
  simp [pdeLoss, meanSq, testedResidual, hdx, hdy, Fin.sum_univ_two, demoModel]
  norm_num

end FastVPINNs
