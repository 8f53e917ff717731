import Verif.Model.DataHandler
import Verif.Model.Physics
import Verif.Model.Numpy
import Mathlib.Analysis.Calculus.Deriv.Basic

/-! # `train_step` of the four models

Only the losses are modelled: the gradient with respect to the weights and the optimizer step come after
the returned values have been computed. -/

namespace FastVPINNs

/-- The network as the function `self(·)` on a batch of points, with the current weights; `dout` is the
number of outputs per point. -/
abbrev Network (dout : ℕ) := (n : ℕ) → (Fin n → ℝ × ℝ) → Fin n → Fin dout → ℝ

/-- `tape.gradient(target, source)` for a tensor `source` with two columns, where `target` is given as a
function of the source.  TensorFlow differentiates the sum of the entries of `target`. -/
noncomputable def tapeGradient {n : ℕ} {ι : Type} [Fintype ι] (target : (Fin n → ℝ × ℝ) → ι → ℝ)
    (source : Fin n → ℝ × ℝ) : Fin n → ℝ × ℝ := fun r =>
  (deriv (fun s => ∑ i, target (Function.update source r (s, (source r).2)) i) (source r).1,
   deriv (fun s => ∑ i, target (Function.update source r ((source r).1, s)) i) (source r).2)

/-- `tf.reshape(v, [n_cells, n_quad])` followed by its use as a `nc × nq` tensor.  A wrong number of
elements is a `ValueError`; so is a value `n_cells` different from the number of cells of the tensors
(TensorFlow's broadcasting of a single cell and its reading of `-1` as "whatever fits" are not modelled). -/
def reshapeCells {n : ℕ} (nc nq : ℕ) (nCells : ℤ) (v : Fin n → ℝ) : Except PyErr (Fin nc → Fin nq → ℝ) :=
  if h : nCells * nq = n ∧ nCells = nc then
    .ok fun c q => v ⟨c.val * nq + q.val, by
      have h1 : nc * nq = n := by
        obtain ⟨h1, h2⟩ := h
        rw [h2] at h1
        exact_mod_cast h1
      calc c.val * nq + q.val < c.val * nq + nq := by omega
        _ = (c.val + 1) * nq := by ring
        _ ≤ nc * nq := Nat.mul_le_mul_right _ c.isLt
        _ = n := h1⟩
  else .error .valueError

/-- The tensors a model keeps: `model.py:77-95, 123` (the same in the other models). -/
structure ModelData (nc nt nq nIn nBd : ℕ) where
  preMultiplierVal : Fin nc → Fin nt → Fin nq → ℝ
  preMultiplierGradX : Fin nc → Fin nt → Fin nq → ℝ
  preMultiplierGradY : Fin nc → Fin nt → Fin nq → ℝ
  forceMatrix : Fin nt → Fin nc → ℝ
  inputTensor : Fin nIn → ℝ × ℝ
  dirichletInput : Fin nBd → ℝ × ℝ
  dirichletActual : Fin nBd → ℝ
  nCells : ℤ

/-- The arguments the driver scripts pass to the model: `hyperparameter_tuning/objective.py:111-126`, and
`examples/forward_problems_2d/uniform_mesh/poisson_2d/main_poisson2d.py:143-164` (the same in the other
drivers).  `bd` is the result of `get_dirichlet_input` (two lists of the same length), `nCells` is
`fespace.n_cells`. -/
def modelDataOf {nt nq : ℕ} (D : DataHandler2D nt nq) (bd : List (ℝ × ℝ) × List ℝ) (nCells : ℕ) :
    ModelData D.nCells nt nq (D.nCells * nq) bd.1.length where
  preMultiplierVal := D.shapeValMat
  preMultiplierGradX := D.gradXMat
  preMultiplierGradY := D.gradYMat
  forceMatrix := D.forcing
  inputTensor := D.xPde
  dirichletInput := fun i => bd.1.get i
  dirichletActual := fun i => bd.2.getD i.val 0
  nCells := nCells

/-- What `train_step` of `DenseModel` returns. -/
structure TrainOut (dout : ℕ) where
  lossPde : ℝ
  lossDirichlet : Fin dout → ℝ
  loss : Fin dout → ℝ

/-- What `train_step` of `DenseModel_Hard` returns (no boundary term, all scalars). -/
structure TrainOutHard where
  lossPde : ℝ
  lossDirichlet : ℝ
  loss : ℝ

/-- What `train_step` of the inverse models returns. -/
structure TrainOutInverse (dout : ℕ) where
  lossPde : ℝ
  lossDirichlet : Fin dout → ℝ
  loss : Fin dout → ℝ
  inverseParams : ParamDict
  sensorLoss : Fin dout → ℝ

section
variable {nc nt nq nIn nBd dout : ℕ} (L : LossFunction nc nt nq) (M : ModelData nc nt nq nIn nBd)

/-- The keyword arguments common to the calls `model.py:279-288`, `model_hard.py:296-305`,
`model_inverse.py:287-295` and `model_inverse_domain.py:303-311`. -/
def lossKwargs (predVal predGradX predGradY : Fin nc → Fin nq → ℝ) (bilinear : ParamDict) :
    List (String × LossArg nc nt nq) :=
  [("test_shape_val_mat", .mat M.preMultiplierVal), ("test_grad_x_mat", .mat M.preMultiplierGradX),
   ("test_grad_y_mat", .mat M.preMultiplierGradY), ("pred_nn", .pred predVal),
   ("pred_grad_x_nn", .pred predGradX), ("pred_grad_y_nn", .pred predGradY),
   ("forcing_function", .force M.forceMatrix), ("bilinear_params", .params bilinear)]

/-- `model.py:259-288`: prediction, gradients, reshapes and the call of the loss function, with the
additional keyword arguments `extra`. -/
noncomputable def cellsResidual (net : Network dout) (bilinear : ParamDict)
    (extra : List (String × LossArg nc nt nq)) : Except PyErr (Fin nc → ℝ) :=
  let predicted := net _ M.inputTensor
  let gradients := tapeGradient (ι := Fin nIn × Fin dout) (fun X i => net _ X i.1 i.2) M.inputTensor
  match reshapeCells nc nq M.nCells (fun r => (gradients r).1),
      reshapeCells nc nq M.nCells (fun r => (gradients r).2),
      reshapeCells nc nq M.nCells (flatten predicted) with
  | .ok gx, .ok gy, .ok v => L.call (lossKwargs M v gx gy bilinear ++ extra)
  | .error e, _, _ => .error e
  | _, .error e, _ => .error e
  | _, _, .error e => .error e

/-- `tf.reduce_mean(tf.square(predicted - actual), axis=0)` for predictions with `dout` columns and one
column of actual values (broadcast). -/
noncomputable def meanSquareError {n : ℕ} (predicted : Fin n → Fin dout → ℝ) (actual : Fin n → ℝ) :
    Fin dout → ℝ := meanSquare0 fun r j => predicted r j - actual r

/-- `model/model.py:237-307` (`DenseModel.train_step`). -/
noncomputable def trainStepDense (net : Network dout) (beta : ℝ) (bilinear : ParamDict) :
    Except PyErr (TrainOut dout) :=
  let predictedDirichlet := net _ M.dirichletInput
  match cellsResidual L M net bilinear [] with
  | .error e => .error e
  | .ok residuals =>
    let totalPde := 0.0 + ∑ c, residuals c
    let boundary := meanSquareError predictedDirichlet M.dirichletActual
    .ok ⟨totalPde, boundary, fun j => totalPde + beta * boundary j⟩

/-- `model/model_hard.py:258-330` (`DenseModel_Hard.train_step`); `net` includes the constraint
function.  `beta` is a parameter of the method but is not used. -/
noncomputable def trainStepHard (net : Network dout) (_beta : ℝ) (bilinear : ParamDict) :
    Except PyErr TrainOutHard :=
  match cellsResidual L M net bilinear [] with
  | .error e => .error e
  | .ok residuals =>
    let totalPde := 0.0 + ∑ c, residuals c
    .ok ⟨totalPde, 0.0, totalPde⟩

/-- `model/model_inverse.py:252-338` (`DenseModel_Inverse.train_step`). -/
noncomputable def trainStepInverse {nS : ℕ} (sensorPoints : Fin nS → ℝ × ℝ) (sensorValues : Fin nS → ℝ)
    (inverseParams : ParamDict) (net : Network dout) (beta : ℝ) (bilinear : ParamDict) :
    Except PyErr (TrainOutInverse dout) :=
  let predictedDirichlet := net _ M.dirichletInput
  let predictedSensor := net _ sensorPoints
  match cellsResidual L M net bilinear [("inverse_params_dict", .params inverseParams)] with
  | .error e => .error e
  | .ok residuals =>
    let totalPde := 0.0 + ∑ c, residuals c
    let boundary := meanSquareError predictedDirichlet M.dirichletActual
    let sensor := meanSquareError predictedSensor sensorValues
    .ok ⟨totalPde, boundary, fun j => totalPde + beta * boundary j + 10 * sensor j, inverseParams, sensor⟩

/-- `model/model_inverse_domain.py:241-342` (`DenseModel_Inverse_Domain.train_step`): column 0 of the
network output is the solution, column 1 the coefficient (an `IndexError` stands for TensorFlow's error
when there is no such column). -/
noncomputable def trainStepInverseDomain {nS : ℕ} (sensorPoints : Fin nS → ℝ × ℝ)
    (sensorValues : Fin nS → ℝ) (net : Network dout) (beta : ℝ) (bilinear : ParamDict) :
    Except PyErr (TrainOutInverse 1) :=
  if h : 2 ≤ dout then
    let col0 : Fin dout := ⟨0, by omega⟩
    let col1 : Fin dout := ⟨1, by omega⟩
    let predictedDirichlet : Fin nBd → Fin 1 → ℝ := fun r _ => net _ M.dirichletInput r col0
    let predictedSensor : Fin nS → Fin 1 → ℝ := fun r _ => net _ sensorPoints r col0
    let predicted := fun r => net _ M.inputTensor r col0
    let coefficient := fun r => net _ M.inputTensor r col1
    let gradients := tapeGradient (ι := Fin nIn) (fun X r => net _ X r col0) M.inputTensor
    match reshapeCells nc nq M.nCells (fun r => (gradients r).1),
        reshapeCells nc nq M.nCells (fun r => (gradients r).2),
        reshapeCells nc nq M.nCells predicted, reshapeCells nc nq M.nCells coefficient with
    | .ok gx, .ok gy, .ok v, .ok k =>
      match L.call (lossKwargs M v gx gy bilinear ++ [("inverse_params_list", .preds [k])]) with
      | .error e => .error e
      | .ok residuals =>
        let totalPde := 0.0 + ∑ c, residuals c
        let boundary := meanSquareError predictedDirichlet M.dirichletActual
        let sensor := meanSquareError predictedSensor sensorValues
        .ok ⟨totalPde, boundary, fun j => totalPde + beta * boundary j + 10 * sensor j, none, sensor⟩
    | .error e, _, _, _ => .error e
    | _, .error e, _, _ => .error e
    | _, _, .error e, _ => .error e
    | _, _, _, .error e => .error e
  else .error .indexError

end

end FastVPINNs
