import Verif.Model.Train

/-! # Shapes: `train_step` and the loss functions with TensorFlow's broadcasting

`Model/Physics.lean` and `Model/Train.lean` give every tensor its intended shape.  Here the tensors handed to a model
may have any numbers of cells, test functions, points and rows, and the operations of TensorFlow accept and repeat
what they accept and repeat: `tf.reshape` with its `-1`, the batch dimension of `tf.linalg.matvec`, the element-wise
operations.  A tensor is its dimensions together with its entries (entries outside the dimensions have no meaning).
Every error of shapes is a `ValueError`.  As in `Model/Train.lean`, the update of the weights is left out; so is the
binding of keywords (C49). -/

namespace FastVPINNs

/-- A tensor of rank 1. -/
structure TVec where
  len : ℕ
  val : ℕ → ℝ

/-- A tensor of rank 2. -/
structure TMat where
  rows : ℕ
  cols : ℕ
  val : ℕ → ℕ → ℝ

/-- A tensor of rank 3: one matrix per cell. -/
structure TCells where
  cells : ℕ
  rows : ℕ
  cols : ℕ
  val : ℕ → ℕ → ℕ → ℝ

/-- The entries of a tensor of rank 1 as a list. -/
def TVec.toList (v : TVec) : List ℝ := List.ofFn fun i : Fin v.len => v.val i

/-- Broadcasting of one dimension: equal dimensions, or one of them is 1. -/
def bcastDim (a b : ℕ) : Except PyErr ℕ :=
  if a = b then .ok a else if a = 1 then .ok b else if b = 1 then .ok a else .error .valueError

/-- The index read in a dimension of length `n`: always the first if the length is 1. -/
def bcastIdx (n i : ℕ) : ℕ := if n = 1 then 0 else i

/-- `A op B`, entry by entry, for tensors of rank 1. -/
def TVec.zip (f : ℝ → ℝ → ℝ) (A B : TVec) : Except PyErr TVec :=
  match bcastDim A.len B.len with
  | .error e => .error e
  | .ok n => .ok ⟨n, fun i => f (A.val (bcastIdx A.len i)) (B.val (bcastIdx B.len i))⟩

/-- `A op B`, entry by entry, for tensors of rank 2. -/
def TMat.zip (f : ℝ → ℝ → ℝ) (A B : TMat) : Except PyErr TMat :=
  match bcastDim A.rows B.rows, bcastDim A.cols B.cols with
  | .ok m, .ok n => .ok ⟨m, n, fun i j =>
      f (A.val (bcastIdx A.rows i) (bcastIdx A.cols j)) (B.val (bcastIdx B.rows i) (bcastIdx B.cols j))⟩
  | .error e, _ => .error e
  | _, .error e => .error e

/-- An operation on every entry, in particular with a scalar. -/
def TMat.map (f : ℝ → ℝ) (A : TMat) : TMat := ⟨A.rows, A.cols, fun i j => f (A.val i j)⟩

/-- `tf.transpose` of a tensor of rank 2. -/
def TMat.transpose (A : TMat) : TMat := ⟨A.cols, A.rows, fun i j => A.val j i⟩

/-- `tf.linalg.matvec(A, v)`: the inner dimensions must be equal, the batch dimensions are broadcast. -/
def TCells.matvec (A : TCells) (v : TMat) : Except PyErr TMat :=
  if A.cols = v.cols then
    match bcastDim A.cells v.rows with
    | .error e => .error e
    | .ok n => .ok ⟨n, A.rows, fun c t =>
        ∑ q : Fin A.cols, A.val (bcastIdx A.cells c) t q * v.val (bcastIdx v.rows c) q⟩
  else .error .valueError

/-- `tf.reduce_mean(tf.square(R), axis=0)` of a tensor of rank 2 (without rows TensorFlow returns NaN, the model
`0`). -/
noncomputable def TMat.meanSquare0 (R : TMat) : TVec :=
  ⟨R.cols, fun j => (∑ i : Fin R.rows, R.val i j ^ 2) / R.rows⟩

/-- `tf.reduce_sum` of a tensor of rank 1. -/
def TVec.sum (v : TVec) : ℝ := ∑ i : Fin v.len, v.val i

/-- `tf.reshape(v, [d, q])` of `n` entries (row-major): `-1` stands for the number of rows that fits; it needs `q ≠ 0`
and a multiple of `q` entries.  Other negative numbers are rejected. -/
def tfReshape (n : ℕ) (v : ℕ → ℝ) (d : ℤ) (q : ℕ) : Except PyErr TMat :=
  if d = -1 then
    if q ≠ 0 ∧ q ∣ n then .ok ⟨n / q, q, fun i j => v (i * q + j)⟩ else .error .valueError
  else if 0 ≤ d ∧ d * q = n then .ok ⟨d.toNat, q, fun i j => v (i * q + j)⟩
  else .error .valueError

/-- A loss function applied to its first eight arguments, in the order of its signature. -/
abbrev TLoss := TCells → TCells → TCells → TMat → TMat → TMat → TMat → ParamDict → Except PyErr TVec

/-- `A + B`. -/
def TMat.add (A B : TMat) : Except PyErr TMat := A.zip (· + ·) B

/-- `A - B`. -/
def TMat.sub (A B : TMat) : Except PyErr TMat := A.zip (· - ·) B

/-- `A * B`, entry by entry. -/
def TMat.mul (A B : TMat) : Except PyErr TMat := A.zip (· * ·) B

/-- `tf.transpose(tf.linalg.matvec(A, v))`. -/
def TCells.matvecT (A : TCells) (v : TMat) : Except PyErr TMat :=
  match A.matvec v with
  | .error e => .error e
  | .ok M => .ok M.transpose

/-- `physics/poisson2d.py:18-44` (`pde_loss_poisson`). -/
noncomputable def tLossPoisson : TLoss := fun _V GX GY _u ux uy F params => do
  let diffX ← GX.matvecT ux
  let diffY ← GY.matvecT uy
  let eps ← paramGet params "eps"
  let diffusion := (← diffX.add diffY).map (eps * ·)
  let residual ← diffusion.sub F
  .ok residual.meanSquare0

/-- `physics/poisson2d_inverse.py:18-67` (`pde_loss_poisson_inverse`). -/
noncomputable def tLossPoissonInverse (inverseParams : ParamDict) : TLoss :=
  fun _V GX GY _u ux uy F _params => do
  let diffX ← GX.matvecT ux
  let diffY ← GY.matvecT uy
  let eps ← paramGet inverseParams "eps"
  let diffusion := (← diffX.add diffY).map (eps * ·)
  let residual ← diffusion.sub F
  .ok residual.meanSquare0

/-- The terms of lower order: `physics/cd2d.py:64-80` and
`physics/cd2d_inverse_domain.py:72-88` (the same text; `physics/cd2d_inverse.py` cannot be used, C49). -/
noncomputable def tLowerOrder (V : TCells) (u ux uy : TMat) (params : ParamDict) (diffusion F : TMat) :
    Except PyErr TVec := do
  let convX ← V.matvecT ux
  let convY ← V.matvecT uy
  let bx ← paramGet params "b_x"
  let by_ ← paramGet params "b_y"
  let conv ← (convX.map (bx * ·)).add (convY.map (by_ * ·))
  let c ← paramGet params "c"
  let reaction := (← V.matvecT u).map (c * ·)
  let residual ← (← (← diffusion.add conv).add reaction).sub F
  .ok residual.meanSquare0

/-- `physics/cd2d.py:18-82` (`pde_loss_cd2d`). -/
noncomputable def tLossCd2d : TLoss := fun V GX GY u ux uy F params => do
  let diffX ← GX.matvecT ux
  let diffY ← GY.matvecT uy
  let eps ← paramGet params "eps"
  let diffusion := (← diffX.add diffY).map (eps * ·)
  tLowerOrder V u ux uy params diffusion F

/-- `physics/cd2d_inverse_domain.py:18-90` (`pde_loss_cd2d_inverse_domain`); `coeff` is the first entry of
`inverse_params_list`. -/
noncomputable def tLossCd2dInverseDomain (coeff : TMat) : TLoss := fun V GX GY u ux uy F params => do
  let diffX ← GX.matvecT (← ux.mul coeff)
  let diffY ← GY.matvecT (← uy.mul coeff)
  let diffusion ← diffX.add diffY
  tLowerOrder V u ux uy params diffusion F

/-- `physics/helmholtz2d.py:18-70` (`pde_loss_helmholtz`). -/
noncomputable def tLossHelmholtz : TLoss := fun V GX GY u ux uy F params => do
  let diffX ← GX.matvecT ux
  let diffY ← GY.matvecT uy
  let eps ← paramGet params "eps"
  let diffusion := (← diffX.add diffY).map (eps * ·)
  let k ← paramGet params "k"
  let additional := (← V.matvecT u).map (k ^ 2 * ·)
  let residual ← (← (diffusion.map (-1.0 * ·)).add additional).sub F
  .ok residual.meanSquare0

/-- The tensors a model keeps (`model.py:77-95, 123`, the same in the other models), whatever their shapes.  The two
input tensors have two columns.  `dirichletActual` has rank 2; one of rank 1 and length `n` is broadcast as the matrix
`1 × n`. -/
structure TModelData where
  preMultiplierVal : TCells
  preMultiplierGradX : TCells
  preMultiplierGradY : TCells
  forceMatrix : TMat
  nIn : ℕ
  inputTensor : Fin nIn → ℝ × ℝ
  nBd : ℕ
  dirichletInput : Fin nBd → ℝ × ℝ
  dirichletActual : TMat
  nCells : ℤ

/-- What `train_step` returns (the entries it has; a list is a tensor of rank 1). -/
structure TTrainOut where
  lossPde : ℝ
  lossDirichlet : List ℝ
  loss : List ℝ
  sensorLoss : List ℝ

/-- The entries of a tensor of the exact model. -/
def entries1 {n : ℕ} (v : Fin n → ℝ) : ℕ → ℝ := fun i => if h : i < n then v ⟨i, h⟩ else 0

/-- A network output `n × dout` as a tensor. -/
def outputMat {n dout : ℕ} (v : Fin n → Fin dout → ℝ) : TMat :=
  ⟨n, dout, fun i j => if h : i < n ∧ j < dout then v ⟨i, h.1⟩ ⟨j, h.2⟩ else 0⟩

section
variable {dout : ℕ} (L : TLoss) (M : TModelData)

/-- `model.py:259-290`: prediction, gradients, reshapes, loss function (`model_hard.py:276-307`,
`model_inverse.py:266-299` the same). -/
noncomputable def tCellsResidual (net : Network dout) (bilinear : ParamDict) : Except PyErr TVec := do
  let predicted := net _ M.inputTensor
  let gradients := tapeGradient (ι := Fin M.nIn × Fin dout) (fun X i => net _ X i.1 i.2) M.inputTensor
  let gx ← tfReshape M.nIn (entries1 fun r => (gradients r).1) M.nCells M.preMultiplierGradX.cols
  let gy ← tfReshape M.nIn (entries1 fun r => (gradients r).2) M.nCells M.preMultiplierGradY.cols
  let v ← tfReshape (M.nIn * dout) (entries1 (flatten predicted)) M.nCells M.preMultiplierVal.cols
  L M.preMultiplierVal M.preMultiplierGradX M.preMultiplierGradY v gx gy M.forceMatrix bilinear

/-- `tf.reduce_mean(tf.square(predicted - actual), axis=0)` (`model.py:296-298`). -/
noncomputable def tMeanSquareError (predicted actual : TMat) : Except PyErr TVec := do
  let d ← predicted.sub actual
  .ok d.meanSquare0

/-- `model/model.py:237-307` (`DenseModel.train_step`). -/
noncomputable def tTrainStepDense (net : Network dout) (beta : ℝ) (bilinear : ParamDict) : Except PyErr TTrainOut := do
  let residuals ← tCellsResidual L M net bilinear
  let totalPde := 0.0 + residuals.sum
  let boundary ← tMeanSquareError (outputMat (net _ M.dirichletInput)) M.dirichletActual
  .ok ⟨totalPde, boundary.toList, boundary.toList.map fun b => totalPde + beta * b, []⟩

/-- `model/model_hard.py:258-330` (`DenseModel_Hard.train_step`): all scalars, as lists with one entry. -/
noncomputable def tTrainStepHard (net : Network dout) (_beta : ℝ) (bilinear : ParamDict) : Except PyErr TTrainOut := do
  let residuals ← tCellsResidual L M net bilinear
  let totalPde := 0.0 + residuals.sum
  .ok ⟨totalPde, [0.0], [totalPde], []⟩

/-- The total loss `total_pde_loss + beta * boundary_loss + 10 * sensor_loss` (`model_inverse.py:321`,
`model_inverse_domain.py:331`). -/
noncomputable def tTotalLoss (totalPde beta : ℝ) (boundary sensor : TVec) : Except PyErr TVec :=
  TVec.zip (fun b s => totalPde + beta * b + 10 * s) boundary sensor

/-- `model/model_inverse.py:252-338` (`DenseModel_Inverse.train_step`). -/
noncomputable def tTrainStepInverse {nS : ℕ} (sensorPoints : Fin nS → ℝ × ℝ) (sensorValues : TMat)
    (net : Network dout) (beta : ℝ) (bilinear : ParamDict) : Except PyErr TTrainOut := do
  let residuals ← tCellsResidual L M net bilinear
  let totalPde := 0.0 + residuals.sum
  let boundary ← tMeanSquareError (outputMat (net _ M.dirichletInput)) M.dirichletActual
  let sensor ← tMeanSquareError (outputMat (net _ sensorPoints)) sensorValues
  let total ← tTotalLoss totalPde beta boundary sensor
  .ok ⟨totalPde, boundary.toList, total.toList, sensor.toList⟩

/-- `model/model_inverse_domain.py:241-342` (`DenseModel_Inverse_Domain.train_step`) with the loss function
`pde_loss_cd2d_inverse_domain`. -/
noncomputable def tTrainStepInverseDomain {nS : ℕ} (sensorPoints : Fin nS → ℝ × ℝ) (sensorValues : TMat)
    (net : Network dout) (beta : ℝ) (bilinear : ParamDict) : Except PyErr TTrainOut :=
  if h : 2 ≤ dout then do
    let col0 : Fin dout := ⟨0, by omega⟩
    let col1 : Fin dout := ⟨1, by omega⟩
    let predicted := fun r => net _ M.inputTensor r col0
    let coefficient := fun r => net _ M.inputTensor r col1
    let gradients := tapeGradient (ι := Fin M.nIn) (fun X r => net _ X r col0) M.inputTensor
    let gx ← tfReshape M.nIn (entries1 fun r => (gradients r).1) M.nCells M.preMultiplierGradX.cols
    let gy ← tfReshape M.nIn (entries1 fun r => (gradients r).2) M.nCells M.preMultiplierGradY.cols
    let v ← tfReshape M.nIn (entries1 predicted) M.nCells M.preMultiplierVal.cols
    let k ← tfReshape M.nIn (entries1 coefficient) M.nCells M.preMultiplierVal.cols
    let residuals ← tLossCd2dInverseDomain k M.preMultiplierVal M.preMultiplierGradX M.preMultiplierGradY v gx gy
      M.forceMatrix bilinear
    let totalPde := 0.0 + residuals.sum
    let boundary ← tMeanSquareError (outputMat fun r (_ : Fin 1) => net _ M.dirichletInput r col0) M.dirichletActual
    let sensor ← tMeanSquareError (outputMat fun r (_ : Fin 1) => net _ sensorPoints r col0) sensorValues
    let total ← tTotalLoss totalPde beta boundary sensor
    .ok ⟨totalPde, boundary.toList, total.toList, sensor.toList⟩
  else .error .indexError

end

/-- The tensors of the exact model with their shapes. -/
def TModelData.ofExact {nc nt nq nIn nBd : ℕ} (M : ModelData nc nt nq nIn nBd) : TModelData where
  preMultiplierVal := ⟨nc, nt, nq, fun c t q => if h : c < nc ∧ t < nt ∧ q < nq then
    M.preMultiplierVal ⟨c, h.1⟩ ⟨t, h.2.1⟩ ⟨q, h.2.2⟩ else 0⟩
  preMultiplierGradX := ⟨nc, nt, nq, fun c t q => if h : c < nc ∧ t < nt ∧ q < nq then
    M.preMultiplierGradX ⟨c, h.1⟩ ⟨t, h.2.1⟩ ⟨q, h.2.2⟩ else 0⟩
  preMultiplierGradY := ⟨nc, nt, nq, fun c t q => if h : c < nc ∧ t < nt ∧ q < nq then
    M.preMultiplierGradY ⟨c, h.1⟩ ⟨t, h.2.1⟩ ⟨q, h.2.2⟩ else 0⟩
  forceMatrix := outputMat M.forceMatrix
  nIn := nIn
  inputTensor := M.inputTensor
  nBd := nBd
  dirichletInput := M.dirichletInput
  dirichletActual := outputMat fun r (_ : Fin 1) => M.dirichletActual r
  nCells := M.nCells

end FastVPINNs
