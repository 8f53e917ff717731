import Verif.Model.Train
import Verif.Model.Utils
import Verif.Spec.WeakForm

/-! # The same computations in floating-point arithmetic

The rest of the model computes with real numbers.  Here the arithmetic of the loss functions, of
`train_step` and of the error metrics is modelled again, with rounding.  An operation returns the exact
result times `1 + δ` for some `|δ| ≤ u`, where `u` is the unit roundoff of the precision (`2⁻²⁴` for
`float32`, `2⁻⁵³` for `float64`).  A sum may be evaluated in every order and with every grouping, as the
order TensorFlow and numpy use depends on the device, the shapes and the number of threads.  A product
inside a sum may be exact (`δ = 0`), which covers fused multiply-add.  Overflow, infinities and
NaN are in `Model/Special.lean`, underflow is in `Model/Underflow.lean`. -/

namespace FastVPINNs

/-- A possible result of adding up the numbers of a list. -/
inductive SumRun (u : ℝ) : List ℝ → ℝ → Prop
  | nil : SumRun u [] 0
  | one (x : ℝ) : SumRun u [x] x
  | add {l m : List ℝ} {x y δ : ℝ} (hl : l ≠ []) (hm : m ≠ []) (hx : SumRun u l x) (hy : SumRun u m y)
      (hδ : |δ| ≤ u) : SumRun u (l ++ m) ((x + y) * (1 + δ))
  | perm {l m : List ℝ} {x : ℝ} (h : l.Perm m) (hx : SumRun u l x) : SumRun u m x

/-- An arithmetic expression over numbers of type `α`: the operations a piece of code carries out. -/
inductive ExprOf (α : Type)
  /-- A number that is read; `j` roundings have happened since it was exact. -/
  | val (j : ℕ) (x : α)
  | add (a b : ExprOf α)
  | sub (a b : ExprOf α)
  | mul (a b : ExprOf α)
  /-- `tf.square`, `np.square`. -/
  | sq (a : ExprOf α)
  /-- `np.abs`, which is exact. -/
  | abs (a : ExprOf α)
  /-- A sum of `n` terms. -/
  | sum (n : ℕ) (f : Fin n → ExprOf α)
  /-- A mean: the sum divided by the number of terms, or multiplied by its rounded reciprocal. -/
  | mean (n : ℕ) (f : Fin n → ExprOf α)

/-- Expressions over the real numbers. -/
abbrev Expr := ExprOf ℝ

/-- Numbers that contain the real ones. -/
class Leaf (α : Type) where
  ofReal : ℝ → α

instance : Leaf ℝ := ⟨fun x => x⟩

@[simp] lemma leaf_real (x : ℝ) : (Leaf.ofReal x : ℝ) = x := rfl

namespace ExprOf

/-- The exact value. -/
noncomputable def eval : Expr → ℝ
  | val _ x => x
  | add a b => a.eval + b.eval
  | sub a b => a.eval - b.eval
  | mul a b => a.eval * b.eval
  | sq a => a.eval ^ 2
  | abs a => |a.eval|
  | sum _ f => ∑ i, (f i).eval
  | mean n f => (∑ i, (f i).eval) / n

/-- The possible values in floating-point arithmetic with unit roundoff `u`. -/
def Run (u : ℝ) : Expr → ℝ → Prop
  | val j x, r => |r - x| ≤ ((1 + u) ^ j - 1) * |x|
  | add a b, r => ∃ x y δ, a.Run u x ∧ b.Run u y ∧ |δ| ≤ u ∧ r = (x + y) * (1 + δ)
  | sub a b, r => ∃ x y δ, a.Run u x ∧ b.Run u y ∧ |δ| ≤ u ∧ r = (x - y) * (1 + δ)
  | mul a b, r => ∃ x y δ, a.Run u x ∧ b.Run u y ∧ |δ| ≤ u ∧ r = x * y * (1 + δ)
  | sq a, r => ∃ x δ, a.Run u x ∧ |δ| ≤ u ∧ r = x ^ 2 * (1 + δ)
  | abs a, r => ∃ x, a.Run u x ∧ r = |x|
  | sum n f, r => ∃ x : Fin n → ℝ, (∀ i, (f i).Run u (x i)) ∧ SumRun u (List.ofFn x) r
  | mean n f, r => ∃ (x : Fin n → ℝ) (s δ ε : ℝ), (∀ i, (f i).Run u (x i)) ∧ SumRun u (List.ofFn x) s ∧
      |δ| ≤ u ∧ |ε| ≤ u ∧ r = s / n * (1 + δ) * (1 + ε)

/-- One particular evaluation: every operation is rounded by `fl` and sums go from left to right, starting with
the first term. -/
noncomputable def inOrder (fl : ℝ → ℝ) : Expr → ℝ
  | val j x => if j = 0 then x else fl x
  | add a b => fl (a.inOrder fl + b.inOrder fl)
  | sub a b => fl (a.inOrder fl - b.inOrder fl)
  | mul a b => fl (a.inOrder fl * b.inOrder fl)
  | sq a => fl (a.inOrder fl ^ 2)
  | abs a => |a.inOrder fl|
  | sum _ f => sumInOrder fl (List.ofFn fun i => (f i).inOrder fl)
  | mean n f => fl (sumInOrder fl (List.ofFn fun i => (f i).inOrder fl) / n)
where
  /-- The sum from left to right. -/
  sumInOrder (fl : ℝ → ℝ) : List ℝ → ℝ
    | [] => 0
    | x :: l => l.foldl (fun s y => fl (s + y)) x

end ExprOf

/-! ## The loss functions -/

section
variable {nc nt nq : ℕ} {α : Type}

/-- `tf.linalg.matvec(A, v)` for a batch of matrices and a batch of vectors. -/
def matvecE (A : Fin nc → Fin nt → Fin nq → ExprOf α) (v : Fin nc → Fin nq → ExprOf α) :
    Fin nc → Fin nt → ExprOf α := fun c t => .sum nq fun q => .mul (A c t q) (v c q)

/-- `tf.transpose` of a matrix. -/
def transposeE {m n : ℕ} (M : Fin m → Fin n → ExprOf α) : Fin n → Fin m → ExprOf α := fun j i => M i j

/-- `tf.reduce_mean(tf.square(R), axis=0)`. -/
def meanSquare0E {m n : ℕ} (R : Fin m → Fin n → ExprOf α) : Fin n → ExprOf α :=
  fun j => .mean m fun i => .sq (R i j)

/-- The entries of a tensor, each after `j` roundings. -/
def readMat (j : ℕ) (A : Fin nc → Fin nt → Fin nq → α) : Fin nc → Fin nt → Fin nq → ExprOf α :=
  fun c t q => .val j (A c t q)

/-- The entries of a matrix, each after `j` roundings. -/
def readPred {m n : ℕ} (j : ℕ) (v : Fin m → Fin n → α) : Fin m → Fin n → ExprOf α := fun c q => .val j (v c q)

/-- `d[key]` of a parameter that is a tensor of the precision in use. -/
def paramGetE [Leaf α] (j : ℕ) (d : ParamDict) (key : String) : Except PyErr (ExprOf α) :=
  match paramGet d key with
  | .error e => .error e
  | .ok v => .ok (.val j (Leaf.ofReal v))

variable (j : ℕ) [Leaf α] (V GX GY : Fin nc → Fin nt → Fin nq → α) (u ux uy : Fin nc → Fin nq → α)
  (F : Fin nt → Fin nc → α)

/-- `physics/poisson2d.py:18-44` (`pde_loss_poisson`); `physics/poisson2d_inverse.py:18-67` does the same
operations with the dictionary of inverse parameters. -/
def pdeLossPoissonE (params : ParamDict) : Except PyErr (Fin nc → ExprOf α) :=
  let diffX := transposeE (matvecE (readMat j GX) (readPred j ux))
  let diffY := transposeE (matvecE (readMat j GY) (readPred j uy))
  match paramGetE j params "eps" with
  | .error e => .error e
  | .ok eps =>
    let diffusion := fun t c => ExprOf.mul eps (.add (diffX t c) (diffY t c))
    .ok (meanSquare0E fun t c => .sub (diffusion t c) (readPred j F t c))

/-- The convection and reaction terms and the residual, `physics/cd2d.py:64-80`, the same in
`physics/cd2d_inverse.py:66-84` and `physics/cd2d_inverse_domain.py:72-88`, after the diffusion term. -/
def pdeLossCd2dRestE (params : ParamDict) (diffusion : Fin nt → Fin nc → ExprOf α) :
    Except PyErr (Fin nc → ExprOf α) :=
  let convX := transposeE (matvecE (readMat j V) (readPred j ux))
  let convY := transposeE (matvecE (readMat j V) (readPred j uy))
  match paramGetE j params "b_x", paramGetE j params "b_y" with
  | .error e, _ => .error e
  | _, .error e => .error e
  | .ok bx, .ok by_ =>
    let conv := fun t c => ExprOf.add (.mul bx (convX t c)) (.mul by_ (convY t c))
    match paramGetE j params "c" with
    | .error e => .error e
    | .ok cc =>
      let reaction := fun t c => ExprOf.mul cc (transposeE (matvecE (readMat j V) (readPred j u)) t c)
      .ok (meanSquare0E fun t c =>
        .sub (.add (.add (diffusion t c) (conv t c)) (reaction t c)) (readPred j F t c))

/-- `physics/cd2d.py:18-82` and, with `epsParams` the inverse parameters, `physics/cd2d_inverse.py:18-86`. -/
def pdeLossCd2dE (epsParams params : ParamDict) : Except PyErr (Fin nc → ExprOf α) :=
  let diffX := transposeE (matvecE (readMat j GX) (readPred j ux))
  let diffY := transposeE (matvecE (readMat j GY) (readPred j uy))
  match paramGetE j epsParams "eps" with
  | .error e => .error e
  | .ok eps =>
    pdeLossCd2dRestE j V u ux uy F params fun t c => .mul eps (.add (diffX t c) (diffY t c))

/-- `physics/cd2d_inverse_domain.py:18-90`. -/
def pdeLossCd2dInverseDomainE (params : ParamDict) (inverseParams : List (Fin nc → Fin nq → α)) :
    Except PyErr (Fin nc → ExprOf α) :=
  match pyIndex inverseParams 0 with
  | .error e => .error e
  | .ok coeff =>
    let diffX := transposeE (matvecE (readMat j GX) fun c q => .mul (.val j (ux c q)) (.val j (coeff c q)))
    let diffY := transposeE (matvecE (readMat j GY) fun c q => .mul (.val j (uy c q)) (.val j (coeff c q)))
    pdeLossCd2dRestE j V u ux uy F params fun t c => .add (diffX t c) (diffY t c)

/-- `physics/helmholtz2d.py:18-70`; the power `k ** 2` is one product. -/
def pdeLossHelmholtzE (params : ParamDict) : Except PyErr (Fin nc → ExprOf α) :=
  let diffX := transposeE (matvecE (readMat j GX) (readPred j ux))
  let diffY := transposeE (matvecE (readMat j GY) (readPred j uy))
  match paramGetE j params "eps" with
  | .error e => .error e
  | .ok eps =>
    let diffusion := fun t c => ExprOf.mul eps (.add (diffX t c) (diffY t c))
    match paramGetE j params "k" with
    | .error e => .error e
    | .ok k =>
      let additional := fun t c =>
        ExprOf.mul (.mul k k) (transposeE (matvecE (readMat j V) (readPred j u)) t c)
      .ok (meanSquare0E fun t c =>
        .sub (.add (.mul (.val 0 (Leaf.ofReal (-1.0))) (diffusion t c)) (additional t c)) (readPred j F t c))

/-- The body of the chosen loss function. -/
def lossE (kind : Spec.LossKind) (params inverseParams : ParamDict)
    (coeffs : List (Fin nc → Fin nq → α)) : Except PyErr (Fin nc → ExprOf α) :=
  match kind with
  | .poisson => pdeLossPoissonE j GX GY ux uy F params
  | .cd2d => pdeLossCd2dE j V GX GY u ux uy F params params
  | .helmholtz => pdeLossHelmholtzE j V GX GY u ux uy F params
  | .poissonInverse => pdeLossPoissonE j GX GY ux uy F inverseParams
  | .cd2dInverse => pdeLossCd2dE j V GX GY u ux uy F inverseParams params
  | .cd2dInverseDomain => pdeLossCd2dInverseDomainE j V GX GY u ux uy F params coeffs

end

/-! ## `train_step` -/

section
variable {nc nt nq nIn nBd dout : ℕ} {α : Type}

/-- `tf.reduce_mean(tf.square(predicted - actual), axis=0)`. -/
def meanSquareErrorE {n : ℕ} (j : ℕ) (predicted : Fin n → Fin dout → α) (actual : Fin n → α) :
    Fin dout → ExprOf α := meanSquare0E fun r i => .sub (.val j (predicted r i)) (.val j (actual r))

/-- `total_pde_loss + reduce_sum(cells_residual)` with `total_pde_loss = 0.0`. -/
def totalPdeE [Leaf α] (residuals : Fin nc → ExprOf α) : ExprOf α := .add (.val 0 (Leaf.ofReal 0.0)) (.sum nc residuals)

/-- `model/model.py:259-288`: prediction, gradients, reshapes and the loss function, for the losses that
are called with scalar parameters.  The network values and their derivatives are read with `j` roundings:
how TensorFlow evaluates and differentiates the network is not modelled. -/
noncomputable def cellsResidualE (j : ℕ) (kind : Spec.LossKind) (M : ModelData nc nt nq nIn nBd)
    (net : Network dout) (bilinear inverseParams : ParamDict) : Except PyErr (Fin nc → Expr) :=
  let predicted := net _ M.inputTensor
  let gradients := tapeGradient (ι := Fin nIn × Fin dout) (fun X i => net _ X i.1 i.2) M.inputTensor
  match reshapeCells nc nq M.nCells (fun r => (gradients r).1),
      reshapeCells nc nq M.nCells (fun r => (gradients r).2),
      reshapeCells nc nq M.nCells (flatten predicted) with
  | .ok gx, .ok gy, .ok v =>
    lossE j M.preMultiplierVal M.preMultiplierGradX M.preMultiplierGradY v gx gy M.forceMatrix kind
      bilinear inverseParams []
  | .error e, _, _ => .error e
  | _, .error e, _ => .error e
  | _, _, .error e => .error e

/-- The possible results of `DenseModel.train_step` (`model/model.py:237-307`) with rounding. -/
def RoundedDense (u : ℝ) (j : ℕ) (kind : Spec.LossKind) (M : ModelData nc nt nq nIn nBd)
    (net : Network dout) (beta : ℝ) (bilinear : ParamDict) (out : TrainOut dout) : Prop :=
  ∃ residuals, cellsResidualE j kind M net bilinear none = .ok residuals ∧
    (totalPdeE residuals).Run u out.lossPde ∧
    (∀ i, (meanSquareErrorE j (net _ M.dirichletInput) M.dirichletActual i).Run u (out.lossDirichlet i)) ∧
    ∀ i, (ExprOf.add (.val 0 out.lossPde) (.mul (.val j beta) (.val 0 (out.lossDirichlet i)))).Run u
      (out.loss i)

/-- The possible results of `DenseModel_Hard.train_step` (`model/model_hard.py:258-330`) with rounding. -/
def RoundedHard (u : ℝ) (j : ℕ) (kind : Spec.LossKind) (M : ModelData nc nt nq nIn nBd)
    (net : Network dout) (bilinear : ParamDict) (out : TrainOutHard) : Prop :=
  ∃ residuals, cellsResidualE j kind M net bilinear none = .ok residuals ∧
    (totalPdeE residuals).Run u out.lossPde ∧ out.lossDirichlet = 0 ∧ out.loss = out.lossPde

/-- The loss of the inverse models, `total_pde_loss + beta * boundary_loss + 10 * sensor_loss`, with
rounding (`model/model_inverse.py:326`, `model/model_inverse_domain.py:331`). -/
def RoundedTotalInverse (u : ℝ) (j : ℕ) (beta pde boundary sensor loss : ℝ) : Prop :=
  (ExprOf.add (.add (.val 0 pde) (.mul (.val j beta) (.val 0 boundary))) (.mul (.val 0 10) (.val 0 sensor))).Run
    u loss

/-- The possible results of `DenseModel_Inverse.train_step` (`model/model_inverse.py:252-338`) with
rounding. -/
def RoundedInverse {nS : ℕ} (u : ℝ) (j : ℕ) (kind : Spec.LossKind) (M : ModelData nc nt nq nIn nBd)
    (sensorPoints : Fin nS → ℝ × ℝ) (sensorValues : Fin nS → ℝ) (inverseParams : ParamDict)
    (net : Network dout) (beta : ℝ) (bilinear : ParamDict) (out : TrainOutInverse dout) : Prop :=
  ∃ residuals, cellsResidualE j kind M net bilinear inverseParams = .ok residuals ∧
    (totalPdeE residuals).Run u out.lossPde ∧
    (∀ i, (meanSquareErrorE j (net _ M.dirichletInput) M.dirichletActual i).Run u (out.lossDirichlet i)) ∧
    (∀ i, (meanSquareErrorE j (net _ sensorPoints) sensorValues i).Run u (out.sensorLoss i)) ∧
    ∀ i, RoundedTotalInverse u j beta out.lossPde (out.lossDirichlet i) (out.sensorLoss i) (out.loss i)

/-- The possible results of `DenseModel_Inverse_Domain.train_step` (`model/model_inverse_domain.py:241-342`)
with rounding: column 0 of the network output is the solution, column 1 the coefficient. -/
def RoundedInverseDomain {nS : ℕ} (u : ℝ) (j : ℕ) (M : ModelData nc nt nq nIn nBd)
    (sensorPoints : Fin nS → ℝ × ℝ) (sensorValues : Fin nS → ℝ) (net : Network (dout + 2)) (beta : ℝ)
    (bilinear : ParamDict) (out : TrainOutInverse 1) : Prop :=
  ∃ gx gy v k residuals,
    let gradients := tapeGradient (ι := Fin nIn) (fun X r => net _ X r 0) M.inputTensor
    reshapeCells nc nq M.nCells (fun r => (gradients r).1) = .ok gx ∧
    reshapeCells nc nq M.nCells (fun r => (gradients r).2) = .ok gy ∧
    reshapeCells nc nq M.nCells (fun r => net _ M.inputTensor r 0) = .ok v ∧
    reshapeCells nc nq M.nCells (fun r => net _ M.inputTensor r 1) = .ok k ∧
    lossE j M.preMultiplierVal M.preMultiplierGradX M.preMultiplierGradY v gx gy M.forceMatrix
      .cd2dInverseDomain bilinear none [k] = .ok residuals ∧
    (totalPdeE residuals).Run u out.lossPde ∧
    (meanSquareErrorE j (fun r (_ : Fin 1) => net _ M.dirichletInput r 0) M.dirichletActual 0).Run u
      (out.lossDirichlet 0) ∧
    (meanSquareErrorE j (fun r (_ : Fin 1) => net _ sensorPoints r 0) sensorValues 0).Run u
      (out.sensorLoss 0) ∧
    RoundedTotalInverse u j beta out.lossPde (out.lossDirichlet 0) (out.sensorLoss 0) (out.loss 0)

end

end FastVPINNs
