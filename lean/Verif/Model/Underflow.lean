import Verif.Model.Rounded

/-! # Underflow and inexact inputs

The computations of `Model/Rounded.lean`, where now an operation may also lose an absolute amount of at most `η`: the
result is the exact one times `1 + δ` plus `θ` with `|δ| ≤ u`, `|θ| ≤ η`.  For gradual underflow `η` is half the smallest
positive number, for an arithmetic that replaces results below the smallest normal number by zero (TensorFlow's kernels
do) it is that number.  The inputs of a step are the numbers that are read: the tensors as stored and the values and
derivatives as the network returned them. -/

namespace FastVPINNs

/-- A possible result of an operation whose exact result is `x`. -/
def FlU (u η x r : ℝ) : Prop := ∃ δ θ, |δ| ≤ u ∧ |θ| ≤ η ∧ r = x * (1 + δ) + θ

/-- A possible result of adding up the numbers of a list. -/
inductive SumRunU (u η : ℝ) : List ℝ → ℝ → Prop
  | nil : SumRunU u η [] 0
  | one (x : ℝ) : SumRunU u η [x] x
  | add {l m : List ℝ} {x y r : ℝ} (hl : l ≠ []) (hm : m ≠ []) (hx : SumRunU u η l x) (hy : SumRunU u η m y)
      (hr : FlU u η (x + y) r) : SumRunU u η (l ++ m) r
  | perm {l m : List ℝ} {x : ℝ} (h : l.Perm m) (hx : SumRunU u η l x) : SumRunU u η m x

/-- The possible values of an expression.  A number that is read with `j` roundings since it was exact has also lost at
most `j` times `η`. -/
def ExprOf.RunU (u η : ℝ) : Expr → ℝ → Prop
  | val j x, r => |r - x| ≤ ((1 + u) ^ j - 1) * |x| + (1 + u) ^ j * (j * η)
  | add a b, r => ∃ x y, a.RunU u η x ∧ b.RunU u η y ∧ FlU u η (x + y) r
  | sub a b, r => ∃ x y, a.RunU u η x ∧ b.RunU u η y ∧ FlU u η (x - y) r
  | mul a b, r => ∃ x y, a.RunU u η x ∧ b.RunU u η y ∧ FlU u η (x * y) r
  | sq a, r => ∃ x, a.RunU u η x ∧ FlU u η (x ^ 2) r
  | abs a, r => ∃ x, a.RunU u η x ∧ r = |x|
  | sum n f, r => ∃ x : Fin n → ℝ, (∀ i, (f i).RunU u η (x i)) ∧ SumRunU u η (List.ofFn x) r
  | mean n f, r => ∃ (x : Fin n → ℝ) (s δ : ℝ), (∀ i, (f i).RunU u η (x i)) ∧ SumRunU u η (List.ofFn x) s ∧
      |δ| ≤ u ∧ FlU u η (s / n * (1 + δ)) r

/-- What a training step reads: the tensors of the data handler, and the values and derivatives that the network
returned. -/
structure LossInput (nc nt nq nBd dout : ℕ) where
  V : Fin nc → Fin nt → Fin nq → ℝ
  GX : Fin nc → Fin nt → Fin nq → ℝ
  GY : Fin nc → Fin nt → Fin nq → ℝ
  F : Fin nt → Fin nc → ℝ
  u : Fin nc → Fin nq → ℝ
  ux : Fin nc → Fin nq → ℝ
  uy : Fin nc → Fin nq → ℝ
  coeffs : List (Fin nc → Fin nq → ℝ)
  bdPredicted : Fin nBd → Fin dout → ℝ
  bdActual : Fin nBd → ℝ

section
variable {nc nt nq nBd dout : ℕ} (u η : ℝ) (j : ℕ) (kind : Spec.LossKind) (I : LossInput nc nt nq nBd dout)
  (bilinear inverseParams : ParamDict)

/-- The losses of the cells. -/
def LossInput.residuals : Except PyErr (Fin nc → Expr) :=
  lossE j I.V I.GX I.GY I.u I.ux I.uy I.F kind bilinear inverseParams I.coeffs

/-- The possible results of `DenseModel.train_step` (`model/model.py:259-307`). -/
def UnderflowDense (beta : ℝ) (out : TrainOut dout) : Prop :=
  ∃ residuals, I.residuals j kind bilinear none = .ok residuals ∧
    (totalPdeE residuals).RunU u η out.lossPde ∧
    (∀ i, (meanSquareErrorE j I.bdPredicted I.bdActual i).RunU u η (out.lossDirichlet i)) ∧
    ∀ i, (ExprOf.add (.val 0 out.lossPde) (.mul (.val j beta) (.val 0 (out.lossDirichlet i)))).RunU u η (out.loss i)

/-- The possible results of `DenseModel_Hard.train_step` (`model/model_hard.py:280-330`). -/
def UnderflowHard (out : TrainOutHard) : Prop :=
  ∃ residuals, I.residuals j kind bilinear none = .ok residuals ∧ (totalPdeE residuals).RunU u η out.lossPde ∧
    out.lossDirichlet = 0 ∧ out.loss = out.lossPde

/-- The possible results of `DenseModel_Inverse.train_step` (`model/model_inverse.py:275-338`) and of
`DenseModel_Inverse_Domain.train_step` (`model/model_inverse_domain.py:265-342`), which differ in the loss
function and in where the predictions come from. -/
def UnderflowInverse {nS : ℕ} (sensorPredicted : Fin nS → Fin dout → ℝ) (sensorValues : Fin nS → ℝ)
    (beta : ℝ) (out : TrainOutInverse dout) : Prop :=
  ∃ residuals, I.residuals j kind bilinear inverseParams = .ok residuals ∧
    (totalPdeE residuals).RunU u η out.lossPde ∧
    (∀ i, (meanSquareErrorE j I.bdPredicted I.bdActual i).RunU u η (out.lossDirichlet i)) ∧
    (∀ i, (meanSquareErrorE j sensorPredicted sensorValues i).RunU u η (out.sensorLoss i)) ∧
    ∀ i, (ExprOf.add (.add (.val 0 out.lossPde) (.mul (.val j beta) (.val 0 (out.lossDirichlet i))))
      (.mul (.val 0 10) (.val 0 (out.sensorLoss i)))).RunU u η (out.loss i)

end

end FastVPINNs
