import Verif.Model.Broadcast

/-! # Specification: shapes of the tensors -/

namespace FastVPINNs.Spec

/-- Two dimensions that may be combined: equal, or one of them is 1. -/
def DimsFit (a b : ℕ) : Prop := a = b ∨ a = 1 ∨ b = 1

/-- The common dimension of two that fit. -/
def joint (a b : ℕ) : ℕ := if a = 1 then b else a

/-- The number of cells that the argument `n_cells` stands for: `-1` is "what fits". -/
def cellsMeant (nCells : ℤ) (nc : ℕ) : ℤ := if nCells = -1 then nc else nCells

/-- The three tensors of test functions have the same shape. -/
structure SameShapes (M : TModelData) (nc nt nq : ℕ) : Prop where
  val : M.preMultiplierVal.cells = nc ∧ M.preMultiplierVal.rows = nt ∧ M.preMultiplierVal.cols = nq
  gradX : M.preMultiplierGradX.cells = nc ∧ M.preMultiplierGradX.rows = nt ∧ M.preMultiplierGradX.cols = nq
  gradY : M.preMultiplierGradY.cells = nc ∧ M.preMultiplierGradY.rows = nt ∧ M.preMultiplierGradY.cols = nq

/-- The result of `train_step` of `DenseModel` as lists. -/
def denseOut {dout : ℕ} (o : TrainOut dout) : TTrainOut :=
  ⟨o.lossPde, List.ofFn o.lossDirichlet, List.ofFn o.loss, []⟩

/-- The result of `train_step` of `DenseModel_Hard` as lists. -/
def hardOut (o : TrainOutHard) : TTrainOut := ⟨o.lossPde, [o.lossDirichlet], [o.loss], []⟩

/-- The result of `train_step` of the inverse models as lists. -/
def inverseOut {dout : ℕ} (o : TrainOutInverse dout) : TTrainOut :=
  ⟨o.lossPde, List.ofFn o.lossDirichlet, List.ofFn o.loss, List.ofFn o.sensorLoss⟩

/-- The same result, up to the form of the output: the same values or the same error. -/
def SameResult {α β : Type} (f : β → α) (x : Except PyErr α) (y : Except PyErr β) : Prop :=
  match y with
  | .ok o => x = .ok (f o)
  | .error e => x = .error e

end FastVPINNs.Spec
