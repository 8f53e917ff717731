import Verif.Spec.Training

/-! # Specification: networks that are large enough -/

namespace FastVPINNs.Spec

/-- An architecture with two inputs, `dout` outputs and at least one hidden layer, whose hidden layers have at
least two units each and the last of them at least three per point, for `n` points. -/
structure LargeFor (dims : List ℕ) (dout n : ℕ) : Prop where
  hidden : 3 ≤ dims.length
  input : dims.getD 0 0 = 2
  output : dims.getD (dims.length - 1) 0 = dout
  width : ∀ k, 1 ≤ k → k + 2 < dims.length → 2 ≤ dims.getD k 0
  last : 3 * n ≤ dims.getD (dims.length - 2) 0

/-- The network that is the function `v`. -/
def asNetwork {dout : ℕ} (v : Fin dout → ℝ × ℝ → ℝ) : Network dout := fun _ X r j => v j (X r)

/-- The points at which a training step of `DenseModel` evaluates the network. -/
def IsTrainingPoint {nc nt nq nIn nBd : ℕ} (M : ModelData nc nt nq nIn nBd) (z : ℝ × ℝ) : Prop :=
  (∃ r, M.inputTensor r = z) ∨ ∃ i, M.dirichletInput i = z

end FastVPINNs.Spec
