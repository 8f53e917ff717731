import Verif.Model.Train
import Verif.Spec.WeakForm
import Verif.Spec.Plane

/-! # Specification: training losses -/

namespace FastVPINNs.Spec

/-- The network treats the rows of a batch independently: output `j` at a point is `u j` of the point. -/
def RowWise {dout : ℕ} (net : Network dout) (u : Fin dout → ℝ × ℝ → ℝ) : Prop :=
  ∀ (n : ℕ) (X : Fin n → ℝ × ℝ) (r : Fin n) (j : Fin dout), net n X r j = u j (X r)

/-- The tensors fit together: `n_cells` is the number of cells and the input tensor has one row per
quadrature point, `pt c q` being row `c * n_quad + q`. -/
structure Shaped {nc nt nq nIn nBd : ℕ} (M : ModelData nc nt nq nIn nBd)
    (pt : Fin nc → Fin nq → ℝ × ℝ) : Prop where
  cells : M.nCells = nc
  rows : nIn = nc * nq
  point : ∀ (c : Fin nc) (q : Fin nq) (r : Fin nIn), r.val = c.val * nq + q.val → M.inputTensor r = pt c q

/-- The Python loss function of each kind. -/
noncomputable def lossOf (kind : LossKind) (nc nt nq : ℕ) : LossFunction nc nt nq :=
  match kind with
  | .poisson => lossPoisson nc nt nq
  | .cd2d => lossCd2d nc nt nq
  | .helmholtz => lossHelmholtz nc nt nq
  | .poissonInverse => lossPoissonInverse nc nt nq
  | .cd2dInverse => lossCd2dInverse nc nt nq
  | .cd2dInverseDomain => lossCd2dInverseDomain nc nt nq

/-- The losses meant for `DenseModel` and `DenseModel_Hard`. -/
def LossKind.forward (kind : LossKind) : Prop := kind = .poisson ∨ kind = .cd2d ∨ kind = .helmholtz

/-- Sum over the cells of the mean squared tested residuals of the function `u` sampled at `pt`. -/
noncomputable def pdeLoss {nc nt nq nIn nBd : ℕ} (M : ModelData nc nt nq nIn nBd)
    (pt : Fin nc → Fin nq → ℝ × ℝ) (u : ℝ × ℝ → ℝ) (a : Fin nc → Fin nq → ℝ) (b : ℝ × ℝ) (r : ℝ) : ℝ :=
  ∑ c, meanSq (testedResidual M.preMultiplierVal M.preMultiplierGradX M.preMultiplierGradY
    (fun c q => u (pt c q)) (fun c q => dx u (pt c q)) (fun c q => dy u (pt c q)) M.forceMatrix a b r c)

/-- All tested residuals of `u` are zero. -/
def AllResidualsZero {nc nt nq nIn nBd : ℕ} (M : ModelData nc nt nq nIn nBd)
    (pt : Fin nc → Fin nq → ℝ × ℝ) (u : ℝ × ℝ → ℝ) (a : Fin nc → Fin nq → ℝ) (b : ℝ × ℝ) (r : ℝ) : Prop :=
  ∀ c t, testedResidual M.preMultiplierVal M.preMultiplierGradX M.preMultiplierGradY
    (fun c q => u (pt c q)) (fun c q => dx u (pt c q)) (fun c q => dy u (pt c q)) M.forceMatrix a b r c t = 0

end FastVPINNs.Spec
