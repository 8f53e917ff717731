import Verif.Model.Physics
import Verif.Spec.Plane

/-! # Specification: tested residuals -/

namespace FastVPINNs.Spec

section
variable {nc nt nq : ℕ} (V GX GY : Fin nc → Fin nt → Fin nq → ℝ) (u ux uy : Fin nc → Fin nq → ℝ)
  (F : Fin nt → Fin nc → ℝ)

/-- The residual of the weak form of `-∇·(a ∇u) + b·∇u + r u = f` tested with function `t` of cell `c`:
`V`, `GX`, `GY` hold weight times value and derivatives of the test functions. -/
def testedResidual (a : Fin nc → Fin nq → ℝ) (b : ℝ × ℝ) (r : ℝ) (c : Fin nc) (t : Fin nt) : ℝ :=
  ∑ q, (a c q * (ux c q * GX c t q + uy c q * GY c t q)
    + (b.1 * ux c q + b.2 * uy c q + r * u c q) * V c t q) - F t c

end

/-- The quadrature approximation, with points `pt` and weights `w`, of the weak form
`∫ a ∇u·∇ψ + (b·∇u + r u) ψ - f ψ` for a function with the values `u`, `ux`, `uy` at the points. -/
noncomputable def weakForm {nq : ℕ} (w : Fin nq → ℝ) (pt : Fin nq → ℝ × ℝ) (u ux uy a : Fin nq → ℝ)
    (b : ℝ × ℝ) (r : ℝ) (f : ℝ → ℝ → ℝ) (ψ : ℝ × ℝ → ℝ) : ℝ :=
  ∑ q, w q * (a q * (ux q * dx ψ (pt q) + uy q * dy ψ (pt q))
    + (b.1 * ux q + b.2 * uy q + r * u q) * ψ (pt q) - f (pt q).1 (pt q).2 * ψ (pt q))

/-- The arithmetic mean of the squares. -/
noncomputable def meanSq {n : ℕ} (x : Fin n → ℝ) : ℝ := (∑ i, x i * x i) / n

/-- The six loss functions of `fastvpinns/physics`. -/
inductive LossKind
  | poisson | cd2d | helmholtz | poissonInverse | cd2dInverse | cd2dInverseDomain

/-- Run the chosen loss function; each ignores the arguments it does not have. -/
noncomputable def runLoss (kind : LossKind) {nc nt nq : ℕ} (V GX GY : Fin nc → Fin nt → Fin nq → ℝ)
    (u ux uy : Fin nc → Fin nq → ℝ) (F : Fin nt → Fin nc → ℝ) (params inverseParams : ParamDict)
    (coeffs : List (Fin nc → Fin nq → ℝ)) : Except PyErr (Fin nc → ℝ) :=
  match kind with
  | .poisson => pdeLossPoisson V GX GY u ux uy F params
  | .cd2d => pdeLossCd2d V GX GY u ux uy F params
  | .helmholtz => pdeLossHelmholtz V GX GY u ux uy F params
  | .poissonInverse => pdeLossPoissonInverse V GX GY u ux uy F params inverseParams
  | .cd2dInverse => pdeLossCd2dInverse V GX GY u ux uy F params inverseParams
  | .cd2dInverseDomain => pdeLossCd2dInverseDomain V GX GY u ux uy F params coeffs

/-- The dictionary has the value `v` for the key. -/
def HasParam (d : ParamDict) (key : String) (v : ℝ) : Prop := ∃ l, d = some l ∧ l.lookup key = some v

/-- The diffusion coefficient, convection vector and reaction coefficient that each loss function
stands for, read off its parameters. -/
def Coefficients (kind : LossKind) {nc nq : ℕ} (params inverseParams : ParamDict)
    (coeffs : List (Fin nc → Fin nq → ℝ)) (a : Fin nc → Fin nq → ℝ) (b : ℝ × ℝ) (r : ℝ) : Prop :=
  match kind with
  | .poisson => ∃ eps, HasParam params "eps" eps ∧ a = (fun _ _ => eps) ∧ b = (0, 0) ∧ r = 0
  | .poissonInverse => ∃ eps, HasParam inverseParams "eps" eps ∧ a = (fun _ _ => eps) ∧ b = (0, 0) ∧ r = 0
  | .cd2d => ∃ eps, HasParam params "eps" eps ∧ a = (fun _ _ => eps) ∧ HasParam params "b_x" b.1 ∧
      HasParam params "b_y" b.2 ∧ HasParam params "c" r
  | .cd2dInverse => ∃ eps, HasParam inverseParams "eps" eps ∧ a = (fun _ _ => eps) ∧
      HasParam params "b_x" b.1 ∧ HasParam params "b_y" b.2 ∧ HasParam params "c" r
  | .cd2dInverseDomain => coeffs.head? = some a ∧ HasParam params "b_x" b.1 ∧
      HasParam params "b_y" b.2 ∧ HasParam params "c" r
  | .helmholtz => ∃ eps k, HasParam params "eps" eps ∧ HasParam params "k" k ∧ a = (fun _ _ => -eps) ∧
      b = (0, 0) ∧ r = k * k

end FastVPINNs.Spec
