import Verif.Model.Underflow
import Verif.Spec.Rounded

/-! # Specification: inputs that are close to the exact ones, arithmetics with underflow -/

namespace FastVPINNs.Spec

/-- The numbers a training step reads differ by at most `τ` from the tensors `M`, the values and derivatives of `w` at
the points `pt` and at the boundary points, and the fields `ks`. -/
structure CloseInputs {nc nt nq nIn nBd : ℕ} (τ : ℝ) (I : LossInput nc nt nq nBd 1) (M : ModelData nc nt nq nIn nBd)
    (pt : Fin nc → Fin nq → ℝ × ℝ) (w : ℝ × ℝ → ℝ) (ks : List (Fin nc → Fin nq → ℝ)) : Prop where
  V : ∀ c t q, |I.V c t q - M.preMultiplierVal c t q| ≤ τ
  GX : ∀ c t q, |I.GX c t q - M.preMultiplierGradX c t q| ≤ τ
  GY : ∀ c t q, |I.GY c t q - M.preMultiplierGradY c t q| ≤ τ
  F : ∀ t c, |I.F t c - M.forceMatrix t c| ≤ τ
  u : ∀ c q, |I.u c q - w (pt c q)| ≤ τ
  ux : ∀ c q, |I.ux c q - dx w (pt c q)| ≤ τ
  uy : ∀ c q, |I.uy c q - dy w (pt c q)| ≤ τ
  coeffs : List.Forall₂ (fun k' k => ∀ c q, |k' c q - k c q| ≤ τ) I.coeffs ks
  bdPredicted : ∀ i, |I.bdPredicted i 0 - w (M.dirichletInput i)| ≤ τ
  bdActual : ∀ i, |I.bdActual i - M.dirichletActual i| ≤ τ

/-! ## Two arithmetics with underflow

Numbers have `p` significant binary digits, the smallest positive normal number is `2 ^ emin` (`p = 24`, `emin = -126` for
single precision). -/

/-- Rounding to nearest where results below the smallest normal number become zero. -/
noncomputable def flushed (p : ℕ) (emin : ℤ) (x : ℝ) : ℝ := if |x| < 2 ^ emin then 0 else nearest p x

/-- Rounding to nearest where results below the smallest normal number become multiples of the smallest subnormal
number. -/
noncomputable def gradual (p : ℕ) (emin : ℤ) (x : ℝ) : ℝ :=
  if |x| < 2 ^ emin then round (x / 2 ^ (emin - p + 1)) * 2 ^ (emin - p + 1) else nearest p x

end FastVPINNs.Spec
