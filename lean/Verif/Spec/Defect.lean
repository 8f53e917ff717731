import Verif.Spec.Integral
import Verif.Spec.TestFunction

/-! # Specification: the defect of the differential equation -/

namespace FastVPINNs.Spec

open MeasureTheory

/-- The weight on the reference square that vanishes on its edges. -/
def edgeWeight (p : ℝ × ℝ) : ℝ := (1 - p.1 ^ 2) * (1 - p.2 ^ 2)

/-- The function `ρ` of the cell `c` as a density on the reference square. -/
noncomputable def density (c : Fin 4 → ℝ × ℝ) (ρ : ℝ → ℝ → ℝ) (p : ℝ × ℝ) : ℝ :=
  jacobianDet (bilinearImage c) p * ρ (bilinearImage c p).1 (bilinearImage c p).2

/-- The weighted integral of the square over the reference square. -/
noncomputable def weightedSq (G : ℝ × ℝ → ℝ) : ℝ := ∫ p in refSquare, edgeWeight p * G p ^ 2

/-- The integral of `ρ` over the cell against the test function `(i, j)` of the family. -/
noncomputable def moment (c : Fin 4 → ℝ × ℝ) (ρ : ℝ → ℝ → ℝ) (ty : String) (i j : ℕ) : ℝ :=
  ∫ p in refSquare, density c ρ p * ((testFamily ty i).eval p.1 * (testFamily ty j).eval p.2)

/-- `coef` are the coefficients of the weighted polynomial in the reference test functions. -/
def TestExpansion (ty : String) (N : ℕ) (P : ℝ × ℝ → ℝ) (coef : ℕ → ℝ) : Prop :=
  ∀ p : ℝ × ℝ, edgeWeight p * P p = ∑ t ∈ Finset.range (N ^ 2),
    coef t * ((testFamily ty (t / N)).eval p.1 * (testFamily ty (t % N)).eval p.2)

end FastVPINNs.Spec
