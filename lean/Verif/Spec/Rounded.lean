import Verif.Spec.Training
import Mathlib.Data.Int.Log
import Mathlib.Algebra.Order.Round

/-! # Specification: the size of the terms that are added up -/

namespace FastVPINNs.Spec

/-- The tested residual of cell `c` and test function `t` with every number replaced by its absolute value
and the difference by a sum. -/
def residualMag {nc nt nq : ℕ} (V GX GY : Fin nc → Fin nt → Fin nq → ℝ) (u ux uy : Fin nc → Fin nq → ℝ)
    (F : Fin nt → Fin nc → ℝ) (a : Fin nc → Fin nq → ℝ) (b : ℝ × ℝ) (r : ℝ) (c : Fin nc) (t : Fin nt) : ℝ :=
  ∑ q, (|a c q| * (|ux c q| * |GX c t q| + |uy c q| * |GY c t q|)
    + (|b.1| * |ux c q| + |b.2| * |uy c q| + |r| * |u c q|) * |V c t q|) + |F t c|

/-- The PDE loss of `u` with every number replaced by its absolute value. -/
noncomputable def pdeMag {nc nt nq nIn nBd : ℕ} (M : ModelData nc nt nq nIn nBd)
    (pt : Fin nc → Fin nq → ℝ × ℝ) (u : ℝ × ℝ → ℝ) (a : Fin nc → Fin nq → ℝ) (b : ℝ × ℝ) (r : ℝ) : ℝ :=
  ∑ c, meanSq (residualMag M.preMultiplierVal M.preMultiplierGradX M.preMultiplierGradY
    (fun c q => u (pt c q)) (fun c q => dx u (pt c q)) (fun c q => dy u (pt c q)) M.forceMatrix a b r c)

/-- The mean squared difference with the differences replaced by sums of absolute values. -/
noncomputable def dataMag {n : ℕ} (x y : Fin n → ℝ) : ℝ := meanSq fun i => |x i| + |y i|

/-- The computed number `r'` differs from `r` by what `k` roundings with unit roundoff `ε` can do to terms of
total size `m`. -/
def RoundedFrom (ε : ℝ) (k : ℕ) (m r' r : ℝ) : Prop := |r' - r| ≤ ((1 + ε) ^ k - 1) * m

/-- The computed number `r'` has the relative accuracy of `k` roundings with unit roundoff `ε`: it is at least
`(1 - ε) ^ k` times and at most `(1 - ε) ^ -k` times the number `r ≥ 0`. -/
def Accurate (ε : ℝ) (k : ℕ) (r' r : ℝ) : Prop := r * (1 - ε) ^ k ≤ r' ∧ r' * (1 - ε) ^ k ≤ r

/-- The nearest number with `p` significant binary digits (`p = 24` for `float32`, `p = 53` for `float64`;
without limits for the exponent, ties upwards). -/
noncomputable def nearest (p : ℕ) (x : ℝ) : ℝ :=
  round (x / 2 ^ (Int.log 2 |x| - p + 1)) * (2 : ℝ) ^ (Int.log 2 |x| - p + 1)

end FastVPINNs.Spec
