import Verif.Model.Quadrature
import Mathlib.MeasureTheory.Integral.IntervalIntegral.Basic
import Mathlib.Algebra.Polynomial.Degree.Defs

/-! # Specification of quadrature rules -/

namespace FastVPINNs.Spec

open Polynomial

/-- The 1D rule integrates all polynomials of degree at most `d` exactly over `[-1, 1]`. -/
def ExactUpTo (r : QuadRule1D) (d : ℕ) : Prop :=
  ∀ p : ℝ[X], p.natDegree ≤ d → ∑ i, r.weight i * p.eval (r.node i) = ∫ x in (-1 : ℝ)..1, p.eval x

/-- The documented behaviour of `np.polynomial.legendre.leggauss(n)` for the given `n`: nodes in
`(-1, 1)` in increasing order, positive weights, exact for polynomials of degree `2n - 1`. -/
structure LeggaussOK (ext : QuadRoutines) (n : ℕ) : Prop where
  sorted : StrictMono (ext.leggauss n).1
  mem : ∀ i, -1 < (ext.leggauss n).1 i ∧ (ext.leggauss n).1 i < 1
  pos : ∀ i, 0 < (ext.leggauss n).2 i
  exact : ExactUpTo ⟨n, (ext.leggauss n).1, (ext.leggauss n).2⟩ (2 * n - 1)

/-- The documented behaviour of `scipy.special.roots_jacobi(n, 1, 1)` for the given `n`: the nodes
are the `n` roots of `P_n^{(1,1)}` in increasing order (they lie in `(-1, 1)`). -/
structure RootsJacobiOK (ext : QuadRoutines) (n : ℕ) : Prop where
  sorted : StrictMono (ext.rootsJacobi n 1 1).1
  mem : ∀ i, -1 < (ext.rootsJacobi n 1 1).1 i ∧ (ext.rootsJacobi n 1 1).1 i < 1
  root : ∀ i, (jacobiP n 1 1).eval ((ext.rootsJacobi n 1 1).1 i) = 0

/-- The 2D rule is the tensor product of the 1D rule with nodes `x` and weights `w`, with the first
coordinate running fastest: point `n*j+i` is `(x_i, x_j)` with weight `w_i w_j`. -/
structure IsTensorRule {n : ℕ} (x w : Fin n → ℝ) (r : QuadRule2D) : Prop where
  num : r.num = n * n
  xi : ∀ (i j : Fin n) (k : Fin r.num), k.val = n * j.val + i.val → r.xi k = x i
  eta : ∀ (i j : Fin n) (k : Fin r.num), k.val = n * j.val + i.val → r.eta k = x j
  weight : ∀ (i j : Fin n) (k : Fin r.num), k.val = n * j.val + i.val → r.weights k = w i * w j

/-- The 2D rule integrates exactly over `[-1, 1]²` every polynomial of degree at most `d` in each of
the two variables. -/
def Exact2D (r : QuadRule2D) (d : ℕ) : Prop :=
  ∀ c : ℕ → ℕ → ℝ,
    ∑ k, r.weights k * ∑ a ∈ Finset.range (d + 1), ∑ b ∈ Finset.range (d + 1),
        c a b * r.xi k ^ a * r.eta k ^ b
      = ∫ x in (-1 : ℝ)..1, ∫ y in (-1 : ℝ)..1,
          ∑ a ∈ Finset.range (d + 1), ∑ b ∈ Finset.range (d + 1), c a b * x ^ a * y ^ b

end FastVPINNs.Spec
