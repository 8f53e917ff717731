import Mathlib.RingTheory.Polynomial.ShiftedLegendre
import Mathlib.RingTheory.Polynomial.Pochhammer
import Mathlib.Data.Real.Basic

/-!
# The orthogonal polynomials of `scipy.special` used by the basis and quadrature classes

`scipy.special.jacobi` and `scipy.special.legendre` are external routines.  They are modelled by
the classical polynomials they are documented to return.  The two definitions are independent of
each other (one is the hypergeometric sum, the other goes through Mathlib's shifted Legendre
polynomial); that they agree where the code relies on it is a theorem, not a definition.
-/

namespace FastVPINNs

open Polynomial Finset

/-- `scipy.special.jacobi(n, a, b)` as called in
`fastvpinns/FE/basis_2d_QN_Legendre.py:46-47`, `basis_2d_QN_Jacobi.py:48-49`,
`basis_2d_QN_Chebyshev_2.py:44-45` and `quadratureformulas_quad2d.py:81-85`
(`jacobi_wrapper`): the Jacobi polynomial
`P_n^{(a,b)} = ∑_k (a+k+1)_{n-k} (n+a+b+1)_k / (k! (n-k)!) ((x-1)/2)^k`
(i.e. `binom(n+a,n) ₂F₁(-n, n+a+b+1; a+1; (1-x)/2)`, the definition in the scipy documentation).
Simplification: exact real arithmetic. -/
noncomputable def jacobiP (n : ℕ) (a b : ℝ) : ℝ[X] :=
  ∑ k ∈ range (n + 1),
    C ((ascPochhammer ℝ (n - k)).eval (a + k + 1) * (ascPochhammer ℝ k).eval (n + a + b + 1)
        / (k.factorial * (n - k).factorial)) * (C (1 / 2) * (X - 1)) ^ k

/-- `scipy.special.legendre(n)` as called in
`fastvpinns/FE/basis_2d_QN_Legendre_Special.py:55-56, 74-75, 93-94`: the Legendre polynomial
`P_n(x) = ∑_k (-1)^k binom(n,k) binom(n+k,n) ((1-x)/2)^k`, written with Mathlib's shifted
Legendre polynomial.  Simplification: exact real arithmetic. -/
noncomputable def legendreP (n : ℕ) : ℝ[X] :=
  ((shiftedLegendre n).map (Int.castRingHom ℝ)).comp (C (1 / 2) * (1 - X))

end FastVPINNs
