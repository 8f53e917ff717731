import Verif.Model.Common
import Verif.Model.Orthopoly
import Mathlib.Analysis.Calculus.Deriv.Basic
import Mathlib.RingTheory.Polynomial.Chebyshev
import Mathlib.Algebra.Polynomial.Derivative

/-!
# Specification of the test function spaces

The one-dimensional functions are indexed from `0` (`i = n - 1` in the source).
-/

namespace FastVPINNs.Spec

open Polynomial

/-- `P_{i+2} - P_i` with Legendre polynomials. -/
noncomputable def legendreBubble (i : ℕ) : ℝ[X] := legendreP (i + 2) - legendreP i

/-- `T_{i+2} - T_i` with Chebyshev polynomials of the first kind. -/
noncomputable def chebyshevBubble (i : ℕ) : ℝ[X] := Chebyshev.T ℝ (i + 2 : ℕ) - Chebyshev.T ℝ i

/-- `P_i`, the plain Legendre polynomial. -/
noncomputable def legendrePlain (i : ℕ) : ℝ[X] := legendreP i

/-- The one-dimensional test functions documented for each `fe_type`. -/
noncomputable def testFamily (feType : String) : ℕ → ℝ[X] :=
  if feType = "chebyshev_2" then chebyshevBubble
  else if feType = "jacobi_plain" then legendrePlain
  else legendreBubble

/-- The `N^2` shape functions of `B` are the products `φ i (ξ) * φ j (η)`, numbered `N*i+j`, and the
other five methods return the products of the matching derivatives, at every point of every array
of points. -/
structure IsTensorBasis (N : ℕ) (B : BasisFunction2D (N ^ 2)) (φ : ℕ → ℝ[X]) : Prop where
  value : ∀ {q : ℕ} (xi eta : Fin q → ℝ) (p : Fin q) (i j : ℕ) (k : Fin (N ^ 2)), i < N → j < N →
    k.val = N * i + j → B.value xi eta k p = (φ i).eval (xi p) * (φ j).eval (eta p)
  gradx : ∀ {q : ℕ} (xi eta : Fin q → ℝ) (p : Fin q) (i j : ℕ) (k : Fin (N ^ 2)), i < N → j < N →
    k.val = N * i + j → B.gradx xi eta k p = (derivative (φ i)).eval (xi p) * (φ j).eval (eta p)
  grady : ∀ {q : ℕ} (xi eta : Fin q → ℝ) (p : Fin q) (i j : ℕ) (k : Fin (N ^ 2)), i < N → j < N →
    k.val = N * i + j → B.grady xi eta k p = (φ i).eval (xi p) * (derivative (φ j)).eval (eta p)
  gradxx : ∀ {q : ℕ} (xi eta : Fin q → ℝ) (p : Fin q) (i j : ℕ) (k : Fin (N ^ 2)), i < N → j < N →
    k.val = N * i + j →
    B.gradxx xi eta k p = (derivative (derivative (φ i))).eval (xi p) * (φ j).eval (eta p)
  gradxy : ∀ {q : ℕ} (xi eta : Fin q → ℝ) (p : Fin q) (i j : ℕ) (k : Fin (N ^ 2)), i < N → j < N →
    k.val = N * i + j →
    B.gradxy xi eta k p = (derivative (φ i)).eval (xi p) * (derivative (φ j)).eval (eta p)
  gradyy : ∀ {q : ℕ} (xi eta : Fin q → ℝ) (p : Fin q) (i j : ℕ) (k : Fin (N ^ 2)), i < N → j < N →
    k.val = N * i + j →
    B.gradyy xi eta k p = (φ i).eval (xi p) * (derivative (derivative (φ j))).eval (eta p)

/-- The five derivative methods of `B` return the partial derivatives of what `value` returns:
moving the coordinate `xi[p]` (resp. `eta[p]`) of one point changes the entry of that point with
the stated rate. -/
structure DerivativesCorrect {num : ℕ} (B : BasisFunction2D num) : Prop where
  dx : ∀ {q : ℕ} (xi eta : Fin q → ℝ) (k : Fin num) (p : Fin q),
    HasDerivAt (fun s => B.value (Function.update xi p s) eta k p) (B.gradx xi eta k p) (xi p)
  dy : ∀ {q : ℕ} (xi eta : Fin q → ℝ) (k : Fin num) (p : Fin q),
    HasDerivAt (fun s => B.value xi (Function.update eta p s) k p) (B.grady xi eta k p) (eta p)
  dxx : ∀ {q : ℕ} (xi eta : Fin q → ℝ) (k : Fin num) (p : Fin q),
    HasDerivAt (fun s => B.gradx (Function.update xi p s) eta k p) (B.gradxx xi eta k p) (xi p)
  dxy : ∀ {q : ℕ} (xi eta : Fin q → ℝ) (k : Fin num) (p : Fin q),
    HasDerivAt (fun s => B.gradx xi (Function.update eta p s) k p) (B.gradxy xi eta k p) (eta p)
  dyx : ∀ {q : ℕ} (xi eta : Fin q → ℝ) (k : Fin num) (p : Fin q),
    HasDerivAt (fun s => B.grady (Function.update xi p s) eta k p) (B.gradxy xi eta k p) (xi p)
  dyy : ∀ {q : ℕ} (xi eta : Fin q → ℝ) (k : Fin num) (p : Fin q),
    HasDerivAt (fun s => B.grady xi (Function.update eta p s) k p) (B.gradyy xi eta k p) (eta p)

/-- The point `(x, y)` lies on the boundary of the reference square `[-1,1]²`
(on one of its four sides). -/
def OnReferenceBoundary (x y : ℝ) : Prop :=
  ((x = -1 ∨ x = 1) ∧ -1 ≤ y ∧ y ≤ 1) ∨ ((y = -1 ∨ y = 1) ∧ -1 ≤ x ∧ x ≤ 1)

end FastVPINNs.Spec
