import Verif.Model.Common
import Verif.Model.Orthopoly
import Mathlib.Algebra.Polynomial.Derivative

/-!
# The four basis classes

In every class the Python loop `for n in range(1, n_test + 1): total.append(...)` builds the array
whose entry with index `i` belongs to `n = i + 1`.
-/

namespace FastVPINNs

open Polynomial

/-- `jacobi_wrapper(n, a, b, x)`: `basis_2d_QN_Legendre.py:30-47`, `basis_2d_QN_Jacobi.py:32-49`,
`basis_2d_QN_Chebyshev_2.py:28-45` (the three copies are identical), at one point `x`. -/
noncomputable def jacobiWrapper (n : ℕ) (a b x : ℝ) : ℝ := (jacobiP n a b).eval x

/-! ## `fastvpinns/FE/basis_2d_QN_Legendre.py` -/

namespace Legendre

/-- `basis_2d_QN_Legendre.py:50-66` (`test_fcnx`). -/
noncomputable def testFcnx {q : ℕ} (nTest : ℕ) (x : Fin q → ℝ) : Fin nTest → Fin q → ℝ :=
  fun i p =>
    let n := i.val + 1
    jacobiWrapper (n + 1) 0 0 (x p) - jacobiWrapper (n - 1) 0 0 (x p)

/-- `basis_2d_QN_Legendre.py:68-84` (`test_fcny`). -/
noncomputable def testFcny {q : ℕ} (nTest : ℕ) (y : Fin q → ℝ) : Fin nTest → Fin q → ℝ :=
  fun i p =>
    let n := i.val + 1
    jacobiWrapper (n + 1) 0 0 (y p) - jacobiWrapper (n - 1) 0 0 (y p)

/-- `basis_2d_QN_Legendre.py:86-121` (`dtest_fcn`), first component of the returned pair. -/
noncomputable def dtestFcn {q : ℕ} (nTest : ℕ) (x : Fin q → ℝ) : Fin nTest → Fin q → ℝ :=
  fun i p =>
    let n := i.val + 1
    if n = 1 then
      (((n : ℝ) + 2) / 2) * jacobiWrapper n 1 1 (x p)
    else if n = 2 then
      (((n : ℝ) + 2) / 2) * jacobiWrapper n 1 1 (x p) - ((n : ℝ) / 2) * jacobiWrapper (n - 2) 1 1 (x p)
    else
      (((n : ℝ) + 2) / 2) * jacobiWrapper n 1 1 (x p) - ((n : ℝ) / 2) * jacobiWrapper (n - 2) 1 1 (x p)

/-- `basis_2d_QN_Legendre.py:86-121` (`dtest_fcn`), second component of the returned pair. -/
noncomputable def ddtestFcn {q : ℕ} (nTest : ℕ) (x : Fin q → ℝ) : Fin nTest → Fin q → ℝ :=
  fun i p =>
    let n := i.val + 1
    if n = 1 then
      (((n : ℝ) + 2) * (n + 3) / (2 * 2)) * jacobiWrapper (n - 1) 2 2 (x p)
    else if n = 2 then
      (((n : ℝ) + 2) * (n + 3) / (2 * 2)) * jacobiWrapper (n - 1) 2 2 (x p)
    else
      (((n : ℝ) + 2) * (n + 3) / (2 * 2)) * jacobiWrapper (n - 1) 2 2 (x p)
        - ((n : ℝ) * (n + 1) / (2 * 2)) * jacobiWrapper (n - 3) 2 2 (x p)

/-- `basis_2d_QN_Legendre.py:123-144` (`value`). -/
noncomputable def value {num q : ℕ} (xi eta : Fin q → ℝ) : Fin num → Fin q → ℝ :=
  let n1 := Nat.sqrt num
  fillRows (testFcnx n1 xi) (testFcny n1 eta)

/-- `basis_2d_QN_Legendre.py:146-168` (`gradx`). -/
noncomputable def gradx {num q : ℕ} (xi eta : Fin q → ℝ) : Fin num → Fin q → ℝ :=
  let n1 := Nat.sqrt num
  fillRows (dtestFcn n1 xi) (testFcny n1 eta)

/-- `basis_2d_QN_Legendre.py:170-191` (`grady`). -/
noncomputable def grady {num q : ℕ} (xi eta : Fin q → ℝ) : Fin num → Fin q → ℝ :=
  let n1 := Nat.sqrt num
  fillRows (testFcnx n1 xi) (dtestFcn n1 eta)

/-- `basis_2d_QN_Legendre.py:193-214` (`gradxx`). -/
noncomputable def gradxx {num q : ℕ} (xi eta : Fin q → ℝ) : Fin num → Fin q → ℝ :=
  let n1 := Nat.sqrt num
  fillRows (ddtestFcn n1 xi) (testFcny n1 eta)

/-- `basis_2d_QN_Legendre.py:216-237` (`gradxy`). -/
noncomputable def gradxy {num q : ℕ} (xi eta : Fin q → ℝ) : Fin num → Fin q → ℝ :=
  let n1 := Nat.sqrt num
  fillRows (dtestFcn n1 xi) (dtestFcn n1 eta)

/-- `basis_2d_QN_Legendre.py:239-261` (`gradyy`). -/
noncomputable def gradyy {num q : ℕ} (xi eta : Fin q → ℝ) : Fin num → Fin q → ℝ :=
  let n1 := Nat.sqrt num
  fillRows (testFcnx n1 xi) (ddtestFcn n1 eta)

end Legendre

/-- `basis_2d_QN_Legendre.py:22-261` (class `Basis2DQNLegendre`). -/
noncomputable def Basis2DQNLegendre (num : ℕ) : BasisFunction2D num where
  value := Legendre.value
  gradx := Legendre.gradx
  grady := Legendre.grady
  gradxx := Legendre.gradxx
  gradxy := Legendre.gradxy
  gradyy := Legendre.gradyy

/-! ## `fastvpinns/FE/basis_2d_QN_Legendre_Special.py` -/

namespace LegendreSpecial

/-- `basis_2d_QN_Legendre_Special.py:42-59` (`test_fcn`). -/
noncomputable def testFcn {q : ℕ} (nTest : ℕ) (x : Fin q → ℝ) : Fin nTest → Fin q → ℝ :=
  fun i p =>
    let n := i.val + 1
    (legendreP (n + 1)).eval (x p) - (legendreP (n - 1)).eval (x p)

/-- `basis_2d_QN_Legendre_Special.py:61-78` (`test_grad_fcn`). -/
noncomputable def testGradFcn {q : ℕ} (nTest : ℕ) (x : Fin q → ℝ) : Fin nTest → Fin q → ℝ :=
  fun i p =>
    let n := i.val + 1
    (derivative (legendreP (n + 1))).eval (x p) - (derivative (legendreP (n - 1))).eval (x p)

/-- `basis_2d_QN_Legendre_Special.py:80-98` (`test_grad_grad_fcn`). -/
noncomputable def testGradGradFcn {q : ℕ} (nTest : ℕ) (x : Fin q → ℝ) : Fin nTest → Fin q → ℝ :=
  fun i p =>
    let n := i.val + 1
    (derivative^[2] (legendreP (n + 1))).eval (x p)
      - (derivative^[2] (legendreP (n - 1))).eval (x p)

/-- `basis_2d_QN_Legendre_Special.py:100-126` (`value`). -/
noncomputable def value {num q : ℕ} (xi eta : Fin q → ℝ) : Fin num → Fin q → ℝ :=
  let n1 := Nat.sqrt num
  fillRows (testFcn n1 xi) (testFcn n1 eta)

/-- `basis_2d_QN_Legendre_Special.py:128-154` (`gradx`). -/
noncomputable def gradx {num q : ℕ} (xi eta : Fin q → ℝ) : Fin num → Fin q → ℝ :=
  let n1 := Nat.sqrt num
  fillRows (testGradFcn n1 xi) (testFcn n1 eta)

/-- `basis_2d_QN_Legendre_Special.py:156-182` (`grady`). -/
noncomputable def grady {num q : ℕ} (xi eta : Fin q → ℝ) : Fin num → Fin q → ℝ :=
  let n1 := Nat.sqrt num
  fillRows (testFcn n1 xi) (testGradFcn n1 eta)

/-- `basis_2d_QN_Legendre_Special.py:184-210` (`gradxx`). -/
noncomputable def gradxx {num q : ℕ} (xi eta : Fin q → ℝ) : Fin num → Fin q → ℝ :=
  let n1 := Nat.sqrt num
  fillRows (testGradGradFcn n1 xi) (testFcn n1 eta)

/-- `basis_2d_QN_Legendre_Special.py:212-238` (`gradxy`). -/
noncomputable def gradxy {num q : ℕ} (xi eta : Fin q → ℝ) : Fin num → Fin q → ℝ :=
  let n1 := Nat.sqrt num
  fillRows (testGradFcn n1 xi) (testGradFcn n1 eta)

/-- `basis_2d_QN_Legendre_Special.py:240-266` (`gradyy`). -/
noncomputable def gradyy {num q : ℕ} (xi eta : Fin q → ℝ) : Fin num → Fin q → ℝ :=
  let n1 := Nat.sqrt num
  fillRows (testFcn n1 xi) (testGradGradFcn n1 eta)

end LegendreSpecial

/-- `basis_2d_QN_Legendre_Special.py:19-266` (class `Basis2DQNLegendreSpecial`). -/
noncomputable def Basis2DQNLegendreSpecial (num : ℕ) : BasisFunction2D num where
  value := LegendreSpecial.value
  gradx := LegendreSpecial.gradx
  grady := LegendreSpecial.grady
  gradxx := LegendreSpecial.gradxx
  gradxy := LegendreSpecial.gradxy
  gradyy := LegendreSpecial.gradyy

/-! ## `fastvpinns/FE/basis_2d_QN_Chebyshev_2.py` -/

namespace Chebyshev2

/-- `basis_2d_QN_Chebyshev_2.py:48-68` (`test_fcnx`). -/
noncomputable def testFcnx {q : ℕ} (nTest : ℕ) (x : Fin q → ℝ) : Fin nTest → Fin q → ℝ :=
  fun i p =>
    let n := i.val + 1
    jacobiWrapper (n + 1) (-1 / 2) (-1 / 2) (x p) / jacobiWrapper (n + 1) (-1 / 2) (-1 / 2) 1
      - jacobiWrapper (n - 1) (-1 / 2) (-1 / 2) (x p) / jacobiWrapper (n - 1) (-1 / 2) (-1 / 2) 1

/-- `basis_2d_QN_Chebyshev_2.py:70-89` (`test_fcny`). -/
noncomputable def testFcny {q : ℕ} (nTest : ℕ) (y : Fin q → ℝ) : Fin nTest → Fin q → ℝ :=
  fun i p =>
    let n := i.val + 1
    jacobiWrapper (n + 1) (-1 / 2) (-1 / 2) (y p) / jacobiWrapper (n + 1) (-1 / 2) (-1 / 2) 1
      - jacobiWrapper (n - 1) (-1 / 2) (-1 / 2) (y p) / jacobiWrapper (n - 1) (-1 / 2) (-1 / 2) 1

/-- `basis_2d_QN_Chebyshev_2.py:91-156` (`dtest_fcn`), first component of the returned pair. -/
noncomputable def dtestFcn {q : ℕ} (nTest : ℕ) (x : Fin q → ℝ) : Fin nTest → Fin q → ℝ :=
  fun i p =>
    let n := i.val + 1
    if n = 1 then
      (((n : ℝ) + 1) / 2) * jacobiWrapper n (1 / 2) (1 / 2) (x p)
        / jacobiWrapper (n + 1) (-1 / 2) (-1 / 2) 1
    else if n = 2 then
      (((n : ℝ) + 1) / 2) * jacobiWrapper n (1 / 2) (1 / 2) (x p)
          / jacobiWrapper (n + 1) (-1 / 2) (-1 / 2) 1
        - (((n : ℝ) - 1) / 2) * jacobiWrapper (n - 2) (1 / 2) (1 / 2) (x p)
          / jacobiWrapper (n - 1) (-1 / 2) (-1 / 2) 1
    else
      (((n : ℝ) + 1) / 2) * jacobiWrapper n (1 / 2) (1 / 2) (x p)
          / jacobiWrapper (n + 1) (-1 / 2) (-1 / 2) 1
        - (((n : ℝ) - 1) / 2) * jacobiWrapper (n - 2) (1 / 2) (1 / 2) (x p)
          / jacobiWrapper (n - 1) (-1 / 2) (-1 / 2) 1

/-- `basis_2d_QN_Chebyshev_2.py:91-156` (`dtest_fcn`), second component of the returned pair. -/
noncomputable def ddtestFcn {q : ℕ} (nTest : ℕ) (x : Fin q → ℝ) : Fin nTest → Fin q → ℝ :=
  fun i p =>
    let n := i.val + 1
    if n = 1 then
      (((n : ℝ) + 2) * (n + 1) / (2 * 2)) * jacobiWrapper (n - 1) (3 / 2) (3 / 2) (x p)
        / jacobiWrapper (n + 1) (-1 / 2) (-1 / 2) 1
    else if n = 2 then
      (((n : ℝ) + 2) * (n + 1) / (2 * 2)) * jacobiWrapper (n - 1) (3 / 2) (3 / 2) (x p)
        / jacobiWrapper (n + 1) (-1 / 2) (-1 / 2) 1
    else
      (((n : ℝ) + 2) * (n + 1) / (2 * 2)) * jacobiWrapper (n - 1) (3 / 2) (3 / 2) (x p)
          / jacobiWrapper (n + 1) (-1 / 2) (-1 / 2) 1
        - ((n : ℝ) * (n - 1) / (2 * 2)) * jacobiWrapper (n - 3) (3 / 2) (3 / 2) (x p)
          / jacobiWrapper (n - 1) (-1 / 2) (-1 / 2) 1

/-- `basis_2d_QN_Chebyshev_2.py:158-179` (`value`). -/
noncomputable def value {num q : ℕ} (xi eta : Fin q → ℝ) : Fin num → Fin q → ℝ :=
  let n1 := Nat.sqrt num
  fillRows (testFcnx n1 xi) (testFcny n1 eta)

/-- `basis_2d_QN_Chebyshev_2.py:181-202` (`gradx`). -/
noncomputable def gradx {num q : ℕ} (xi eta : Fin q → ℝ) : Fin num → Fin q → ℝ :=
  let n1 := Nat.sqrt num
  fillRows (dtestFcn n1 xi) (testFcny n1 eta)

/-- `basis_2d_QN_Chebyshev_2.py:204-225` (`grady`). -/
noncomputable def grady {num q : ℕ} (xi eta : Fin q → ℝ) : Fin num → Fin q → ℝ :=
  let n1 := Nat.sqrt num
  fillRows (testFcnx n1 xi) (dtestFcn n1 eta)

/-- `basis_2d_QN_Chebyshev_2.py:227-249` (`gradxx`). -/
noncomputable def gradxx {num q : ℕ} (xi eta : Fin q → ℝ) : Fin num → Fin q → ℝ :=
  let n1 := Nat.sqrt num
  fillRows (ddtestFcn n1 xi) (testFcny n1 eta)

/-- `basis_2d_QN_Chebyshev_2.py:251-272` (`gradxy`). -/
noncomputable def gradxy {num q : ℕ} (xi eta : Fin q → ℝ) : Fin num → Fin q → ℝ :=
  let n1 := Nat.sqrt num
  fillRows (dtestFcn n1 xi) (dtestFcn n1 eta)

/-- `basis_2d_QN_Chebyshev_2.py:274-296` (`gradyy`). -/
noncomputable def gradyy {num q : ℕ} (xi eta : Fin q → ℝ) : Fin num → Fin q → ℝ :=
  let n1 := Nat.sqrt num
  fillRows (testFcnx n1 xi) (ddtestFcn n1 eta)

end Chebyshev2

/-- `basis_2d_QN_Chebyshev_2.py:20-296` (class `Basis2DQNChebyshev2`). -/
noncomputable def Basis2DQNChebyshev2 (num : ℕ) : BasisFunction2D num where
  value := Chebyshev2.value
  gradx := Chebyshev2.gradx
  grady := Chebyshev2.grady
  gradxx := Chebyshev2.gradxx
  gradxy := Chebyshev2.gradxy
  gradyy := Chebyshev2.gradyy

/-! ## `fastvpinns/FE/basis_2d_QN_Jacobi.py` -/

namespace JacobiPlain

/-- `basis_2d_QN_Jacobi.py:52-83` (`djacobi`) at one point: derivative of order `k`, only
`k = 1, 2` are accepted. -/
noncomputable def djacobi (n : ℕ) (a b x : ℝ) (k : ℤ) : Except PyErr ℝ :=
  if k = 1 then .ok ((derivative (jacobiP n a b)).eval x)
  else if k = 2 then .ok ((derivative^[2] (jacobiP n a b)).eval x)
  else .error .valueError

/-- `basis_2d_QN_Jacobi.py:86-102` (`test_fcnx`). -/
noncomputable def testFcnx {q : ℕ} (nTest : ℕ) (x : Fin q → ℝ) : Fin nTest → Fin q → ℝ :=
  fun i p =>
    let n := i.val + 1
    jacobiWrapper (n - 1) 0 0 (x p)

/-- `basis_2d_QN_Jacobi.py:104-119` (`test_fcny`). -/
noncomputable def testFcny {q : ℕ} (nTest : ℕ) (y : Fin q → ℝ) : Fin nTest → Fin q → ℝ :=
  fun i p =>
    let n := i.val + 1
    jacobiWrapper (n - 1) 0 0 (y p)

/-- `basis_2d_QN_Jacobi.py:121-137` (`dtest_fcn`).  `djacobi` is called with the constant order
`1`, so its error branch is not reachable here; it is mapped to `0`. -/
noncomputable def dtestFcn {q : ℕ} (nTest : ℕ) (x : Fin q → ℝ) : Fin nTest → Fin q → ℝ :=
  fun i p =>
    let n := i.val + 1
    match djacobi (n - 1) 0 0 (x p) 1 with
    | .ok v => v
    | .error _ => 0

/-- `basis_2d_QN_Jacobi.py:139-155` (`ddtest_fcn`).  `djacobi` is called with the constant order
`2`, so its error branch is not reachable here; it is mapped to `0`. -/
noncomputable def ddtestFcn {q : ℕ} (nTest : ℕ) (x : Fin q → ℝ) : Fin nTest → Fin q → ℝ :=
  fun i p =>
    let n := i.val + 1
    match djacobi (n - 1) 0 0 (x p) 2 with
    | .ok v => v
    | .error _ => 0

/-- `basis_2d_QN_Jacobi.py:157-178` (`value`). -/
noncomputable def value {num q : ℕ} (xi eta : Fin q → ℝ) : Fin num → Fin q → ℝ :=
  let n1 := Nat.sqrt num
  fillRows (testFcnx n1 xi) (testFcny n1 eta)

/-- `basis_2d_QN_Jacobi.py:180-201` (`gradx`). -/
noncomputable def gradx {num q : ℕ} (xi eta : Fin q → ℝ) : Fin num → Fin q → ℝ :=
  let n1 := Nat.sqrt num
  fillRows (dtestFcn n1 xi) (testFcny n1 eta)

/-- `basis_2d_QN_Jacobi.py:203-226` (`grady`). -/
noncomputable def grady {num q : ℕ} (xi eta : Fin q → ℝ) : Fin num → Fin q → ℝ :=
  let n1 := Nat.sqrt num
  fillRows (testFcnx n1 xi) (dtestFcn n1 eta)

/-- `basis_2d_QN_Jacobi.py:228-250` (`gradxx`). -/
noncomputable def gradxx {num q : ℕ} (xi eta : Fin q → ℝ) : Fin num → Fin q → ℝ :=
  let n1 := Nat.sqrt num
  fillRows (ddtestFcn n1 xi) (testFcny n1 eta)

/-- `basis_2d_QN_Jacobi.py:252-273` (`gradxy`). -/
noncomputable def gradxy {num q : ℕ} (xi eta : Fin q → ℝ) : Fin num → Fin q → ℝ :=
  let n1 := Nat.sqrt num
  fillRows (dtestFcn n1 xi) (dtestFcn n1 eta)

/-- `basis_2d_QN_Jacobi.py:275-297` (`gradyy`). -/
noncomputable def gradyy {num q : ℕ} (xi eta : Fin q → ℝ) : Fin num → Fin q → ℝ :=
  let n1 := Nat.sqrt num
  fillRows (testFcnx n1 xi) (ddtestFcn n1 eta)

end JacobiPlain

/-- `basis_2d_QN_Jacobi.py:24-297` (class `Basis2DQNJacobi`). -/
noncomputable def Basis2DQNJacobi (num : ℕ) : BasisFunction2D num where
  value := JacobiPlain.value
  gradx := JacobiPlain.gradx
  grady := JacobiPlain.grady
  gradxx := JacobiPlain.gradxx
  gradxy := JacobiPlain.gradxy
  gradyy := JacobiPlain.gradyy

end FastVPINNs
