import Verif.Model.Rounded

/-! # The error metrics in floating-point arithmetic

The arrays are given numbers; every operation on them is rounded as in `Model/Rounded.lean`.  Division by zero
and the mean of an empty array (NaN or infinity) are not modelled: then there is no result. -/

namespace FastVPINNs

/-- `a - b` of one-dimensional arrays, with numpy's broadcasting of length one; one rounding per entry. -/
noncomputable def npSubE {α : Type} [Leaf α] (a b : List α) : Except PyErr (List (ExprOf α)) :=
  if a.length = b.length then .ok (List.zipWith (fun x y => .sub (.val 0 x) (.val 0 y)) a b)
  else if a.length = 1 then .ok (b.map fun y => .sub (.val 0 (a.getD 0 (Leaf.ofReal 0))) (.val 0 y))
  else if b.length = 1 then .ok (a.map fun x => .sub (.val 0 x) (.val 0 (b.getD 0 (Leaf.ofReal 0))))
  else .error .valueError

/-- Possible values of all entries of an array. -/
def RunAll (u : ℝ) (es : List Expr) (xs : List ℝ) : Prop := List.Forall₂ (fun e x => e.Run u x) es xs

/-- A possible result of `np.mean`: the sum in any order, divided by the number of entries. -/
def RoundedMean (u : ℝ) (es : List Expr) (r : ℝ) : Prop :=
  es ≠ [] ∧ ∃ xs s δ, RunAll u es xs ∧ SumRun u xs s ∧ |δ| ≤ u ∧ r = s / es.length * (1 + δ)

/-- A possible result of `np.max`, which does not round. -/
def RoundedMax (u : ℝ) (es : List Expr) (r : ℝ) : Prop := ∃ xs, RunAll u es xs ∧ npMax xs = .ok r

/-- A possible result of `np.sqrt`. -/
def RoundedSqrt (u x r : ℝ) : Prop := ∃ δ, |δ| ≤ u ∧ r = Real.sqrt x * (1 + δ)

/-- A possible result of `x / y`. -/
def RoundedDiv (u x y r : ℝ) : Prop := y ≠ 0 ∧ ∃ δ, |δ| ≤ u ∧ r = x / y * (1 + δ)

/-- The entries of an array of given numbers. -/
def readAll {α : Type} (a : List α) : List (ExprOf α) := a.map (.val 0)

/-- `utils/compute_utils.py:18-42` with rounding. -/
def RoundedL2 (u : ℝ) (uExact uApprox : NDArray) (r : ℝ) : Prop :=
  ∃ d m, npSubE uExact.flatten.data uApprox.flatten.data = .ok d ∧ RoundedMean u (d.map .sq) m ∧
    RoundedSqrt u m r

/-- `utils/compute_utils.py:45-68` with rounding. -/
def RoundedL1 (u : ℝ) (uExact uApprox : NDArray) (r : ℝ) : Prop :=
  ∃ d, npSubE uExact.flatten.data uApprox.flatten.data = .ok d ∧ RoundedMean u (d.map .abs) r

/-- `utils/compute_utils.py:71-95` with rounding. -/
def RoundedLinf (u : ℝ) (uExact uApprox : NDArray) (r : ℝ) : Prop :=
  ∃ d, npSubE uExact.flatten.data uApprox.flatten.data = .ok d ∧ RoundedMax u (d.map .abs) r

/-- `utils/compute_utils.py:98-124` with rounding. -/
def RoundedL2Relative (u : ℝ) (uExact uApprox : NDArray) (r : ℝ) : Prop :=
  ∃ l2 m n, RoundedL2 u uExact.flatten uApprox.flatten l2 ∧
    RoundedMean u ((readAll uExact.flatten.data).map .sq) m ∧ RoundedSqrt u m n ∧ RoundedDiv u l2 n r

/-- `utils/compute_utils.py:127-153` with rounding. -/
def RoundedLinfRelative (u : ℝ) (uExact uApprox : NDArray) (r : ℝ) : Prop :=
  ∃ linf n, RoundedLinf u uExact.flatten uApprox.flatten linf ∧
    RoundedMax u ((readAll uExact.flatten.data).map .abs) n ∧ RoundedDiv u linf n r

/-- `utils/compute_utils.py:156-182` with rounding. -/
def RoundedL1Relative (u : ℝ) (uExact uApprox : NDArray) (r : ℝ) : Prop :=
  ∃ l1 n, RoundedL1 u uExact.flatten uApprox.flatten l1 ∧
    RoundedMean u ((readAll uExact.flatten.data).map .abs) n ∧ RoundedDiv u l1 n r

/-- `utils/compute_utils.py:185-224` with rounding. -/
def RoundedErrors (u : ℝ) (uExact uApprox : NDArray) : ℝ × ℝ × ℝ × ℝ × ℝ × ℝ → Prop
  | (l2, linf, l2r, linfr, l1, l1r) =>
    RoundedL2 u uExact.flatten uApprox.flatten l2 ∧ RoundedLinf u uExact.flatten uApprox.flatten linf ∧
    RoundedL2Relative u uExact.flatten uApprox.flatten l2r ∧
    RoundedLinfRelative u uExact.flatten uApprox.flatten linfr ∧
    RoundedL1 u uExact.flatten uApprox.flatten l1 ∧ RoundedL1Relative u uExact.flatten uApprox.flatten l1r

end FastVPINNs
