import Verif.Model.Underflow
import Verif.Model.Utils

/-! # The error metrics with underflow

The functions of `utils/compute_utils.py` where every operation rounds as a relation `R` says: `R x r` if `r` is a possible
result of an operation whose exact result is `x`.  The arrays are given numbers.  Sums may be evaluated in every order and
with every grouping; `np.abs`, `np.max` and negation do not round.  Division by zero and the mean of an empty array (NaN
or infinity) are not modelled: then there is no result. -/

namespace FastVPINNs

/-- Rounding with unit roundoff `u` that loses at most `η` by underflow and keeps the sign; so zero stays zero. -/
def FlS (u η x r : ℝ) : Prop := FlU u η x r ∧ (0 ≤ x → 0 ≤ r) ∧ (x ≤ 0 → r ≤ 0)

section
variable (R : ℝ → ℝ → Prop)

/-- A possible result of adding up the numbers of a list. -/
inductive SumRunR : List ℝ → ℝ → Prop
  | nil : SumRunR [] 0
  | one (x : ℝ) : SumRunR [x] x
  | add {l m : List ℝ} {x y r : ℝ} (hl : l ≠ []) (hm : m ≠ []) (hx : SumRunR l x) (hy : SumRunR m y)
      (hr : R (x + y) r) : SumRunR (l ++ m) r
  | perm {l m : List ℝ} {x : ℝ} (h : l.Perm m) (hx : SumRunR l x) : SumRunR m x

/-- A possible result of `a - b`. -/
def UnderflowSub (a b ds : List ℝ) : Prop := ∃ d, npSub a b = .ok d ∧ List.Forall₂ R d ds

/-- A possible result of `np.square`. -/
def UnderflowSquare (ds ss : List ℝ) : Prop := List.Forall₂ (fun d s => R (d ^ 2) s) ds ss

/-- A possible result of `np.mean`: the sum in any order, divided by the number of entries. -/
def UnderflowMean (xs : List ℝ) (r : ℝ) : Prop := xs ≠ [] ∧ ∃ s, SumRunR R xs s ∧ R (s / xs.length) r

/-- A possible result of `x / y`. -/
def UnderflowDiv (x y r : ℝ) : Prop := y ≠ 0 ∧ R (x / y) r

/-- A possible result of `np.sqrt(np.mean(np.square(d)))`. -/
def UnderflowRms (ds : List ℝ) (r : ℝ) : Prop :=
  ∃ ss m, UnderflowSquare R ds ss ∧ UnderflowMean R ss m ∧ R (Real.sqrt m) r

/-- `utils/compute_utils.py:18-42` with underflow. -/
def UnderflowL2 (uExact uApprox : NDArray) (r : ℝ) : Prop :=
  ∃ ds, UnderflowSub R uExact.flatten.data uApprox.flatten.data ds ∧ UnderflowRms R ds r

/-- `utils/compute_utils.py:45-68` with underflow. -/
def UnderflowL1 (uExact uApprox : NDArray) (r : ℝ) : Prop :=
  ∃ ds, UnderflowSub R uExact.flatten.data uApprox.flatten.data ds ∧ UnderflowMean R (ds.map (|·|)) r

/-- `utils/compute_utils.py:71-95` with underflow. -/
def UnderflowLinf (uExact uApprox : NDArray) (r : ℝ) : Prop :=
  ∃ ds, UnderflowSub R uExact.flatten.data uApprox.flatten.data ds ∧ npMax (ds.map (|·|)) = .ok r

/-- `utils/compute_utils.py:98-124` with underflow. -/
def UnderflowL2Relative (uExact uApprox : NDArray) (r : ℝ) : Prop :=
  ∃ l2 n, UnderflowL2 R uExact.flatten uApprox.flatten l2 ∧ UnderflowRms R uExact.flatten.data n ∧
    UnderflowDiv R l2 n r

/-- `utils/compute_utils.py:127-153` with underflow. -/
def UnderflowLinfRelative (uExact uApprox : NDArray) (r : ℝ) : Prop :=
  ∃ linf n, UnderflowLinf R uExact.flatten uApprox.flatten linf ∧ npMax (uExact.flatten.data.map (|·|)) = .ok n ∧
    UnderflowDiv R linf n r

/-- `utils/compute_utils.py:156-182` with underflow. -/
def UnderflowL1Relative (uExact uApprox : NDArray) (r : ℝ) : Prop :=
  ∃ l1 n, UnderflowL1 R uExact.flatten uApprox.flatten l1 ∧ UnderflowMean R (uExact.flatten.data.map (|·|)) n ∧
    UnderflowDiv R l1 n r

/-- `utils/compute_utils.py:185-224` with underflow. -/
def UnderflowErrors (uExact uApprox : NDArray) : ℝ × ℝ × ℝ × ℝ × ℝ × ℝ → Prop
  | (l2, linf, l2r, linfr, l1, l1r) =>
    UnderflowL2 R uExact.flatten uApprox.flatten l2 ∧ UnderflowLinf R uExact.flatten uApprox.flatten linf ∧
    UnderflowL2Relative R uExact.flatten uApprox.flatten l2r ∧
    UnderflowLinfRelative R uExact.flatten uApprox.flatten linfr ∧
    UnderflowL1 R uExact.flatten uApprox.flatten l1 ∧ UnderflowL1Relative R uExact.flatten uApprox.flatten l1r

end

end FastVPINNs
