import Verif.Model.Common
import Mathlib.Algebra.BigOperators.Group.List.Basic
import Mathlib.Analysis.SpecialFunctions.Sqrt

/-! # `fastvpinns/utils/compute_utils.py` and `print_utils.py` -/

namespace FastVPINNs

/-- A numpy array: its shape and its entries in C order. -/
structure NDArray where
  shape : List ℕ
  data : List ℝ

/-- `a.flatten()`. -/
def NDArray.flatten (a : NDArray) : NDArray := ⟨[a.data.length], a.data⟩

/-- `a - b` of one-dimensional arrays, with numpy's broadcasting of length one. -/
noncomputable def npSub (a b : List ℝ) : Except PyErr (List ℝ) :=
  if a.length = b.length then .ok (List.zipWith (· - ·) a b)
  else if a.length = 1 then .ok (b.map (a.getD 0 0 - ·))
  else if b.length = 1 then .ok (a.map (· - b.getD 0 0))
  else .error .valueError

/-- `np.mean` of a one-dimensional array (NaN for the empty array is not modelled). -/
noncomputable def npMean (a : List ℝ) : ℝ := a.sum / a.length

/-- `np.max` of a one-dimensional array. -/
noncomputable def npMax : List ℝ → Except PyErr ℝ
  | [] => .error .valueError
  | a :: l => .ok (l.foldl max a)

/-- `utils/compute_utils.py:18-42`. -/
noncomputable def computeL2Error (uExact uApprox : NDArray) : Except PyErr ℝ :=
  match npSub uExact.flatten.data uApprox.flatten.data with
  | .error e => .error e
  | .ok d => .ok (Real.sqrt (npMean (d.map (· ^ 2))))

/-- `utils/compute_utils.py:45-68`. -/
noncomputable def computeL1Error (uExact uApprox : NDArray) : Except PyErr ℝ :=
  match npSub uExact.flatten.data uApprox.flatten.data with
  | .error e => .error e
  | .ok d => .ok (npMean (d.map (|·|)))

/-- `utils/compute_utils.py:71-95`. -/
noncomputable def computeLinfError (uExact uApprox : NDArray) : Except PyErr ℝ :=
  match npSub uExact.flatten.data uApprox.flatten.data with
  | .error e => .error e
  | .ok d => npMax (d.map (|·|))

/-- `utils/compute_utils.py:98-124` (division by zero gives NaN or infinity in numpy, zero in `ℝ`). -/
noncomputable def computeL2ErrorRelative (uExact uApprox : NDArray) : Except PyErr ℝ :=
  let u := uExact.flatten
  let v := uApprox.flatten
  match computeL2Error u v with
  | .error e => .error e
  | .ok l2 => .ok (l2 / Real.sqrt (npMean (u.data.map (· ^ 2))))

/-- `utils/compute_utils.py:127-153`. -/
noncomputable def computeLinfErrorRelative (uExact uApprox : NDArray) : Except PyErr ℝ :=
  let u := uExact.flatten
  let v := uApprox.flatten
  match computeLinfError u v with
  | .error e => .error e
  | .ok linf =>
    match npMax (u.data.map (|·|)) with
    | .error e => .error e
    | .ok m => .ok (linf / m)

/-- `utils/compute_utils.py:156-182`. -/
noncomputable def computeL1ErrorRelative (uExact uApprox : NDArray) : Except PyErr ℝ :=
  let u := uExact.flatten
  let v := uApprox.flatten
  match computeL1Error u v with
  | .error e => .error e
  | .ok l1 => .ok (l1 / npMean (u.data.map (|·|)))

/-- `utils/compute_utils.py:185-224`. -/
noncomputable def computeErrorsCombined (uExact uApprox : NDArray) :
    Except PyErr (ℝ × ℝ × ℝ × ℝ × ℝ × ℝ) := do
  let u := uExact.flatten
  let v := uApprox.flatten
  let l2 ← computeL2Error u v
  let linf ← computeLinfError u v
  let l2r ← computeL2ErrorRelative u v
  let linfr ← computeLinfErrorRelative u v
  let l1 ← computeL1Error u v
  let l1r ← computeL1ErrorRelative u v
  return (l2, linf, l2r, linfr, l1, l1r)

/-- The values in the second column of a table: floats, or objects with their `str`. -/
inductive TableVal
  | float (x : ℝ)
  | other (s : String)

/-- `utils/print_utils.py:13-50` (`print_table`): the rows added to the table; `fmt4` is the format
specification `.4f`.  Rendering by `rich` is not modelled. -/
def printTableRows (fmt4 : ℝ → String) (col1 : List String) (col2 : List TableVal) : List (String × String) :=
  (List.zip col1 col2).map fun p =>
    match p.2 with
    | .float x => (p.1, fmt4 x)
    | .other s => (p.1, s)

end FastVPINNs
