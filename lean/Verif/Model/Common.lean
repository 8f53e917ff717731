import Mathlib.Data.Real.Basic

/-!
# Conventions shared by the model

Exceptions are values, arrays of fixed shape are functions on `Fin n`.
-/

namespace FastVPINNs

/-- The Python exceptions the modelled code can raise (only the class of the exception is kept,
not its message). -/
inductive PyErr
  | valueError
  | typeError
  | keyError
  | indexError
  | zeroDivisionError
  | unboundLocalError
  | nameError
  | linAlgError
  | attributeError
  | overflowError
  | fileNotFoundError
  /-- `meshio.ReadError`. -/
  | readError
  deriving DecidableEq, Repr

/-- A Python loop `for a in l: out.append(f(a))` whose body may raise: the first exception wins. -/
def mapE {α β ε : Type*} (f : α → Except ε β) : List α → Except ε (List β)
  | [] => .ok []
  | a :: l =>
    match f a with
    | .error e => .error e
    | .ok b =>
      match mapE f l with
      | .error e => .error e
      | .ok bs => .ok (b :: bs)

/-- Python sequence indexing `l[i]`: negative indices count from the end, everything outside
`-len(l) .. len(l)-1` raises `IndexError`. -/
def pyIndex {α : Type*} (l : List α) (i : ℤ) : Except PyErr α :=
  match (if 0 ≤ i then l[i.toNat]? else if 0 ≤ i + l.length then l[(i + l.length).toNat]? else none)
    with
  | some a => .ok a
  | none => .error .indexError

/-- Python dictionary access `d[k]`; a dictionary is an association list in insertion order. -/
def dictGet {α : Type*} (d : List (ℤ × α)) (k : ℤ) : Except PyErr α :=
  match d.lookup k with
  | some a => .ok a
  | none => .error .keyError

/-- `fastvpinns/FE/basis_2d_QN_Legendre.py:138-142` (and the same statement in every method of
the four basis classes, e.g. `basis_2d_QN_Chebyshev_2.py:172-177`, `basis_2d_QN_Jacobi.py:171-176`,
`basis_2d_QN_Legendre_Special.py:113-124`):
```
values = np.zeros((num, len(xi)))
for i in range(n1):
    values[n1 * i : n1 * (i + 1), :] = fx[i, :] * fy
```
with numpy's row broadcast `(fx[i, :] * fy)[j, p] = fx[i, p] * fy[j, p]`. -/
noncomputable def fillRows {num n1 q : ℕ} (fx fy : Fin n1 → Fin q → ℝ) : Fin num → Fin q → ℝ :=
  (List.finRange n1).foldl
    (fun (values : Fin num → Fin q → ℝ) (i : Fin n1) => fun r p =>
      if h : n1 * i.val ≤ r.val ∧ r.val < n1 * (i.val + 1) then
        fx i p * fy ⟨r.val - n1 * i.val, by rw [Nat.mul_succ] at h; omega⟩ p
      else values r p)
    (fun _ _ => 0)

/-- `fastvpinns/FE/basis_function_2d.py` (abstract class `BasisFunction2D`): the six evaluation
methods of a basis with `num` shape functions; each maps arrays of reference coordinates of any
common length `q` to a matrix of shape `(num, q)`. -/
structure BasisFunction2D (num : ℕ) where
  value : {q : ℕ} → (Fin q → ℝ) → (Fin q → ℝ) → Fin num → Fin q → ℝ
  gradx : {q : ℕ} → (Fin q → ℝ) → (Fin q → ℝ) → Fin num → Fin q → ℝ
  grady : {q : ℕ} → (Fin q → ℝ) → (Fin q → ℝ) → Fin num → Fin q → ℝ
  gradxx : {q : ℕ} → (Fin q → ℝ) → (Fin q → ℝ) → Fin num → Fin q → ℝ
  gradxy : {q : ℕ} → (Fin q → ℝ) → (Fin q → ℝ) → Fin num → Fin q → ℝ
  gradyy : {q : ℕ} → (Fin q → ℝ) → (Fin q → ℝ) → Fin num → Fin q → ℝ

end FastVPINNs
