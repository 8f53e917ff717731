import Verif.Model.Fespace

/-! # `fastvpinns/data/datahandler2d.py`

`tf.constant(a, dtype)` is the identity on the real-number model. -/

namespace FastVPINNs

/-- What the loop `datahandler2d.py:79-99` appends to the five lists for one cell. -/
structure CellTensors (nt nq : ℕ) where
  shapeVal : Fin nt → Fin nq → ℝ
  gradX : Fin nt → Fin nq → ℝ
  gradY : Fin nt → Fin nq → ℝ
  xPde : Fin nq → ℝ × ℝ
  forcing : Fin nt → ℝ

/-- `datahandler2d.py:80-94`: the accessor calls for one cell; the forcing call modifies the space. -/
noncomputable def cellTensors {V : Type} {nt nq : ℕ} (S : Fespace2D (ℝ → ℝ → ℝ) V nt nq) (i : ℤ) :
    Except PyErr (CellTensors nt nq × Fespace2D (ℝ → ℝ → ℝ) V nt nq) :=
  match S.getShapeFunctionVal i, S.getShapeFunctionGradX i, S.getShapeFunctionGradY i,
      S.getQuadratureActualCoordinates i, S.getForcingFunctionValues i with
  | .ok v, .ok gx, .ok gy, .ok x, .ok (f, S') => .ok (⟨v, gx, gy, x, f⟩, S')
  | .error e, _, _, _, _ => .error e
  | _, .error e, _, _, _ => .error e
  | _, _, .error e, _, _ => .error e
  | _, _, _, .error e, _ => .error e
  | _, _, _, _, .error e => .error e

/-- `datahandler2d.py:79-99`: the loop over the given cell indices. -/
noncomputable def dataLoop {V : Type} {nt nq : ℕ} : List ℕ → Fespace2D (ℝ → ℝ → ℝ) V nt nq →
    List (CellTensors nt nq) →
    Except PyErr (List (CellTensors nt nq) × Fespace2D (ℝ → ℝ → ℝ) V nt nq)
  | [], S, out => .ok (out, S)
  | i :: is, S, out =>
    match cellTensors S i with
    | .error e => .error e
    | .ok (t, S') => dataLoop is S' (out ++ [t])

/-- The tensors held by `DataHandler2D` after construction (`datahandler2d.py:101-109`). -/
structure DataHandler2D (nt nq : ℕ) where
  nCells : ℕ
  shapeValMat : Fin nCells → Fin nt → Fin nq → ℝ
  gradXMat : Fin nCells → Fin nt → Fin nq → ℝ
  gradYMat : Fin nCells → Fin nt → Fin nq → ℝ
  xPde : Fin (nCells * nq) → ℝ × ℝ
  forcing : Fin nt → Fin nCells → ℝ

/-- `datahandler2d.py:101-109`: `tf.reshape(x_pde_list, [-1, 2])` (row-major), `tf.concat(…, axis=1)` of
columns, `tf.stack(…, axis=0)`. -/
def stackTensors {nt nq : ℕ} (ts : List (CellTensors nt nq)) : DataHandler2D nt nq where
  nCells := ts.length
  shapeValMat := fun c => (ts.get c).shapeVal
  gradXMat := fun c => (ts.get c).gradX
  gradYMat := fun c => (ts.get c).gradY
  xPde := fun r => (ts.get r.divNat).xPde r.modNat
  forcing := fun t c => (ts.get c).forcing t

/-- `datahandler2d.py:45-112` (constructor).  `isTfDType` is the result of the check on line 76. -/
noncomputable def dataHandler2D {V : Type} {nt nq : ℕ} (S : Fespace2D (ℝ → ℝ → ℝ) V nt nq)
    (isTfDType : Bool) :
    Except PyErr (DataHandler2D nt nq × Fespace2D (ℝ → ℝ → ℝ) V nt nq) :=
  if isTfDType then
    match dataLoop (List.range S.nCells) S [] with
    | .error e => .error e
    | .ok (ts, S') => .ok (stackTensors ts, S')
  else .error .typeError

/-- `datahandler2d.py:114-129` (`get_dirichlet_input`); for scalar boundary values the reshape on line
127 keeps one value per row. -/
def getDirichletInput {F : Type} {nt nq : ℕ} (S : Fespace2D F ℝ nt nq) :
    Except PyErr (List (ℝ × ℝ) × List ℝ) :=
  generateDirichletBoundaryData S.boundFunctionDict S.boundaryPoints

/-- `datahandler2d.py:142-164` and `201-217` (`get_bilinear_params_dict_as_tensors`,
`get_inverse_params`): every value is converted in place. -/
def paramsAsTensors (d : List (String × ℝ)) : List (String × ℝ) :=
  d.map fun e => (e.1, e.2)

/-- `datahandler2d.py:167-198` (`get_sensor_data`).  For another mesh type `points` is unbound on line
192. -/
noncomputable def getSensorData {F V : Type} {nt nq : ℕ} (S : Fespace2D F V nt nq)
    (exactSol : ℝ → ℝ → ℝ) (numSensorPoints : ℕ) (meshType : String)
    (lhs : (k : ℕ) → Fin k → ℝ × ℝ) (file : Option (List (ℝ × ℝ × ℝ)))
    (randint : ℕ → Fin numSensorPoints → ℤ) : Except PyErr (List (ℝ × ℝ) × List ℝ) :=
  if meshType = "internal" then S.getSensorData exactSol numSensorPoints lhs
  else if meshType = "external" then getSensorDataExternal exactSol numSensorPoints file randint
  else .error .unboundLocalError

end FastVPINNs
