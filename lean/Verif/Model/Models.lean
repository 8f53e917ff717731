import Verif.Model.Network
import Verif.Model.Train

/-! # Constructors and `get_config` of the four model classes

Tensors, functions and other objects the constructors only store are elements of an arbitrary type `T`.
Printing, `compile` and `summary` are not modelled.  `copy.deepcopy` of a tensor is the tensor. -/

namespace FastVPINNs

/-- The argument values of the constructors. -/
inductive MVal (T : Type)
  | none
  | bool (b : Bool)
  | str (s : String)
  | dims (l : List ℕ)
  | lr (d : List (String × PyVal))
  | params (d : List (String × ℤ))
  | invParams (d : List (String × ℝ))
  | objs (l : List T)
  | obj (t : T)
  | dtype (isTensorflowDType : Bool) (name : String)

/-- The state shared by the four classes after `__init__`. -/
structure ModelCore (T : Type) where
  layerDims : List ℕ
  learningRateDict : List (String × PyVal)
  paramsDict : List (String × ℤ)
  lossFunction : T
  inputTensorsList : List T
  origFactorMatrices : List T
  forceFunctionList : T
  tensorDtype : Bool × String
  useAttention : Bool
  activation : String
  hessian : Bool
  inputTensor : T
  dirichletInput : T
  dirichletActual : T
  preMultiplierVal : T
  preMultiplierGradX : T
  preMultiplierGradY : T
  forceMatrix : T
  nCells : ℤ
  learningRate : LearningRate
  layerList : List LayerSpec

/-- `model/model.py:64-179`; the same statements are in `model_hard.py:79-200`, `model_inverse.py:58-190`
and `model_inverse_domain.py:56-184`.  `lrFn` is the part on the learning rate, which differs. -/
noncomputable def modelCore {T : Type} (lrFn : List (String × PyVal) → Except PyErr LearningRate)
    (ld : List ℕ) (lrd : List (String × PyVal)) (pd : List (String × ℤ)) (lf : T) (its ofm : List T)
    (ffl : T) (dt : Bool × String) (att : Bool) (act : String) (hess : Bool) : Except PyErr (ModelCore T) := do
  if dt.1 = false then throw .typeError
  let sv ← pyIndex ofm 0
  let sx ← pyIndex ofm 1
  let sy ← pyIndex ofm 2
  let it ← pyIndex its 0
  let di ← pyIndex its 1
  let da ← pyIndex its 2
  let n ← strGet pd "n_cells"
  let lr ← lrFn lrd
  let ls ← layerSpecs ld act
  let _ ← pyIndex ld 0
  return { layerDims := ld, learningRateDict := lrd, paramsDict := pd, lossFunction := lf
           inputTensorsList := its, origFactorMatrices := ofm, forceFunctionList := ffl
           tensorDtype := dt, useAttention := att, activation := act, hessian := hess
           inputTensor := it, dirichletInput := di, dirichletActual := da
           preMultiplierVal := sv, preMultiplierGradX := sx, preMultiplierGradY := sy
           forceMatrix := ffl, nCells := n, learningRate := lr, layerList := ls }

/-- The parameters of `DenseModel.__init__` (`model/model.py:49-62`) with their defaults. -/
def denseParams (T : Type) : List (String × Option (MVal T)) :=
  [("layer_dims", none), ("learning_rate_dict", none), ("params_dict", none), ("loss_function", none),
   ("input_tensors_list", none), ("orig_factor_matrices", none), ("force_function_list", none),
   ("tensor_dtype", none), ("use_attention", some (.bool false)), ("activation", some (.str "tanh")),
   ("hessian", some (.bool false))]

/-- `model/model_hard.py:63-77`. -/
def hardParams (T : Type) : List (String × Option (MVal T)) :=
  denseParams T ++ [("hard_constraint_function", some .none)]

/-- `model/model_inverse.py:41-56`. -/
def inverseParams (T : Type) : List (String × Option (MVal T)) :=
  [("layer_dims", none), ("learning_rate_dict", none), ("params_dict", none), ("loss_function", none),
   ("input_tensors_list", none), ("orig_factor_matrices", none), ("force_function_list", none),
   ("sensor_list", none), ("inverse_params_dict", none),
   ("tensor_dtype", none), ("use_attention", some (.bool false)), ("activation", some (.str "tanh")),
   ("hessian", some (.bool false))]

/-- `model/model_inverse_domain.py:40-54`. -/
def inverseDomainParams (T : Type) : List (String × Option (MVal T)) :=
  [("layer_dims", none), ("learning_rate_dict", none), ("params_dict", none), ("loss_function", none),
   ("input_tensors_list", none), ("orig_factor_matrices", none), ("force_function_list", none),
   ("sensor_list", none),
   ("tensor_dtype", none), ("use_attention", some (.bool false)), ("activation", some (.str "tanh")),
   ("hessian", some (.bool false))]

/-- A `DenseModel` object. -/
structure DenseModel (T : Type) where
  core : ModelCore T

/-- A `DenseModel_Hard` object; the constraint function `none` is `lambda x, y: y`. -/
structure HardModel (T : Type) where
  core : ModelCore T
  hardConstraint : Option T

/-- A `DenseModel_Inverse` object (the trainable variables by their initial values). -/
structure InverseModel (T : Type) where
  core : ModelCore T
  sensorList : List T
  sensorPoints : T
  sensorValues : T
  inverseParamsDict : List (String × ℝ)

/-- A `DenseModel_Inverse_Domain` object. -/
structure InverseDomainModel (T : Type) where
  core : ModelCore T
  sensorList : List T
  sensorPoints : T
  sensorValues : T

section
variable {T : Type}

/-- `model/model.py:49-184` (`DenseModel(**kwargs)`).  Arguments of unexpected types are not modelled
(`TypeError`). -/
noncomputable def initDense (kwargs : List (String × MVal T)) : Except PyErr (DenseModel T) := do
  let args ← bindKwargs (denseParams T) kwargs
  match args with
  | [.dims ld, .lr lrd, .params pd, .obj lf, .objs its, .objs ofm, .obj ffl, .dtype b dt, .bool att,
      .str act, .bool hess] =>
    let core ← modelCore learningRateFn ld lrd pd lf its ofm ffl (b, dt) att act hess
    return ⟨core⟩
  | _ => throw .typeError

/-- `hard_constraint_function`, `model/model_hard.py:85-88`. -/
def hardOf : MVal T → Except PyErr (Option T)
  | .none => .ok none
  | .obj g => .ok (some g)
  | _ => .error .typeError

/-- `model/model_hard.py:63-206` (`DenseModel_Hard(**kwargs)`). -/
noncomputable def initHard (kwargs : List (String × MVal T)) : Except PyErr (HardModel T) := do
  let args ← bindKwargs (hardParams T) kwargs
  match args with
  | [.dims ld, .lr lrd, .params pd, .obj lf, .objs its, .objs ofm, .obj ffl, .dtype b dt, .bool att,
      .str act, .bool hess, hc] =>
    let g ← hardOf hc
    let core ← modelCore learningRateFnStaircase ld lrd pd lf its ofm ffl (b, dt) att act hess
    return ⟨core, g⟩
  | _ => throw .typeError

/-- `model/model_inverse.py:41-194` (`DenseModel_Inverse(**kwargs)`). -/
noncomputable def initInverse (kwargs : List (String × MVal T)) : Except PyErr (InverseModel T) := do
  let args ← bindKwargs (inverseParams T) kwargs
  match args with
  | [.dims ld, .lr lrd, .params pd, .obj lf, .objs its, .objs ofm, .obj ffl, .objs sl, .invParams ip,
      .dtype b dt, .bool att, .str act, .bool hess] =>
    let sp ← pyIndex sl 0
    let sv ← pyIndex sl 1
    let core ← modelCore learningRateFnStaircase ld lrd pd lf its ofm ffl (b, dt) att act hess
    return ⟨core, sl, sp, sv, ip⟩
  | _ => throw .typeError

/-- `model/model_inverse_domain.py:40-188` (`DenseModel_Inverse_Domain(**kwargs)`). -/
noncomputable def initInverseDomain (kwargs : List (String × MVal T)) :
    Except PyErr (InverseDomainModel T) := do
  let args ← bindKwargs (inverseDomainParams T) kwargs
  match args with
  | [.dims ld, .lr lrd, .params pd, .obj lf, .objs its, .objs ofm, .obj ffl, .objs sl,
      .dtype b dt, .bool att, .str act, .bool hess] =>
    let sp ← pyIndex sl 0
    let sv ← pyIndex sl 1
    let core ← modelCore learningRateFn ld lrd pd lf its ofm ffl (b, dt) att act hess
    return ⟨core, sl, sp, sv⟩
  | _ => throw .typeError

/-- `d.update(e)` for dictionaries with string keys: known keys keep their place. -/
def dictUpdate {α : Type} (d e : List (String × α)) : List (String × α) :=
  d.map (fun kv => (kv.1, (e.lookup kv.1).getD kv.2)) ++ e.filter fun kv => !(d.any fun kw => kw.1 == kv.1)

/-- The eleven entries of `model/model.py:219-233` (the same in the other classes). -/
def ModelCore.config (m : ModelCore T) : List (String × MVal T) :=
  [("learning_rate_dict", .lr m.learningRateDict), ("loss_function", .obj m.lossFunction),
   ("input_tensors_list", .objs m.inputTensorsList), ("orig_factor_matrices", .objs m.origFactorMatrices),
   ("force_function_list", .obj m.forceFunctionList), ("params_dict", .params m.paramsDict),
   ("use_attention", .bool m.useAttention), ("activation", .str m.activation),
   ("hessian", .bool m.hessian), ("layer_dims", .dims m.layerDims),
   ("tensor_dtype", .dtype m.tensorDtype.1 m.tensorDtype.2)]

/-- `model/model.py:208-235` (`get_config`); `base` is keras' `super().get_config()`. -/
def getConfigDense (base : List (String × MVal T)) (m : DenseModel T) : List (String × MVal T) :=
  dictUpdate base m.core.config

/-- `model/model_hard.py:230-256`. -/
def getConfigHard (base : List (String × MVal T)) (m : HardModel T) : List (String × MVal T) :=
  dictUpdate base m.core.config

/-- `model/model_inverse.py:218-250`. -/
def getConfigInverse (base : List (String × MVal T)) (m : InverseModel T) : List (String × MVal T) :=
  dictUpdate base (m.core.config ++
    [("sensor_list", .objs m.sensorList), ("inverse_params_dict", .invParams m.inverseParamsDict)])

/-- `model/model_inverse_domain.py:211-239`. -/
def getConfigInverseDomain (base : List (String × MVal T)) (m : InverseDomainModel T) :
    List (String × MVal T) :=
  dictUpdate base (m.core.config ++ [("sensor_list", .objs m.sensorList)])

end

/-! ## The models as functions of points -/

/-- The rows `[x, y]` of a tensor of points. -/
def pointRows {n : ℕ} (X : Fin n → ℝ × ℝ) : Batch := List.ofFn fun i => [(X i).1, (X i).2]

/-- Entry `(r, j)` of a returned batch (only used where it exists). -/
noncomputable def batchEntry (out : Except PyErr Batch) (r j : ℕ) : ℝ :=
  match out with
  | .ok b => (b.getD r []).getD j 0
  | .error _ => 0

/-- `self(X)` of `DenseModel` (and the inverse models) as used in `train_step`. -/
noncomputable def networkDense (act : String → ℝ → ℝ) (attention : Batch → Except PyErr Batch)
    (useAttention : Bool) (layers : List DenseLayer) (dout : ℕ) : Network dout := fun _ X r j =>
  batchEntry (callDense act attention useAttention layers (pointRows X)) r j

/-- `self(X)` of `DenseModel_Hard`. -/
noncomputable def networkHard (act : String → ℝ → ℝ) (attention : Batch → Except PyErr Batch)
    (useAttention : Bool) (layers : List DenseLayer) (hard : Batch → Batch → Batch) (dout : ℕ) :
    Network dout := fun _ X r j =>
  batchEntry (callHard act attention useAttention layers hard (pointRows X)) r j

end FastVPINNs
