import Verif.Model.Numpy
import Mathlib.Algebra.BigOperators.Fin
import Mathlib.Algebra.Order.Archimedean.Real.Basic
import Mathlib.Algebra.Order.Round

/-! # The networks of `fastvpinns/model/*.py`: layers, `call`, learning rate -/

namespace FastVPINNs

/-- The arguments of one `layers.Dense(units, activation=…)` call; `none` is `activation=None`. -/
structure LayerSpec where
  units : ℕ
  activation : Option String
  deriving DecidableEq

/-- `model/model.py:151-171` (the same loop in `model_hard.py:172-192`, `model_inverse.py:163-183`,
`model_inverse_domain.py:157-177`): the layers appended to `layer_list`.  `range(len - 2)` is empty for
short lists. -/
def layerSpecs (layerDims : List ℕ) (activation : String) : Except PyErr (List LayerSpec) :=
  match mapE (fun dim : ℕ => pyIndex layerDims ((dim : ℤ) + 1)) (List.range (layerDims.length - 2)) with
  | .error e => .error e
  | .ok hidden =>
    match pyIndex layerDims (-1) with
    | .error e => .error e
    | .ok last => .ok (hidden.map (fun n => ⟨n, some activation⟩) ++ [⟨last, none⟩])

/-- A built keras `Dense` layer with its current weights. -/
structure DenseLayer where
  inDim : ℕ
  units : ℕ
  kernel : Fin inDim → Fin units → ℝ
  bias : Fin units → ℝ
  activation : Option String

/-- The weights a `Dense` layer has after `build`: the kernel comes from the initializer
(`kernel_initializer="glorot_uniform"`), the bias is zero (`bias_initializer="zeros"`). -/
def buildLayer (init : (i o : ℕ) → Fin i → Fin o → ℝ) (inDim : ℕ) (s : LayerSpec) : DenseLayer :=
  ⟨inDim, s.units, init inDim s.units, fun _ => 0, s.activation⟩

/-- `self.build(input_shape=(None, layer_dims[0]))` (`model.py:179`): each layer is built for the width
of the previous one.  `init k` is the initializer's draw for layer `k`. -/
def buildLayers (init : ℕ → (i o : ℕ) → Fin i → Fin o → ℝ) : ℕ → ℕ → List LayerSpec → List DenseLayer
  | _, _, [] => []
  | k, inDim, s :: rest => buildLayer (init k) inDim s :: buildLayers init (k + 1) s.units rest

/-- Number of trainable numbers of a layer. -/
def DenseLayer.numParams (L : DenseLayer) : ℕ := L.inDim * L.units + L.units

/-- A `Dense` layer on one row; `act` interprets the names of the activations.  A row of the wrong width
is a `ValueError`. -/
def applyLayer (act : String → ℝ → ℝ) (L : DenseLayer) (x : List ℝ) : Except PyErr (List ℝ) :=
  if h : x.length = L.inDim then
    .ok (List.ofFn fun j : Fin L.units =>
      let z := (∑ i : Fin L.inDim, x[i.val]'(by omega) * L.kernel i j) + L.bias j
      match L.activation with
      | none => z
      | some a => act a z)
  else .error .valueError

/-- A batch of rows. -/
abbrev Batch := List (List ℝ)

/-- `model/model.py:203-204`: `for layer in self.layer_list: x = layer(x)`, layer by layer on the whole
batch. -/
def applyLayers (act : String → ℝ → ℝ) : List DenseLayer → Batch → Except PyErr Batch
  | [], x => .ok x
  | L :: rest, x =>
    match mapE (applyLayer act L) x with
    | .error e => .error e
    | .ok y => applyLayers act rest y

/-- `model/model.py:187-206` (`call`; the same in `model_inverse.py:196-216` and
`model_inverse_domain.py:190-209`).  `attention` stands for keras' `Attention()` on `[x, x]`. -/
def callDense (act : String → ℝ → ℝ) (attention : Batch → Except PyErr Batch) (useAttention : Bool)
    (layers : List DenseLayer) (inputs : Batch) : Except PyErr Batch :=
  if useAttention then
    match attention inputs with
    | .error e => .error e
    | .ok x => applyLayers act layers x
  else applyLayers act layers inputs

/-- `model/model_hard.py:208-228` (`call`): the constraint function gets the original inputs and the
network output. -/
def callHard (act : String → ℝ → ℝ) (attention : Batch → Except PyErr Batch) (useAttention : Bool)
    (layers : List DenseLayer) (hard : Batch → Batch → Batch) (inputs : Batch) : Except PyErr Batch :=
  match callDense act attention useAttention layers inputs with
  | .error e => .error e
  | .ok x => .ok (hard inputs x)

/-! ## Learning rate -/

/-- The values that occur in `learning_rate_dict`. -/
inductive PyVal
  | num (r : ℝ)
  | bool (b : Bool)

/-- A value used as a number (`True` is 1). -/
def PyVal.toReal : PyVal → ℝ
  | .num r => r
  | .bool b => if b then 1 else 0

open Classical in
/-- A value used as a condition. -/
noncomputable def PyVal.truthy : PyVal → Bool
  | .num r => decide (r ≠ 0)
  | .bool b => b

/-- `d[key]` for a dictionary with string keys. -/
def strGet {α : Type} (d : List (String × α)) (key : String) : Except PyErr α :=
  match d.lookup key with
  | some v => .ok v
  | none => .error .keyError

/-- The object passed as `Adam(learning_rate=…)`. -/
inductive LearningRate
  | constant (r : ℝ)
  | exponentialDecay (initial decaySteps decayRate : ℝ) (staircase : Bool)

/-- `model/model.py:131-142` (and `model_inverse_domain.py:128-139`). -/
noncomputable def learningRateFn (d : List (String × PyVal)) : Except PyErr LearningRate :=
  match strGet d "initial_learning_rate", strGet d "use_lr_scheduler", strGet d "decay_steps",
      strGet d "decay_rate" with
  | .ok i, .ok u, .ok s, .ok r =>
    if u.truthy then .ok (.exponentialDecay i.toReal s.toReal r.toReal true) else .ok (.constant i.toReal)
  | .error e, _, _, _ => .error e
  | _, .error e, _, _ => .error e
  | _, _, .error e, _ => .error e
  | _, _, _, .error e => .error e

/-- `model/model_hard.py:152-163` and `model_inverse.py:143-154`: as before, but `staircase` is read
(and not used). -/
noncomputable def learningRateFnStaircase (d : List (String × PyVal)) : Except PyErr LearningRate :=
  match strGet d "initial_learning_rate", strGet d "use_lr_scheduler", strGet d "decay_steps",
      strGet d "decay_rate", strGet d "staircase" with
  | .ok i, .ok u, .ok s, .ok r, .ok _ =>
    if u.truthy then .ok (.exponentialDecay i.toReal s.toReal r.toReal true) else .ok (.constant i.toReal)
  | .error e, _, _, _, _ => .error e
  | _, .error e, _, _, _ => .error e
  | _, _, .error e, _, _ => .error e
  | _, _, _, .error e, _ => .error e
  | _, _, _, _, .error e => .error e

/-- The rate the optimizer uses at a step.  For keras' `ExponentialDecay` this is its documented formula
`initial * decay_rate ** p` with `p = step / decay_steps`, rounded down when `staircase` (only this case
occurs; the other is given the value `0`). -/
noncomputable def LearningRate.at (lr : LearningRate) (step : ℕ) : ℝ :=
  match lr with
  | .constant r => r
  | .exponentialDecay i s r true => i * r ^ ⌊(step : ℝ) / s⌋
  | .exponentialDecay _ _ _ false => 0

end FastVPINNs
