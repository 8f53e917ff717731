import Verif.Model.Models
import Mathlib.Analysis.SpecialFunctions.Sqrt

/-! # The weight update of `train_step` and its repetition

`Model/Train.lean` has the losses that `train_step` computes from the current weights.  Here are the last
three statements of the method (gradient, `apply_gradients`) and the loop over the epochs. -/

namespace FastVPINNs

/-- One number of the trainable variables: an entry of the kernel or of the bias of a layer, or a
variable of `inverse_params_dict`. -/
inductive Var
  | kernel (layer i j : ℕ)
  | bias (layer j : ℕ)
  | inverse (key : String)
  deriving DecidableEq

/-- The current values. -/
abbrev Weights := Var → ℝ

/-- The layers of the model with the current values: the shapes are those of `buildLayers`. -/
def layersAt (θ : Weights) : ℕ → ℕ → List LayerSpec → List DenseLayer
  | _, _, [] => []
  | k, inDim, s :: rest =>
    ⟨inDim, s.units, fun i j => θ (.kernel k i j), fun j => θ (.bias k j), s.activation⟩
      :: layersAt θ (k + 1) s.units rest

/-- The variables of `inverse_params_dict` with the current values (`model_inverse.py:74-78`). -/
def inverseAt (θ : Weights) (keys : List String) : ParamDict :=
  some (keys.map fun k => (k, θ (.inverse k)))

/-- The entries of the kernels and biases, layer after layer. -/
def layerVars : ℕ → ℕ → List LayerSpec → List Var
  | _, _, [] => []
  | k, inDim, s :: rest =>
    ((List.range inDim).flatMap fun i => (List.range s.units).map fun j => Var.kernel k i j)
      ++ (List.range s.units).map (Var.bias k) ++ layerVars (k + 1) s.units rest

/-- `self.trainable_variables` (`model.py:303`; `model_hard.py:326`, `model_inverse.py:328`,
`model_inverse_domain.py:333`): all weights of the layers and, for `DenseModel_Inverse`, the variables of
the dictionary, which keras tracks as an attribute (the statement `model_inverse.py:82` changes only a
temporary list). -/
def trainableVariables (inDim : ℕ) (specs : List LayerSpec) (keys : List String) : List Var :=
  layerVars 0 inDim specs ++ keys.map Var.inverse

/-- What a step computes from the weights: the returned dictionary, and the sum of the entries of
`total_loss` (TensorFlow differentiates this sum). -/
abbrev Forward (α : Type) := Weights → Except PyErr (α × ℝ)

/-- The sum of the entries of `total_loss` as a function of the weights (only used where the step does
not fail). -/
def Forward.total {α : Type} (fwd : Forward α) (θ : Weights) : ℝ :=
  match fwd θ with
  | .ok (_, l) => l
  | .error _ => 0

/-- `tape.gradient(total_loss, trainable_vars)` (`model.py:304` and the same statement in the other
models), for one entry of the variables. -/
noncomputable def lossGradient {α : Type} (fwd : Forward α) (θ : Weights) (v : Var) : ℝ :=
  deriv (fun t => fwd.total (Function.update θ v t)) (θ v)

/-- The state of keras' `Adam`: both moments of each entry and the number of steps taken. -/
structure AdamState where
  m : Var → ℝ
  v : Var → ℝ
  iterations : ℕ

/-- A new optimizer. -/
def AdamState.init : AdamState := ⟨fun _ => 0, fun _ => 0, 0⟩

/-- The step size of `Adam` with the default `beta_1 = 0.9`, `beta_2 = 0.999`; the learning rate is read
before the step counter is increased. -/
noncomputable def adamAlpha (lr : LearningRate) (iterations : ℕ) : ℝ :=
  lr.at iterations * Real.sqrt (1 - (999 / 1000) ^ (iterations + 1)) / (1 - (9 / 10) ^ (iterations + 1))

/-- The update of one entry with gradient `g` by keras' `Adam` (default `epsilon = 1e-7`); an external
routine, given by its documented formula. -/
noncomputable def adamUpdateVar (alpha g : ℝ) (x : Var) (s : (Var → ℝ) × (Var → ℝ) × Weights) :
    (Var → ℝ) × (Var → ℝ) × Weights :=
  let m' := s.1 x + (g - s.1 x) * (1 - 9 / 10)
  let v' := s.2.1 x + (g ^ 2 - s.2.1 x) * (1 - 999 / 1000)
  (Function.update s.1 x m', Function.update s.2.1 x v',
    Function.update s.2.2 x (s.2.2 x - m' * alpha / (Real.sqrt v' + 1 / 10000000)))

/-- The model object between two calls of `train_step`. -/
structure TrainState where
  weights : Weights
  adam : AdamState

/-- `self.optimizer.apply_gradients(zip(self.gradients, trainable_vars))` (`model.py:305` and the same
statement in the other models). -/
noncomputable def applyGradients (lr : LearningRate) (pairs : List (ℝ × Var)) (s : TrainState) : TrainState :=
  let alpha := adamAlpha lr s.adam.iterations
  let r := pairs.foldl (fun acc p => adamUpdateVar alpha p.1 p.2 acc) (s.adam.m, s.adam.v, s.weights)
  ⟨r.2.2, ⟨r.1, r.2.1, s.adam.iterations + 1⟩⟩

/-- `train_step` with its effect on the model: `model.py:237-307` (and the same structure in the other
models). -/
noncomputable def trainStepWith {α : Type} (fwd : Forward α) (vars : List Var) (lr : LearningRate)
    (s : TrainState) : Except PyErr (α × TrainState) :=
  match fwd s.weights with
  | .error e => .error e
  | .ok (out, _) =>
    let gradients := vars.map (lossGradient fwd s.weights)
    .ok (out, applyGradients lr (List.zip gradients vars) s)

/-- `for epoch in range(n): loss = model.train_step(…)`: the returned dictionaries and the final state
(e.g. `hyperparameter_tuning/objective.py:136-137`). -/
def trainEpochs {α : Type} (step : TrainState → Except PyErr (α × TrainState)) :
    ℕ → TrainState → Except PyErr (List α × TrainState)
  | 0, s => .ok ([], s)
  | n + 1, s =>
    match step s with
    | .error e => .error e
    | .ok (out, s') =>
      match trainEpochs step n s' with
      | .error e => .error e
      | .ok (outs, s'') => .ok (out :: outs, s'')

section
variable {nc nt nq nIn nBd : ℕ} (L : LossFunction nc nt nq) (M : ModelData nc nt nq nIn nBd)
  (act : String → ℝ → ℝ) (attention : Batch → Except PyErr Batch) (useAttention : Bool)
  (inDim : ℕ) (specs : List LayerSpec) (dout : ℕ) (beta : ℝ) (bilinear : ParamDict)

/-- `self(·)` with the current weights. -/
noncomputable def networkAt (θ : Weights) : Network dout :=
  networkDense act attention useAttention (layersAt θ 0 inDim specs) dout

/-- `DenseModel.train_step`, `model.py:237-307`. -/
noncomputable def forwardDense : Forward (TrainOut dout) := fun θ =>
  match trainStepDense L M (networkAt act attention useAttention inDim specs dout θ) beta bilinear with
  | .error e => .error e
  | .ok out => .ok (out, ∑ j, out.loss j)

/-- `DenseModel_Hard.train_step`, `model_hard.py:258-330`. -/
noncomputable def forwardHard (hard : Batch → Batch → Batch) : Forward TrainOutHard := fun θ =>
  match trainStepHard L M (networkHard act attention useAttention (layersAt θ 0 inDim specs) hard dout)
      beta bilinear with
  | .error e => .error e
  | .ok out => .ok (out, out.loss)

/-- `DenseModel_Inverse.train_step`, `model_inverse.py:252-338`. -/
noncomputable def forwardInverse {nS : ℕ} (sensorPoints : Fin nS → ℝ × ℝ) (sensorValues : Fin nS → ℝ)
    (keys : List String) : Forward (TrainOutInverse dout) := fun θ =>
  match trainStepInverse L M sensorPoints sensorValues (inverseAt θ keys)
      (networkAt act attention useAttention inDim specs dout θ) beta bilinear with
  | .error e => .error e
  | .ok out => .ok (out, ∑ j, out.loss j)

/-- `DenseModel_Inverse_Domain.train_step`, `model_inverse_domain.py:241-342`. -/
noncomputable def forwardInverseDomain {nS : ℕ} (sensorPoints : Fin nS → ℝ × ℝ)
    (sensorValues : Fin nS → ℝ) : Forward (TrainOutInverse 1) := fun θ =>
  match trainStepInverseDomain L M sensorPoints sensorValues
      (networkAt act attention useAttention inDim specs dout θ) beta bilinear with
  | .error e => .error e
  | .ok out => .ok (out, ∑ j, out.loss j)

/-- `DenseModel_Inverse.train_step` with its effect: the entry `inverse_params` of the returned
dictionary is the dictionary of variables itself (`model_inverse.py:336`); its values are read when the
function returns, after the update. -/
noncomputable def trainStepInverseFull {nS : ℕ} (sensorPoints : Fin nS → ℝ × ℝ)
    (sensorValues : Fin nS → ℝ) (keys : List String) (lr : LearningRate) (s : TrainState) :
    Except PyErr (TrainOutInverse dout × TrainState) :=
  match trainStepWith (forwardInverse L M act attention useAttention inDim specs dout beta bilinear
      sensorPoints sensorValues keys) (trainableVariables inDim specs keys) lr s with
  | .error e => .error e
  | .ok (out, s') => .ok ({ out with inverseParams := inverseAt s'.weights keys }, s')

end

end FastVPINNs
