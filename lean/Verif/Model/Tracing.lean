import Verif.Model.Training

/-! # `@tf.function`: the compiled training step

`train_step` of the four models is decorated with `@tf.function` (`model.py:237`, `model_hard.py:258`,
`model_inverse.py:252`, `model_inverse_domain.py:241`).  The Python text of the method is executed when the step is
called with a new signature; this builds a graph, and later calls with the same signature run the graph.  What the
text reads from `self` (tensors, loss function, layers) is what it was when the graph was built; variables (weights,
optimizer) and tensor arguments are read when the graph runs.  All errors of the modelled steps are errors of the
Python text (missing keys, wrong shapes), and a text that fails leaves no graph.

Not modelled: `input_signature`, retracing after many signatures with relaxed shapes, garbage collection of graphs,
changes of objects in place. -/

namespace FastVPINNs

/-- An argument of a compiled function. -/
inductive TfArg
  | py (x : ℝ)
  | tensor (x : ℝ)

/-- The number that is passed. -/
def TfArg.value : TfArg → ℝ
  | .py x => x
  | .tensor x => x

/-- What the signature has of an argument: the value of a Python number, only the type of a tensor (all tensors here
have the same shape and type). -/
inductive ArgKey
  | py (x : ℝ)
  | tensor

/-- The signature of one argument. -/
def TfArg.key : TfArg → ArgKey
  | .py x => .py x
  | .tensor _ => .tensor

/-- The arguments `train_step(beta=10, bilinear_params_dict=None)`. -/
structure StepArgs where
  beta : TfArg := .py 10
  bilinear : Option (List (String × TfArg)) := none

/-- The dictionary with its values. -/
def StepArgs.params (a : StepArgs) : ParamDict := a.bilinear.map fun d => d.map fun e => (e.1, e.2.value)

/-- The signature of a call: an omitted argument counts as its default, the order of a dictionary does not matter. -/
abbrev StepKey := ArgKey × Option (String → Option ArgKey)

/-- The signature of the arguments. -/
def StepArgs.key (a : StepArgs) : StepKey :=
  (a.beta.key, a.bilinear.map fun d k => (d.lookup k).map TfArg.key)

/-- The Python text of a training step: `A` is what it reads from `self`, `S` the variables. -/
abbrev StepText (A S α : Type) := A → ℝ → ParamDict → S → Except PyErr (α × S)

/-- A model object with a compiled training step: the graphs with their signatures, each with the attributes it was
built with. -/
structure Compiled (A S : Type) where
  attrs : A
  graphs : List (StepKey × A)
  state : S

namespace Compiled
variable {A S α : Type}

/-- A new model. -/
def new (a : A) (s : S) : Compiled A S := ⟨a, [], s⟩

open Classical in
/-- The graph for a signature. -/
noncomputable def graph (c : Compiled A S) (k : StepKey) : Option A :=
  (c.graphs.find? fun g => decide (g.1 = k)).map Prod.snd

/-- `model.train_step(beta=…, bilinear_params_dict=…)`. -/
noncomputable def call (text : StepText A S α) (args : StepArgs) (c : Compiled A S) :
    Except PyErr α × Compiled A S :=
  match c.graph args.key with
  | some a =>
    match text a args.beta.value args.params c.state with
    | .error e => (.error e, c)
    | .ok (out, s) => (.ok out, { c with state := s })
  | none =>
    match text c.attrs args.beta.value args.params c.state with
    | .error e => (.error e, c)
    | .ok (out, s) => (.ok out, ⟨c.attrs, c.graphs ++ [(args.key, c.attrs)], s⟩)

/-- What a program does with a model: it calls the step or assigns attributes. -/
inductive Op (A : Type)
  | step (args : StepArgs)
  | assign (a : A)

/-- The program: the results of its steps and the final object.  An exception of a step is caught. -/
noncomputable def exec (text : StepText A S α) : List (Op A) → Compiled A S → List (Except PyErr α) × Compiled A S
  | [], c => ([], c)
  | .step args :: rest, c =>
    let r := c.call text args
    let rs := exec text rest r.2
    (r.1 :: rs.1, rs.2)
  | .assign a :: rest, c => exec text rest { c with attrs := a }

/-- `for epoch in range(n): loss = model.train_step(beta=…, bilinear_params_dict=…)`, the loop `trainEpochs` with the
compiled step. -/
noncomputable def epochs (text : StepText A S α) (args : StepArgs) :
    ℕ → Compiled A S → Except PyErr (List α × Compiled A S)
  | 0, c => .ok ([], c)
  | n + 1, c =>
    match c.call text args with
    | (.error e, _) => .error e
    | (.ok out, c') =>
      match epochs text args n c' with
      | .error e => .error e
      | .ok (outs, c'') => .ok (out :: outs, c'')

end Compiled

/-! ## The four training steps as texts -/

section
variable {nc nt nq nIn nBd : ℕ}

/-- What `DenseModel.train_step` reads from `self`. -/
structure DenseAttrs (nc nt nq nIn nBd : ℕ) where
  loss : LossFunction nc nt nq
  data : ModelData nc nt nq nIn nBd
  useAttention : Bool
  inDim : ℕ
  specs : List LayerSpec
  lr : LearningRate

/-- `model.py:237-307`. -/
noncomputable def textDense (act : String → ℝ → ℝ) (attention : Batch → Except PyErr Batch) (dout : ℕ) :
    StepText (DenseAttrs nc nt nq nIn nBd) TrainState (TrainOut dout) := fun a beta p =>
  trainStepWith (forwardDense a.loss a.data act attention a.useAttention a.inDim a.specs dout beta p)
    (trainableVariables a.inDim a.specs []) a.lr

/-- `model_hard.py:258-330`; `hard` is read from `self`, too. -/
noncomputable def textHard (act : String → ℝ → ℝ) (attention : Batch → Except PyErr Batch) (dout : ℕ) :
    StepText (DenseAttrs nc nt nq nIn nBd × (Batch → Batch → Batch)) TrainState TrainOutHard := fun a beta p =>
  trainStepWith (forwardHard a.1.loss a.1.data act attention a.1.useAttention a.1.inDim a.1.specs dout beta p a.2)
    (trainableVariables a.1.inDim a.1.specs []) a.1.lr

/-- What the steps of the inverse models read from `self`. -/
structure InverseAttrs (nc nt nq nIn nBd nS : ℕ) extends DenseAttrs nc nt nq nIn nBd where
  sensorPoints : Fin nS → ℝ × ℝ
  sensorValues : Fin nS → ℝ
  keys : List String

/-- `model_inverse.py:252-338`. -/
noncomputable def textInverse {nS : ℕ} (act : String → ℝ → ℝ) (attention : Batch → Except PyErr Batch) (dout : ℕ) :
    StepText (InverseAttrs nc nt nq nIn nBd nS) TrainState (TrainOutInverse dout) := fun a beta p =>
  trainStepInverseFull a.loss a.data act attention a.useAttention a.inDim a.specs dout beta p a.sensorPoints
    a.sensorValues a.keys a.lr

/-- `model_inverse_domain.py:241-342`. -/
noncomputable def textInverseDomain {nS : ℕ} (act : String → ℝ → ℝ) (attention : Batch → Except PyErr Batch)
    (dout : ℕ) : StepText (InverseAttrs nc nt nq nIn nBd nS) TrainState (TrainOutInverse 1) := fun a beta p =>
  trainStepWith (forwardInverseDomain a.loss a.data act attention a.useAttention a.inDim a.specs dout beta p
    a.sensorPoints a.sensorValues) (trainableVariables a.inDim a.specs []) a.lr

end

end FastVPINNs
