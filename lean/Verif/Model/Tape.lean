import Verif.Model.Attention
import Verif.Model.Examples
import Verif.Model.Rounded
import Verif.Model.Training
import Mathlib.Analysis.Calculus.IteratedDeriv.Defs

/-! # The two gradient tapes of `train_step`

Elsewhere `tape.gradient` is the derivative (`tapeGradient` in `Model/Train.lean`, `lossGradient` in
`Model/Training.lean`).  Here it is what TensorFlow computes: the operations between `with tf.GradientTape()` and
`tape.gradient` are recorded, and the reverse pass multiplies the derivatives registered for the operations and adds
up the results.  The reverse pass of the inner tape (`model/model.py:257-264`) is a computation that the outer tape
(`model/model.py:250-304`) records in turn.  Tensors are written entry by entry, and an intermediate result that is
used twice is written twice (the reverse pass adds up what arrives at it). -/

namespace FastVPINNs

/-- A recorded number; `ι` are the numbers that gradients can be asked for. -/
inductive Node (ι : Type)
  | source (i : ι)
  /-- A number that is not differentiated. -/
  | const (x : ℝ)
  | add (a b : Node ι)
  | sub (a b : Node ι)
  | mul (a b : Node ι)
  | sq (a : Node ι)
  | sum (n : ℕ) (f : Fin n → Node ι)
  | mean (n : ℕ) (f : Fin n → Node ι)
  /-- An operation with one argument: `f 0` is the operation, `f 1` the derivative registered for it, `f 2` the one
  registered for `f 1`, and so on; the operation that is applied is `f k`. -/
  | unary (f : ℕ → ℝ → ℝ) (k : ℕ) (a : Node ι)

namespace Node
variable {ι : Type}

/-- The number. -/
noncomputable def value (ρ : ι → ℝ) : Node ι → ℝ
  | source i => ρ i
  | const x => x
  | add a b => a.value ρ + b.value ρ
  | sub a b => a.value ρ - b.value ρ
  | mul a b => a.value ρ * b.value ρ
  | sq a => a.value ρ ^ 2
  | sum _ f => ∑ i, (f i).value ρ
  | mean n f => (∑ i, (f i).value ρ) / n
  | unary f k a => f k (a.value ρ)

/-- The reverse pass: what arrives at the source `j` if `ct` arrives at the number. -/
noncomputable def back [DecidableEq ι] : Node ι → Node ι → ι → Node ι
  | source i, ct, j => if i = j then ct else const 0
  | const _, _, _ => const 0
  | add a b, ct, j => add (a.back ct j) (b.back ct j)
  | sub a b, ct, j => add (a.back ct j) (b.back (mul (const (-1)) ct) j)
  | mul a b, ct, j => add (a.back (mul ct b) j) (b.back (mul ct a) j)
  | sq a, ct, j => a.back (mul ct (mul (const 2) a)) j
  | sum n f, ct, j => sum n fun i => (f i).back ct j
  | mean n f, ct, j => sum n fun i => (f i).back (mul ct (const (1 / n))) j
  | unary f k a, ct, j => a.back (mul ct (unary f (k + 1) a)) j

/-- `np.abs` (used by no loss function). -/
noncomputable def absOps : ℕ → ℝ → ℝ
  | 0 => fun x => |x|
  | 1 => fun x => SignType.sign x
  | _ => fun _ => 0

/-- The operations of an expression (`Model/Rounded.lean`) over recorded numbers. -/
noncomputable def ofExpr : ExprOf (Node ι) → Node ι
  | .val _ x => x
  | .add a b => add (ofExpr a) (ofExpr b)
  | .sub a b => sub (ofExpr a) (ofExpr b)
  | .mul a b => mul (ofExpr a) (ofExpr b)
  | .sq a => sq (ofExpr a)
  | .abs a => unary absOps 0 (ofExpr a)
  | .sum n f => sum n fun i => ofExpr (f i)
  | .mean n f => mean n fun i => ofExpr (f i)

/-- The sum of a list. -/
def sumList (l : List (Node ι)) : Node ι := sum l.length fun i => l[i]

end Node

instance {ι : Type} : Leaf (Node ι) := ⟨.const⟩

/-- The numbers that gradients are asked for: the coordinates of the `n` points of `self.input_tensor` (inner tape) and
the entries of the trainable variables (outer tape). -/
inductive Source (n : ℕ)
  | x (r : Fin n)
  | y (r : Fin n)
  | var (v : Var)
  deriving DecidableEq

/-- The present values of the sources. -/
def Source.at {n : ℕ} (X : Fin n → ℝ × ℝ) (θ : Weights) : Source n → ℝ
  | .x r => (X r).1
  | .y r => (X r).2
  | .var v => θ v

/-! ## The networks -/

section
variable {n : ℕ}

/-- A batch of recorded rows. -/
abbrev NodeBatch (n : ℕ) := List (List (Node (Source n)))

/-- A `Dense` layer on one row (`applyLayer`): layer `k` with the given input width; `act a` are the operation
named `a` and its registered derivatives. -/
def applyLayerN (act : String → ℕ → ℝ → ℝ) (k inDim : ℕ) (s : LayerSpec) (x : List (Node (Source n))) :
    Except PyErr (List (Node (Source n))) :=
  if h : x.length = inDim then
    .ok (List.ofFn fun j : Fin s.units =>
      let z := Node.add (.sum inDim fun i => .mul (x[i.val]'(by omega)) (.source (.var (.kernel k i j))))
        (.source (.var (.bias k j)))
      match s.activation with
      | none => z
      | some a => .unary (act a) 0 z)
  else .error .valueError

/-- `model/model.py:203-204` (`applyLayers`). -/
def applyLayersN (act : String → ℕ → ℝ → ℝ) : ℕ → ℕ → List LayerSpec → NodeBatch n → Except PyErr (NodeBatch n)
  | _, _, [], x => .ok x
  | k, inDim, s :: rest, x =>
    match mapE (applyLayerN act k inDim s) x with
    | .error e => .error e
    | .ok y => applyLayersN act (k + 1) s.units rest y

/-- `tf.exp`. -/
noncomputable def expOps : ℕ → ℝ → ℝ := fun _ => Real.exp

/-- The reciprocal. -/
noncomputable def invOps : ℕ → ℝ → ℝ := fun k z => (-1) ^ k * k.factorial * z ^ (-(k + 1 : ℤ))

/-- The layer `attentionDot`. -/
noncomputable def attentionN (x : NodeBatch n) : Except PyErr (NodeBatch n) :=
  .ok (x.map fun q =>
    (List.range q.length).map fun j =>
      let scores := x.map fun v => Node.sumList (List.zipWith .mul q v)
      let weights := scores.map fun s =>
        Node.mul (.unary expOps 0 s) (.unary invOps 0 (Node.sumList (scores.map (.unary expOps 0))))
      Node.sumList (List.zipWith (fun w v => .mul w (v.getD j (.const 0))) weights x))

/-- `model/model.py:187-206` (`callDense`). -/
noncomputable def callN (act : String → ℕ → ℝ → ℝ) (useAttention : Bool) (inDim : ℕ) (specs : List LayerSpec)
    (inputs : NodeBatch n) : Except PyErr (NodeBatch n) :=
  if useAttention then
    match attentionN inputs with
    | .error e => .error e
    | .ok x => applyLayersN act 0 inDim specs x
  else applyLayersN act 0 inDim specs inputs

/-- `tf.tanh` with its derivatives. -/
noncomputable def tanhOps : ℕ → ℝ → ℝ := fun k => iteratedDeriv k Real.tanh

/-- `main_poisson2d_hard.py:153-169` (`applyHardBoundaryConstraints`). -/
noncomputable def hardN (inputs x : NodeBatch n) : NodeBatch n :=
  List.zipWith (fun r u =>
    let a := r.getD 0 (.const 0)
    let b := r.getD 1 (.const 0)
    let scale := fun z : Node (Source n) => Node.unary tanhOps 0 (.mul (.const (4.0 * Real.pi)) z)
    let ansatz := Node.mul (.mul (.mul (scale a) (scale b)) (scale (.sub a (.const 1.0)))) (scale (.sub b (.const 1.0)))
    u.map fun v => .mul ansatz v) inputs x

/-- `model/model_hard.py:208-228` (`callHard`) with this constraint. -/
noncomputable def callHardN (act : String → ℕ → ℝ → ℝ) (useAttention : Bool) (inDim : ℕ) (specs : List LayerSpec)
    (inputs : NodeBatch n) : Except PyErr (NodeBatch n) :=
  match callN act useAttention inDim specs inputs with
  | .error e => .error e
  | .ok x => .ok (hardN inputs x)

/-- Points whose coordinates are not differentiated. -/
def constRows {m : ℕ} (P : Fin m → ℝ × ℝ) : NodeBatch n := List.ofFn fun i => [.const (P i).1, .const (P i).2]

/-- `self.input_tensor`, watched by the inner tape. -/
def sourceRows (n : ℕ) : NodeBatch n := List.ofFn fun r => [.source (.x r), .source (.y r)]

/-- Entry `(r, j)` of a returned batch (`batchEntry`). -/
def nodeEntry (out : Except PyErr (NodeBatch n)) (r j : ℕ) : Node (Source n) :=
  match out with
  | .ok b => (b.getD r []).getD j (.const 0)
  | .error _ => .const 0

end

/-! ## The steps -/

/-- `reshapeCells` for recorded numbers. -/
def reshapeCellsN {α : Type} {n : ℕ} (nc nq : ℕ) (nCells : ℤ) (v : Fin n → α) : Except PyErr (Fin nc → Fin nq → α) :=
  if h : nCells * nq = n ∧ nCells = nc then
    .ok fun c q => v ⟨c.val * nq + q.val, by
      have h1 : nc * nq = n := by
        obtain ⟨h1, h2⟩ := h
        rw [h2] at h1
        exact_mod_cast h1
      calc c.val * nq + q.val < c.val * nq + nq := by omega
        _ = (c.val + 1) * nq := by ring
        _ ≤ nc * nq := Nat.mul_le_mul_right _ c.isLt
        _ = n := h1⟩
  else .error .valueError

/-- The recorded losses of a step: the PDE loss, the boundary loss, the sensor loss (of the inverse models) and
`total_loss`. -/
structure Recorded (n dout : ℕ) where
  lossPde : Node (Source n)
  lossDirichlet : Fin dout → Node (Source n)
  sensorLoss : Fin dout → Node (Source n)
  loss : Fin dout → Node (Source n)

section
variable {nc nt nq nIn nBd dout : ℕ} (M : ModelData nc nt nq nIn nBd)
  (net : NodeBatch nIn → Except PyErr (NodeBatch nIn)) (beta : ℝ) (bilinear : ParamDict)

/-- `tape1.gradient(predicted_values, self.input_tensor)` (`model/model.py:264`), one column: the reverse pass starts
with 1 at all entries of the prediction. -/
noncomputable def innerGradient {m : ℕ} (predicted : Fin m → Fin dout → Node (Source nIn)) (s : Source nIn) :
    Node (Source nIn) :=
  .sum m fun r => .sum dout fun j => (predicted r j).back (.const 1) s

/-- A tensor that is not differentiated. -/
def constMat {a b c : ℕ} (A : Fin a → Fin b → Fin c → ℝ) : Fin a → Fin b → Fin c → Node (Source nIn) :=
  fun i j k => .const (A i j k)

/-- The body of `pde_loss_poisson_inverse` (`physics/poisson2d_inverse.py:18-67`; `pdeLossPoissonE`), where the
coefficient is one of the variables. -/
noncomputable def poissonInverseN (keys : List String) (ux uy : Fin nc → Fin nq → Node (Source nIn)) :
    Except PyErr (Fin nc → ExprOf (Node (Source nIn))) :=
  let diffX := transposeE (matvecE (readMat 0 (constMat M.preMultiplierGradX)) (readPred 0 ux))
  let diffY := transposeE (matvecE (readMat 0 (constMat M.preMultiplierGradY)) (readPred 0 uy))
  if "eps" ∈ keys then
    let eps : ExprOf (Node (Source nIn)) := .val 0 (.source (.var (.inverse "eps")))
    .ok (meanSquare0E fun t c => .sub (.mul eps (.add (diffX t c) (diffY t c))) (.val 0 (.const (M.forceMatrix t c))))
  else .error .keyError

/-- `model/model.py:259-288`: prediction, inner gradient, reshapes and loss function, which is given as a function of
values and derivatives. -/
noncomputable def cellsResidualN (dout : ℕ)
    (loss : (u ux uy : Fin nc → Fin nq → Node (Source nIn)) → Except PyErr (Fin nc → ExprOf (Node (Source nIn)))) :
    Except PyErr (Fin nc → ExprOf (Node (Source nIn))) :=
  let predicted := fun (r : Fin nIn) (j : Fin dout) => nodeEntry (net (sourceRows nIn)) r j
  match reshapeCellsN nc nq M.nCells (fun r => innerGradient predicted (.x r)),
      reshapeCellsN nc nq M.nCells (fun r => innerGradient predicted (.y r)),
      reshapeCellsN nc nq M.nCells (flatten predicted) with
  | .ok gx, .ok gy, .ok v => loss v gx gy
  | .error e, _, _ => .error e
  | _, .error e, _ => .error e
  | _, _, .error e => .error e

/-- A loss function of `physics/` on recorded numbers. -/
noncomputable def lossN (kind : Spec.LossKind) (coeffs : List (Fin nc → Fin nq → Node (Source nIn)))
    (u ux uy : Fin nc → Fin nq → Node (Source nIn)) : Except PyErr (Fin nc → ExprOf (Node (Source nIn))) :=
  lossE 0 (constMat M.preMultiplierVal) (constMat M.preMultiplierGradX) (constMat M.preMultiplierGradY) u ux uy
    (fun t c => .const (M.forceMatrix t c)) kind bilinear none coeffs

/-- `tf.reduce_mean(tf.square(self(points) - values), axis=0)`. -/
noncomputable def dataLossN {m : ℕ} (points : Fin m → ℝ × ℝ) (values : Fin m → ℝ) (column : Fin dout → ℕ)
    (j : Fin dout) : Node (Source nIn) :=
  .ofExpr (meanSquareErrorE 0 (fun (r : Fin m) (j : Fin dout) => nodeEntry (net (constRows points)) r (column j))
    (fun r => .const (values r)) j)

/-- `DenseModel.train_step` up to `total_loss` (`model/model.py:250-301`). -/
noncomputable def recordDense (dout : ℕ) (kind : Spec.LossKind) : Except PyErr (Recorded nIn dout) :=
  match cellsResidualN M net dout (lossN M bilinear kind []) with
  | .error e => .error e
  | .ok residuals =>
    let totalPde := Node.ofExpr (totalPdeE residuals)
    let boundary := dataLossN net M.dirichletInput M.dirichletActual fun j : Fin dout => j
    .ok ⟨totalPde, boundary, fun _ => .const 0, fun j => .add totalPde (.mul (.const beta) (boundary j))⟩

/-- `DenseModel_Hard.train_step` up to `total_loss` (`model/model_hard.py:271-324`); the boundary loss is `0.0`. -/
noncomputable def recordHard (dout : ℕ) (kind : Spec.LossKind) : Except PyErr (Recorded nIn 1) :=
  match cellsResidualN M net dout (lossN M bilinear kind []) with
  | .error e => .error e
  | .ok residuals =>
    let totalPde := Node.ofExpr (totalPdeE residuals)
    .ok ⟨totalPde, fun _ => .const 0.0, fun _ => .const 0, fun _ => totalPde⟩

/-- `DenseModel_Inverse.train_step` up to `total_loss` (`model/model_inverse.py:264-326`) with the loss function of
`poisson2d_inverse.py` (this class cannot call that of `cd2d_inverse.py`, see `C49_cd2d_inverse_unusable`). -/
noncomputable def recordInverse (dout : ℕ) {nS : ℕ} (sensorPoints : Fin nS → ℝ × ℝ) (sensorValues : Fin nS → ℝ)
    (keys : List String) : Except PyErr (Recorded nIn dout) :=
  match cellsResidualN M net dout fun _ ux uy => poissonInverseN M keys ux uy with
  | .error e => .error e
  | .ok residuals =>
    let totalPde := Node.ofExpr (totalPdeE residuals)
    let boundary := dataLossN net M.dirichletInput M.dirichletActual fun j : Fin dout => j
    let sensor := dataLossN net sensorPoints sensorValues fun j : Fin dout => j
    .ok ⟨totalPde, boundary, sensor,
      fun j => .add (.add totalPde (.mul (.const beta) (boundary j))) (.mul (.const 10) (sensor j))⟩

/-- `DenseModel_Inverse_Domain.train_step` up to `total_loss` (`model/model_inverse_domain.py:253-331`). -/
noncomputable def recordInverseDomain (dout : ℕ) {nS : ℕ} (sensorPoints : Fin nS → ℝ × ℝ) (sensorValues : Fin nS → ℝ) :
    Except PyErr (Recorded nIn 1) :=
  if 2 ≤ dout then
    let predicted := fun (r : Fin nIn) (_ : Fin 1) => nodeEntry (net (sourceRows nIn)) r 0
    match reshapeCellsN nc nq M.nCells (fun r => innerGradient predicted (.x r)),
        reshapeCellsN nc nq M.nCells (fun r => innerGradient predicted (.y r)),
        reshapeCellsN nc nq M.nCells (fun r => predicted r 0),
        reshapeCellsN nc nq M.nCells (fun r : Fin nIn => nodeEntry (net (sourceRows nIn)) r 1) with
    | .ok gx, .ok gy, .ok v, .ok k =>
      match lossN M bilinear .cd2dInverseDomain [k] v gx gy with
      | .error e => .error e
      | .ok residuals =>
        let totalPde := Node.ofExpr (totalPdeE residuals)
        let boundary := dataLossN net M.dirichletInput M.dirichletActual fun _ : Fin 1 => 0
        let sensor := dataLossN net sensorPoints sensorValues fun _ : Fin 1 => 0
        .ok ⟨totalPde, boundary, sensor,
          fun j => .add (.add totalPde (.mul (.const beta) (boundary j))) (.mul (.const 10) (sensor j))⟩
    | .error e, _, _, _ => .error e
    | _, .error e, _, _ => .error e
    | _, _, .error e, _ => .error e
    | _, _, _, .error e => .error e
  else .error .indexError

/-- `tape.gradient(total_loss, trainable_vars)` (`model/model.py:304`) for one entry of the variables. -/
noncomputable def outerGradient (R : Recorded nIn dout) (v : Var) : Node (Source nIn) :=
  .sum dout fun j => (R.loss j).back (.const 1) (.var v)

/-- The step with both tapes: `model/model.py:237-307` (and the same structure in the other models).  `result` is the
returned dictionary. -/
noncomputable def trainStepTaped {α : Type} (record : Except PyErr (Recorded nIn dout))
    (result : (Node (Source nIn) → ℝ) → Recorded nIn dout → Weights → α) (vars : List Var) (lr : LearningRate)
    (s : TrainState) : Except PyErr (α × TrainState) :=
  match record with
  | .error e => .error e
  | .ok R =>
    let run := Node.value (Source.at M.inputTensor s.weights)
    let gradients := vars.map fun v => run (outerGradient R v)
    .ok (result run R s.weights, applyGradients lr (List.zip gradients vars) s)

end

section
variable {nc nt nq nIn nBd : ℕ} (kind : Spec.LossKind) (M : ModelData nc nt nq nIn nBd) (act : String → ℕ → ℝ → ℝ)
  (useAttention : Bool) (inDim : ℕ) (specs : List LayerSpec) (dout : ℕ) (beta : ℝ) (bilinear : ParamDict)

/-- `DenseModel.train_step`, `model/model.py:237-307`. -/
noncomputable def tapedDense (lr : LearningRate) (s : TrainState) : Except PyErr (TrainOut dout × TrainState) :=
  trainStepTaped M (recordDense M (callN act useAttention inDim specs) beta bilinear dout kind)
    (fun run R _ => ⟨run R.lossPde, fun j => run (R.lossDirichlet j), fun j => run (R.loss j)⟩)
    (trainableVariables inDim specs []) lr s

/-- `DenseModel_Hard.train_step`, `model/model_hard.py:258-330`, with the constraint of the example script. -/
noncomputable def tapedHard (lr : LearningRate) (s : TrainState) : Except PyErr (TrainOutHard × TrainState) :=
  trainStepTaped M (recordHard M (callHardN act useAttention inDim specs) bilinear dout kind)
    (fun run R _ => ⟨run R.lossPde, run (R.lossDirichlet 0), run (R.loss 0)⟩) (trainableVariables inDim specs []) lr s

/-- `DenseModel_Inverse.train_step`, `model/model_inverse.py:252-338` (the values of `inverse_params` are read after
the update, as in `trainStepInverseFull`). -/
noncomputable def tapedInverse {nS : ℕ} (sensorPoints : Fin nS → ℝ × ℝ) (sensorValues : Fin nS → ℝ)
    (keys : List String) (lr : LearningRate) (s : TrainState) : Except PyErr (TrainOutInverse dout × TrainState) :=
  match trainStepTaped M (recordInverse M (callN act useAttention inDim specs) beta dout sensorPoints sensorValues keys)
      (fun run R θ => (⟨run R.lossPde, fun j => run (R.lossDirichlet j), fun j => run (R.loss j), inverseAt θ keys,
        fun j => run (R.sensorLoss j)⟩ : TrainOutInverse dout)) (trainableVariables inDim specs keys) lr s with
  | .error e => .error e
  | .ok (out, s') => .ok ({ out with inverseParams := inverseAt s'.weights keys }, s')

/-- `DenseModel_Inverse_Domain.train_step`, `model/model_inverse_domain.py:241-342`. -/
noncomputable def tapedInverseDomain {nS : ℕ} (sensorPoints : Fin nS → ℝ × ℝ) (sensorValues : Fin nS → ℝ)
    (lr : LearningRate) (s : TrainState) : Except PyErr (TrainOutInverse 1 × TrainState) :=
  trainStepTaped M (recordInverseDomain M (callN act useAttention inDim specs) beta bilinear dout sensorPoints
      sensorValues)
    (fun run R _ => ⟨run R.lossPde, fun j => run (R.lossDirichlet j), fun j => run (R.loss j), none,
      fun j => run (R.sensorLoss j)⟩) (trainableVariables inDim specs []) lr s

end

/-- `tf.nn.relu` with the derivatives that TensorFlow registers: `ReluGrad` passes on where the argument is positive,
and its own derivative with respect to the argument is zero. -/
noncomputable def reluOps : ℕ → ℝ → ℝ
  | 0 => fun z => max z 0
  | 1 => fun z => if 0 < z then 1 else 0
  | _ => fun _ => 0

end FastVPINNs
