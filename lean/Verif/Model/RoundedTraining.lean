import Verif.Model.Tape
import Verif.Model.Underflow

/-! # Training in finite precision

The step of `Model/Tape.lean` (prediction, both reverse passes, losses) and the update of the optimizer in an arithmetic
with one accuracy `τ`: every operation, every elementary function and every stored number is exact up to a relative
error `τ` and an absolute error `τ` (roundings, underflow, and the accuracy of the kernels for `tanh`, `exp` and so on
are all below it).  Sums may be added up in any order.  Simplified: no overflow, and `tf.sqrt` of a negative second
moment (which would be NaN) is zero; with monotone rounding the second moments are not negative. -/

namespace FastVPINNs

namespace Node
variable {ι : Type}

/-- The possible values of a recorded number. -/
def RunT (τ : ℝ) (ρ : ι → ℝ) : Node ι → ℝ → Prop
  | source i, r => r = ρ i
  | const x, r => FlU τ τ x r
  | add a b, r => ∃ x y, a.RunT τ ρ x ∧ b.RunT τ ρ y ∧ FlU τ τ (x + y) r
  | sub a b, r => ∃ x y, a.RunT τ ρ x ∧ b.RunT τ ρ y ∧ FlU τ τ (x - y) r
  | mul a b, r => ∃ x y, a.RunT τ ρ x ∧ b.RunT τ ρ y ∧ FlU τ τ (x * y) r
  | sq a, r => ∃ x, a.RunT τ ρ x ∧ FlU τ τ (x ^ 2) r
  | sum n f, r => ∃ x : Fin n → ℝ, (∀ i, (f i).RunT τ ρ (x i)) ∧ SumRunU τ τ (List.ofFn x) r
  | mean n f, r => ∃ (x : Fin n → ℝ) (s δ : ℝ), (∀ i, (f i).RunT τ ρ (x i)) ∧ SumRunU τ τ (List.ofFn x) s ∧
      |δ| ≤ τ ∧ FlU τ τ (s / n * (1 + δ)) r
  | unary f k a, r => ∃ x, a.RunT τ ρ x ∧ FlU τ τ (f k x) r

/-- The value when every operation is followed by `fl` and sums are added up in program order. -/
noncomputable def inOrder (fl : ℝ → ℝ) (ρ : ι → ℝ) : Node ι → ℝ
  | source i => ρ i
  | const x => fl x
  | add a b => fl (a.inOrder fl ρ + b.inOrder fl ρ)
  | sub a b => fl (a.inOrder fl ρ - b.inOrder fl ρ)
  | mul a b => fl (a.inOrder fl ρ * b.inOrder fl ρ)
  | sq a => fl (a.inOrder fl ρ ^ 2)
  | sum _ f => ExprOf.inOrder.sumInOrder fl (List.ofFn fun i => (f i).inOrder fl ρ)
  | mean n f => fl (ExprOf.inOrder.sumInOrder fl (List.ofFn fun i => (f i).inOrder fl ρ) / n)
  | unary f k a => fl (f k (a.inOrder fl ρ))

end Node

/-! ## The optimizer -/

/-- What the update of one entry reads (`adamUpdateVar`, the update of `tf.keras.optimizers.Adam`). -/
inductive AdamIn
  | g
  | m
  | v
  | w
  | alpha

/-- Their values. -/
def AdamIn.at (g m v w alpha : ℝ) : AdamIn → ℝ
  | .g => g
  | .m => m
  | .v => v
  | .w => w
  | .alpha => alpha

/-- `tf.sqrt` (derivatives are not needed). -/
noncomputable def sqrtOps : ℕ → ℝ → ℝ
  | 0 => Real.sqrt
  | _ => fun _ => 0

/-- The first moment (`adamUpdateVar`). -/
noncomputable def adamNodeM : Node AdamIn := .add (.source .m) (.mul (.sub (.source .g) (.source .m)) (.const (1 - 9 / 10)))

/-- The second moment. -/
noncomputable def adamNodeV : Node AdamIn :=
  .add (.source .v) (.mul (.sub (.sq (.source .g)) (.source .v)) (.const (1 - 999 / 1000)))

/-- The new entry; `m` and `v` are the new moments.  The quotient is written as a product with the reciprocal (a
quotient rounded once is a possible value). -/
noncomputable def adamNodeW : Node AdamIn :=
  .sub (.source .w) (.mul (.mul (.source .m) (.source .alpha))
    (.unary invOps 0 (.add (.unary sqrtOps 0 (.source .v)) (.const (1 / 10000000)))))

/-- A possible update of one entry. -/
def AdamVarRun (τ alpha g : ℝ) (x : Var) (s s' : (Var → ℝ) × (Var → ℝ) × Weights) : Prop :=
  ∃ m' v' w', adamNodeM.RunT τ (AdamIn.at g (s.1 x) (s.2.1 x) (s.2.2 x) alpha) m' ∧
    adamNodeV.RunT τ (AdamIn.at g (s.1 x) (s.2.1 x) (s.2.2 x) alpha) v' ∧
    adamNodeW.RunT τ (AdamIn.at g m' v' (s.2.2 x) alpha) w' ∧
    s' = (Function.update s.1 x m', Function.update s.2.1 x v', Function.update s.2.2 x w')

/-- The entries one after the other. -/
def AdamFoldRun (τ alpha : ℝ) : List (ℝ × Var) → (s s' : (Var → ℝ) × (Var → ℝ) × Weights) → Prop
  | [], s, s' => s' = s
  | p :: ps, s, s' => ∃ t, AdamVarRun τ alpha p.1 p.2 s t ∧ AdamFoldRun τ alpha ps t s'

/-- A possible effect of `self.optimizer.apply_gradients` (`model/model.py:305`, `applyGradients`). -/
def ApplyRun (τ : ℝ) (lr : LearningRate) (pairs : List (ℝ × Var)) (s s' : TrainState) : Prop :=
  ∃ alpha r, FlU τ τ (adamAlpha lr s.adam.iterations) alpha ∧
    AdamFoldRun τ alpha pairs (s.adam.m, s.adam.v, s.weights) r ∧
    s' = ⟨r.2.2, ⟨r.1, r.2.1, s.adam.iterations + 1⟩⟩

/-! ## The step -/

/-- What is evaluated in a step: the losses and the gradient.  The reverse passes of TensorFlow add up what arrives at
an intermediate result before they go on, so that their operations are not literally those of `outerGradient`: any
rearrangement is a program. -/
structure Program (n dout : ℕ) extends Recorded n dout where
  gradient : Var → Node (Source n)

/-- The losses and gradients as recorded. -/
noncomputable def Recorded.program {n dout : ℕ} (R : Recorded n dout) : Program n dout := ⟨R, outerGradient R⟩

/-- The numbers that a step returns. -/
structure LossValues (dout : ℕ) where
  lossPde : ℝ
  lossDirichlet : Fin dout → ℝ
  sensorLoss : Fin dout → ℝ
  loss : Fin dout → ℝ

section
variable {nIn dout : ℕ} (τ : ℝ) (P : Program nIn dout) (X : Fin nIn → ℝ × ℝ) (vars : List Var) (lr : LearningRate)

/-- A possible `train_step` (`model/model.py:238-307`, `model_hard.py:259-330`, `model_inverse.py:253-338`,
`model_inverse_domain.py:242-342`, here `trainStepTaped`) with the stored points `X`. -/
def StepRun (s : TrainState) (out : LossValues dout) (s' : TrainState) : Prop :=
  P.lossPde.RunT τ (Source.at X s.weights) out.lossPde ∧
    (∀ j, (P.lossDirichlet j).RunT τ (Source.at X s.weights) (out.lossDirichlet j)) ∧
    (∀ j, (P.sensorLoss j).RunT τ (Source.at X s.weights) (out.sensorLoss j)) ∧
    (∀ j, (P.loss j).RunT τ (Source.at X s.weights) (out.loss j)) ∧
    ∃ g : Var → ℝ, (∀ v ∈ vars, (P.gradient v).RunT τ (Source.at X s.weights) (g v)) ∧
      ApplyRun τ lr (List.zip (vars.map g) vars) s s'

/-- A possible training: the loop over the epochs of the scripts (`uniform_mesh/poisson_2d/main_poisson2d.py:208-212`,
here `trainEpochs`). -/
def EpochsRun : ℕ → TrainState → List (LossValues dout) → TrainState → Prop
  | 0, s, outs, s' => outs = [] ∧ s' = s
  | n + 1, s, outs, s' => ∃ out s₁ rest, StepRun τ P X vars lr s out s₁ ∧ EpochsRun n s₁ rest s' ∧ outs = out :: rest

end

/-! ## A training with a given rounding function -/

/-- The update of one entry where every operation is rounded. -/
noncomputable def roundedAdamVar (fl : ℝ → ℝ) (alpha g : ℝ) (x : Var) (s : (Var → ℝ) × (Var → ℝ) × Weights) :
    (Var → ℝ) × (Var → ℝ) × Weights :=
  let m' := adamNodeM.inOrder fl (AdamIn.at g (s.1 x) (s.2.1 x) (s.2.2 x) alpha)
  let v' := adamNodeV.inOrder fl (AdamIn.at g (s.1 x) (s.2.1 x) (s.2.2 x) alpha)
  (Function.update s.1 x m', Function.update s.2.1 x v',
    Function.update s.2.2 x (adamNodeW.inOrder fl (AdamIn.at g m' v' (s.2.2 x) alpha)))

section
variable {nIn dout : ℕ} (fl : ℝ → ℝ) (P : Program nIn dout) (X : Fin nIn → ℝ × ℝ) (vars : List Var) (lr : LearningRate)

/-- The step where every operation is rounded. -/
noncomputable def roundedStep (s : TrainState) : LossValues dout × TrainState :=
  let run := Node.inOrder fl (Source.at X s.weights)
  let pairs := List.zip (vars.map fun v => run (P.gradient v)) vars
  let alpha := fl (adamAlpha lr s.adam.iterations)
  let r := pairs.foldl (fun acc p => roundedAdamVar fl alpha p.1 p.2 acc) (s.adam.m, s.adam.v, s.weights)
  (⟨run P.lossPde, fun j => run (P.lossDirichlet j), fun j => run (P.sensorLoss j), fun j => run (P.loss j)⟩,
    ⟨r.2.2, ⟨r.1, r.2.1, s.adam.iterations + 1⟩⟩)

/-- The training where every operation is rounded. -/
noncomputable def roundedEpochs : ℕ → TrainState → List (LossValues dout) × TrainState
  | 0, s => ([], s)
  | n + 1, s =>
    let r := roundedStep fl P X vars lr s
    let t := roundedEpochs n r.2
    (r.1 :: t.1, t.2)

end

end FastVPINNs
