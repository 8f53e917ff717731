import Verif.Model.RoundedTraining
import Verif.Spec.Tape

/-! # Specification: close states and losses, rearranged programs, activations without jumps -/

namespace FastVPINNs.Spec

open Topology

/-- All weights and moments differ by at most `κ`, after the same number of steps. -/
structure CloseState (κ : ℝ) (s' s : TrainState) : Prop where
  weights : ∀ x, |s'.weights x - s.weights x| ≤ κ
  m : ∀ x, |s'.adam.m x - s.adam.m x| ≤ κ
  v : ∀ x, |s'.adam.v x - s.adam.v x| ≤ κ
  iterations : s'.adam.iterations = s.adam.iterations

/-- The points differ by at most `κ` in each coordinate. -/
def ClosePoints (κ : ℝ) {n : ℕ} (X' X : Fin n → ℝ × ℝ) : Prop :=
  ∀ r, |(X' r).1 - (X r).1| ≤ κ ∧ |(X' r).2 - (X r).2| ≤ κ

/-- The losses differ by at most `κ`. -/
structure CloseLosses {dout : ℕ} (κ : ℝ) (o' o : LossValues dout) : Prop where
  lossPde : |o'.lossPde - o.lossPde| ≤ κ
  lossDirichlet : ∀ j, |o'.lossDirichlet j - o.lossDirichlet j| ≤ κ
  sensorLoss : ∀ j, |o'.sensorLoss j - o.sensorLoss j| ≤ κ
  loss : ∀ j, |o'.loss j - o.loss j| ≤ κ

/-- The losses differ by at most `κ` from what `DenseModel.train_step` returns. -/
def CloseOut {dout : ℕ} (κ : ℝ) (o' : LossValues dout) (o : TrainOut dout) : Prop :=
  |o'.lossPde - o.lossPde| ≤ κ ∧ (∀ j, |o'.lossDirichlet j - o.lossDirichlet j| ≤ κ) ∧ ∀ j, |o'.loss j - o.loss j| ≤ κ

/-- The same for `DenseModel_Hard`. -/
def CloseOutHard (κ : ℝ) (o' : LossValues 1) (o : TrainOutHard) : Prop :=
  |o'.lossPde - o.lossPde| ≤ κ ∧ |o'.lossDirichlet 0 - o.lossDirichlet| ≤ κ ∧ |o'.loss 0 - o.loss| ≤ κ

/-- The same for the inverse models. -/
def CloseOutInverse {dout : ℕ} (κ : ℝ) (o' : LossValues dout) (o : TrainOutInverse dout) : Prop :=
  |o'.lossPde - o.lossPde| ≤ κ ∧ (∀ j, |o'.lossDirichlet j - o.lossDirichlet j| ≤ κ) ∧
    (∀ j, |o'.sensorLoss j - o.sensorLoss j| ≤ κ) ∧ ∀ j, |o'.loss j - o.loss j| ≤ κ

/-- With accuracy `d`, and points and first state that are exact up to `d`, every possible training of `n` epochs
returns losses in the relation `Rel` to `outs` and ends within `κ` of `s'`. -/
def TrainsWithin {nIn dout : ℕ} {α : Type} (P : Program nIn dout) (X : Fin nIn → ℝ × ℝ) (vars : List Var)
    (lr : LearningRate) (n : ℕ) (s : TrainState) (Rel : LossValues dout → α → Prop) (outs : List α) (s' : TrainState)
    (κ d : ℝ) : Prop :=
  ∀ τ, 0 ≤ τ → τ ≤ d → ∀ X' s₀ os t, ClosePoints d X' X → CloseState d s₀ s → EpochsRun τ P X' vars lr n s₀ os t →
    List.Forall₂ Rel os outs ∧ CloseState κ t s'

/-- In exact arithmetic the program gives the recorded losses and what the reverse pass gives. -/
structure Rearranges {n dout : ℕ} (P : Program n dout) (R : Recorded n dout) (ρ : Source n → ℝ) : Prop where
  lossPde : P.lossPde.value ρ = R.lossPde.value ρ
  lossDirichlet : ∀ j, (P.lossDirichlet j).value ρ = (R.lossDirichlet j).value ρ
  sensorLoss : ∀ j, (P.sensorLoss j).value ρ = (R.sensorLoss j).value ρ
  loss : ∀ j, (P.loss j).value ρ = (R.loss j).value ρ
  gradient : ∀ v, (P.gradient v).value ρ = (outerGradient R v).value ρ

/-- Elementary functions are applied where they are continuous. -/
def ContinuousNode {ι : Type} (ρ : ι → ℝ) : Node ι → Prop
  | .source _ => True
  | .const _ => True
  | .add a b => ContinuousNode ρ a ∧ ContinuousNode ρ b
  | .sub a b => ContinuousNode ρ a ∧ ContinuousNode ρ b
  | .mul a b => ContinuousNode ρ a ∧ ContinuousNode ρ b
  | .sq a => ContinuousNode ρ a
  | .sum _ f => ∀ i, ContinuousNode ρ (f i)
  | .mean _ f => ∀ i, ContinuousNode ρ (f i)
  | .unary f k a => ContinuousNode ρ a ∧ ContinuousAt (f k) (a.value ρ)

/-- All numbers of the program. -/
structure ContinuousProgram {n dout : ℕ} (P : Program n dout) (ρ : Source n → ℝ) : Prop where
  lossPde : ContinuousNode ρ P.lossPde
  lossDirichlet : ∀ j, ContinuousNode ρ (P.lossDirichlet j)
  sensorLoss : ∀ j, ContinuousNode ρ (P.sensorLoss j)
  loss : ∀ j, ContinuousNode ρ (P.loss j)
  gradient : ∀ v, ContinuousNode ρ (P.gradient v)

/-- The activation and its two registered derivatives are continuous at `z`. -/
def NoJumpOf (f : ℕ → ℝ → ℝ) (z : ℝ) : Prop := ∀ i ≤ 2, ContinuousAt (f i) z

/-- No unit of the network sits at a jump of the derivatives when the input row is `x` (compare `NoKink`). -/
def NoJump (act : String → ℕ → ℝ → ℝ) : List DenseLayer → List ℝ → Prop
  | [], _ => True
  | L :: rest, x =>
    (∀ a, L.activation = some a → ∀ j, NoJumpOf (act a) (preActivation L x j)) ∧
      NoJump act rest (List.ofFn fun j => match L.activation with
        | none => preActivation L x j
        | some a => act a 0 (preActivation L x j))

/-- No unit sits at a jump at any of the points. -/
def NoJumpAt (act : String → ℕ → ℝ → ℝ) (useAttention : Bool) (layers : List DenseLayer) {n : ℕ}
    (X : Fin n → ℝ × ℝ) : Prop :=
  ∀ rows, (if useAttention then attentionDot (pointRows X) else .ok (pointRows X)) = .ok rows →
    ∀ x ∈ rows, NoJump act layers x

end FastVPINNs.Spec
