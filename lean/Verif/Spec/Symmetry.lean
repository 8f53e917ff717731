import Verif.Model.Training

/-! # Specification: renumbering the hidden units -/

namespace FastVPINNs.Spec

/-- A renumbering of the units of each layer, with signs; `perm k` and `sign k` belong to the columns that enter layer
`k` (and leave layer `k - 1`). -/
structure Relabelling where
  perm : ℕ → Equiv.Perm ℕ
  sign : ℕ → ℕ → ℝ

namespace Relabelling
variable (S : Relabelling)

/-- The entry that is found at `v` afterwards. -/
def source : Var → Var
  | .kernel k i j => .kernel k (S.perm k i) (S.perm (k + 1) j)
  | .bias k j => .bias k (S.perm (k + 1) j)
  | .inverse key => .inverse key

/-- The sign that it has got. -/
def factor : Var → ℝ
  | .kernel k i j => S.sign k i * S.sign (k + 1) j
  | .bias k j => S.sign (k + 1) j
  | .inverse _ => 1

/-- The renumbered values. -/
def apply (θ : Var → ℝ) : Var → ℝ := fun v => S.factor v * θ (S.source v)

/-- The renumbered state of model and optimizer; second moments have no sign. -/
def state (s : TrainState) : TrainState :=
  ⟨S.apply s.weights, S.apply s.adam.m, fun v => s.adam.v (S.source v), s.adam.iterations⟩

end Relabelling

/-- The renumbering moves only hidden units within their layer, and changes signs only of units whose activation is odd. -/
structure HiddenUnits (act : String → ℝ → ℝ) (specs : List LayerSpec) (S : Relabelling) : Prop where
  inputs : ∀ i, S.perm 0 i = i ∧ S.sign 0 i = 1
  outputs : ∀ j, S.perm specs.length j = j ∧ S.sign specs.length j = 1
  within : ∀ k l, specs[k]? = some l → ∀ j, S.perm (k + 1) j < l.units ↔ j < l.units
  signs : ∀ k j, S.sign k j = 1 ∨ S.sign k j = -1
  odd : ∀ k l, specs[k]? = some l → ∀ j, S.sign (k + 1) j = 1 ∨ ∀ a, l.activation = some a → ∀ z, act a (-z) = -act a z

/-- Training from the renumbered state returns the same losses and ends with the renumbered state, or fails with the same
exception. -/
def TrainsAlike {α : Type} (S : Relabelling) (step : TrainState → Except PyErr (α × TrainState)) (n : ℕ) (s : TrainState) :
    Prop :=
  trainEpochs step n (S.state s) = match trainEpochs step n s with
    | .error e => .error e
    | .ok (outs, t) => .ok (outs, S.state t)

/-- The units `a` and `b` of layer `k` have the same incoming and outgoing entries. -/
def SameUnits (k a b : ℕ) (θ : Var → ℝ) : Prop :=
  (∀ i, θ (.kernel k i a) = θ (.kernel k i b)) ∧ θ (.bias k a) = θ (.bias k b) ∧
    ∀ j, θ (.kernel (k + 1) a j) = θ (.kernel (k + 1) b j)

/-- All incoming and outgoing entries of unit `a` of layer `k` are zero. -/
def ZeroUnit (k a : ℕ) (θ : Var → ℝ) : Prop :=
  (∀ i, θ (.kernel k i a) = 0) ∧ θ (.bias k a) = 0 ∧ ∀ j, θ (.kernel (k + 1) a j) = 0

end FastVPINNs.Spec
