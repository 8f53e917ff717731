import Verif.Model.Training

/-! # Specification: the weights of a network -/

namespace FastVPINNs.Spec

/-- The numbers that a network with the layer widths `dims` and the unknown parameters `keys` consists of. -/
def IsWeight (dims : List ℕ) (keys : List String) : Var → Prop
  | .kernel k i j => k + 1 < dims.length ∧ i < dims.getD k 0 ∧ j < dims.getD (k + 1) 0
  | .bias k j => k + 1 < dims.length ∧ j < dims.getD (k + 1) 0
  | .inverse key => key ∈ keys

/-- Two states of a training that have the same weights and the same optimizer state on `vars`. -/
structure AgreeOn (vars : List Var) (s s' : TrainState) : Prop where
  weights : ∀ x ∈ vars, s'.weights x = s.weights x
  m : ∀ x ∈ vars, s'.adam.m x = s.adam.m x
  v : ∀ x ∈ vars, s'.adam.v x = s.adam.v x
  iterations : s'.adam.iterations = s.adam.iterations

/-- From both states `run` returns the same results and ends in states that agree on `vars`, or it fails with
the same exception. -/
def SameOutcome {α : Type} (vars : List Var) (run : TrainState → Except PyErr (α × TrainState))
    (s s' : TrainState) : Prop :=
  (∃ e, run s = .error e ∧ run s' = .error e) ∨
    ∃ out t t', run s = .ok (out, t) ∧ run s' = .ok (out, t') ∧ AgreeOn vars t t'

end FastVPINNs.Spec
