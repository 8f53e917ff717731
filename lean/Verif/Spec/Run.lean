import Verif.Model.Training

/-! # Specification: a sequence of training steps -/

namespace FastVPINNs.Spec

/-- `outs` are the dictionaries returned by successive successful steps, which go through the states
`st 0, st 1, …`: step `k` starts in `st k` and ends in `st (k + 1)`. -/
def IsRun {α : Type} (step : TrainState → Except PyErr (α × TrainState)) (st : ℕ → TrainState)
    (outs : List α) : Prop :=
  ∀ (k : ℕ) (hk : k < outs.length), step (st k) = .ok (outs[k], st (k + 1))

end FastVPINNs.Spec
