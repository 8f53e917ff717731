import Verif.Model.Models

/-! # Specification: what a model object is made of -/

namespace FastVPINNs.Spec

/-- The four keys every model reads from the learning rate dictionary. -/
def lrKeys : List String := ["initial_learning_rate", "use_lr_scheduler", "decay_steps", "decay_rate"]

/-- The parts of the model are those of the keyword arguments: the test function matrices in the order
value, x-derivative, y-derivative; the input tensors in the order interior points, boundary points, boundary
values; `n_cells` of `params_dict`; loss function, forcing, layers and learning rate of their arguments;
optional arguments with their documented defaults. -/
structure Wired {T : Type} (kwargs : List (String × MVal T)) (m : ModelCore T) : Prop where
  matrices : ∃ rest, kwargs.lookup "orig_factor_matrices"
    = some (.objs (m.preMultiplierVal :: m.preMultiplierGradX :: m.preMultiplierGradY :: rest))
  tensors : ∃ rest, kwargs.lookup "input_tensors_list"
    = some (.objs (m.inputTensor :: m.dirichletInput :: m.dirichletActual :: rest))
  force : kwargs.lookup "force_function_list" = some (.obj m.forceMatrix)
  loss : kwargs.lookup "loss_function" = some (.obj m.lossFunction)
  cells : ∃ pd, kwargs.lookup "params_dict" = some (.params pd) ∧ pd.lookup "n_cells" = some m.nCells
  rate : ∃ d, kwargs.lookup "learning_rate_dict" = some (.lr d) ∧ learningRateFn d = .ok m.learningRate
  layers : ∃ dims, kwargs.lookup "layer_dims" = some (.dims dims) ∧
    layerSpecs dims m.activation = .ok m.layerList
  dtype : ∃ name, kwargs.lookup "tensor_dtype" = some (.dtype true name)
  attention : (kwargs.lookup "use_attention").getD (.bool false) = .bool m.useAttention
  activation : (kwargs.lookup "activation").getD (.str "tanh") = .str m.activation

/-- Conditions on the arguments common to the four classes; `keys` are the learning rate keys needed. -/
def Acceptable {T : Type} (keys : List String) (ld : List ℕ) (lrd : List (String × PyVal))
    (pd : List (String × ℤ)) (its ofm : List T) (isDType : Bool) : Prop :=
  isDType = true ∧ 3 ≤ ofm.length ∧ 3 ≤ its.length ∧ (∃ n, pd.lookup "n_cells" = some n) ∧
    (∀ k ∈ keys, ∃ v, lrd.lookup k = some v) ∧ ld ≠ []

end FastVPINNs.Spec
