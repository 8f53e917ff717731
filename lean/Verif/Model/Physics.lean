import Verif.Model.Common
import Mathlib.Algebra.BigOperators.Fin

/-! # `fastvpinns/physics/*.py`

Tensors are functions on index sets; `nc`, `nt`, `nq` are the numbers of cells, of test functions per
cell and of quadrature points per cell. -/

namespace FastVPINNs

/-- `tf.linalg.matvec(A, v)` for a batch of matrices and a batch of vectors. -/
def matvec {nc nt nq : ℕ} (A : Fin nc → Fin nt → Fin nq → ℝ) (v : Fin nc → Fin nq → ℝ) :
    Fin nc → Fin nt → ℝ := fun c t => ∑ q, A c t q * v c q

/-- `tf.transpose` of a matrix. -/
def transpose {m n : ℕ} (M : Fin m → Fin n → ℝ) : Fin n → Fin m → ℝ := fun j i => M i j

/-- `tf.reduce_mean(tf.square(R), axis=0)` for a matrix.  (For a matrix without rows TensorFlow returns
NaN, the model `0`.) -/
noncomputable def meanSquare0 {m n : ℕ} (R : Fin m → Fin n → ℝ) : Fin n → ℝ :=
  fun j => (∑ i, R i j ^ 2) / m

/-- A dictionary of scalar parameters, or `None`. -/
abbrev ParamDict := Option (List (String × ℝ))

/-- `d[key]`: `KeyError` for a missing key, `TypeError` when `d` is `None`. -/
def paramGet (d : ParamDict) (key : String) : Except PyErr ℝ :=
  match d with
  | none => .error .typeError
  | some l =>
    match l.lookup key with
    | some v => .ok v
    | none => .error .keyError

section
variable {nc nt nq : ℕ} (V GX GY : Fin nc → Fin nt → Fin nq → ℝ) (u ux uy : Fin nc → Fin nq → ℝ)
  (F : Fin nt → Fin nc → ℝ)

/-- `physics/poisson2d.py:18-44` (`pde_loss_poisson`). -/
noncomputable def pdeLossPoisson (_V GX GY : Fin nc → Fin nt → Fin nq → ℝ)
    (_u ux uy : Fin nc → Fin nq → ℝ) (F : Fin nt → Fin nc → ℝ) (params : ParamDict) :
    Except PyErr (Fin nc → ℝ) :=
  let diffX := transpose (matvec GX ux)
  let diffY := transpose (matvec GY uy)
  match paramGet params "eps" with
  | .error e => .error e
  | .ok eps =>
    let diffusion := fun t c => eps * (diffX t c + diffY t c)
    .ok (meanSquare0 fun t c => diffusion t c - F t c)

/-- `physics/poisson2d_inverse.py:18-67` (`pde_loss_poisson_inverse`). -/
noncomputable def pdeLossPoissonInverse (_V GX GY : Fin nc → Fin nt → Fin nq → ℝ)
    (_u ux uy : Fin nc → Fin nq → ℝ) (F : Fin nt → Fin nc → ℝ) (_params inverseParams : ParamDict) :
    Except PyErr (Fin nc → ℝ) :=
  let diffX := transpose (matvec GX ux)
  let diffY := transpose (matvec GY uy)
  match paramGet inverseParams "eps" with
  | .error e => .error e
  | .ok eps =>
    let diffusion := fun t c => eps * (diffX t c + diffY t c)
    .ok (meanSquare0 fun t c => diffusion t c - F t c)

/-- `physics/cd2d.py:18-82` (`pde_loss_cd2d`). -/
noncomputable def pdeLossCd2d (params : ParamDict) : Except PyErr (Fin nc → ℝ) :=
  let diffX := transpose (matvec GX ux)
  let diffY := transpose (matvec GY uy)
  match paramGet params "eps" with
  | .error e => .error e
  | .ok eps =>
    let diffusion := fun t c => eps * (diffX t c + diffY t c)
    let convX := transpose (matvec V ux)
    let convY := transpose (matvec V uy)
    match paramGet params "b_x", paramGet params "b_y" with
    | .error e, _ => .error e
    | _, .error e => .error e
    | .ok bx, .ok by_ =>
      let conv := fun t c => bx * convX t c + by_ * convY t c
      match paramGet params "c" with
      | .error e => .error e
      | .ok cc =>
        let reaction := fun t c => cc * transpose (matvec V u) t c
        .ok (meanSquare0 fun t c => (diffusion t c + conv t c + reaction t c) - F t c)

/-- `physics/cd2d_inverse.py:18-86` (also called `pde_loss_cd2d`). -/
noncomputable def pdeLossCd2dInverse (params inverseParams : ParamDict) :
    Except PyErr (Fin nc → ℝ) :=
  let diffX := transpose (matvec GX ux)
  let diffY := transpose (matvec GY uy)
  match paramGet inverseParams "eps" with
  | .error e => .error e
  | .ok eps =>
    let diffusion := fun t c => eps * (diffX t c + diffY t c)
    let convX := transpose (matvec V ux)
    let convY := transpose (matvec V uy)
    match paramGet params "b_x", paramGet params "b_y" with
    | .error e, _ => .error e
    | _, .error e => .error e
    | .ok bx, .ok by_ =>
      let conv := fun t c => bx * convX t c + by_ * convY t c
      match paramGet params "c" with
      | .error e => .error e
      | .ok cc =>
        let reaction := fun t c => cc * transpose (matvec V u) t c
        .ok (meanSquare0 fun t c => (diffusion t c + conv t c + reaction t c) - F t c)

/-- `physics/cd2d_inverse_domain.py:18-90` (`pde_loss_cd2d_inverse_domain`). -/
noncomputable def pdeLossCd2dInverseDomain (params : ParamDict)
    (inverseParams : List (Fin nc → Fin nq → ℝ)) : Except PyErr (Fin nc → ℝ) :=
  match pyIndex inverseParams 0 with
  | .error e => .error e
  | .ok coeff =>
    let diffX := transpose (matvec GX fun c q => ux c q * coeff c q)
    let diffY := transpose (matvec GY fun c q => uy c q * coeff c q)
    let diffusion := fun t c => diffX t c + diffY t c
    let convX := transpose (matvec V ux)
    let convY := transpose (matvec V uy)
    match paramGet params "b_x", paramGet params "b_y" with
    | .error e, _ => .error e
    | _, .error e => .error e
    | .ok bx, .ok by_ =>
      let conv := fun t c => bx * convX t c + by_ * convY t c
      match paramGet params "c" with
      | .error e => .error e
      | .ok cc =>
        let reaction := fun t c => cc * transpose (matvec V u) t c
        .ok (meanSquare0 fun t c => (diffusion t c + conv t c + reaction t c) - F t c)

/-- `physics/helmholtz2d.py:18-70` (`pde_loss_helmholtz`). -/
noncomputable def pdeLossHelmholtz (params : ParamDict) : Except PyErr (Fin nc → ℝ) :=
  let diffX := transpose (matvec GX ux)
  let diffY := transpose (matvec GY uy)
  match paramGet params "eps" with
  | .error e => .error e
  | .ok eps =>
    let diffusion := fun t c => eps * (diffX t c + diffY t c)
    match paramGet params "k" with
    | .error e => .error e
    | .ok k =>
      let additional := fun t c => k ^ 2 * transpose (matvec V u) t c
      .ok (meanSquare0 fun t c => -1.0 * diffusion t c + additional t c - F t c)

end

/-! ## Calls by keyword -/

/-- The binding of keyword arguments to the parameters of a Python function (each parameter with its
default value, if any): an unexpected keyword or a missing argument is a `TypeError`; otherwise the
values are returned in the order of the parameters. -/
def bindKwargs {α : Type} (params : List (String × Option α)) (kwargs : List (String × α)) :
    Except PyErr (List α) :=
  if kwargs.any fun kw => !(params.any fun p => p.1 == kw.1) then .error .typeError
  else mapE (fun p : String × Option α =>
    match kwargs.lookup p.1 with
    | some a => .ok a
    | none =>
      match p.2 with
      | some d => .ok d
      | none => .error .typeError) params

/-- The values that `train_step` passes to a loss function. -/
inductive LossArg (nc nt nq : ℕ)
  | mat (A : Fin nc → Fin nt → Fin nq → ℝ)
  | pred (v : Fin nc → Fin nq → ℝ)
  | force (F : Fin nt → Fin nc → ℝ)
  | params (d : ParamDict)
  | preds (l : List (Fin nc → Fin nq → ℝ))

/-- A loss function: the names of its parameters (none has a default) and its body. -/
structure LossFunction (nc nt nq : ℕ) where
  params : List String
  body : List (LossArg nc nt nq) → Except PyErr (Fin nc → ℝ)

/-- `loss_function(name=value, …)`. -/
def LossFunction.call {nc nt nq : ℕ} (L : LossFunction nc nt nq)
    (kwargs : List (String × LossArg nc nt nq)) : Except PyErr (Fin nc → ℝ) :=
  match bindKwargs (L.params.map fun n => (n, none)) kwargs with
  | .error e => .error e
  | .ok args => L.body args

section
variable (nc nt nq : ℕ)

/-- The first seven parameters, the same in all loss functions (`physics/poisson2d.py:19-25` and the
same lines of the other files). -/
def commonParams : List String :=
  ["test_shape_val_mat", "test_grad_x_mat", "test_grad_y_mat", "pred_nn", "pred_grad_x_nn",
    "pred_grad_y_nn", "forcing_function"]

/-- Signature `physics/poisson2d.py:18-27`.  (Arguments of other kinds are not modelled further.) -/
noncomputable def lossPoisson : LossFunction nc nt nq where
  params := commonParams ++ ["bilinear_params"]
  body
    | [.mat V, .mat GX, .mat GY, .pred u, .pred ux, .pred uy, .force F, .params p] =>
      pdeLossPoisson V GX GY u ux uy F p
    | _ => .error .typeError

/-- Signature `physics/poisson2d_inverse.py:18-28`. -/
noncomputable def lossPoissonInverse : LossFunction nc nt nq where
  params := commonParams ++ ["bilinear_params", "inverse_params_dict"]
  body
    | [.mat V, .mat GX, .mat GY, .pred u, .pred ux, .pred uy, .force F, .params p, .params ip] =>
      pdeLossPoissonInverse V GX GY u ux uy F p ip
    | _ => .error .typeError

/-- Signature `physics/cd2d.py:18-27`. -/
noncomputable def lossCd2d : LossFunction nc nt nq where
  params := commonParams ++ ["bilinear_params"]
  body
    | [.mat V, .mat GX, .mat GY, .pred u, .pred ux, .pred uy, .force F, .params p] =>
      pdeLossCd2d V GX GY u ux uy F p
    | _ => .error .typeError

/-- Signature `physics/cd2d_inverse.py:18-28`. -/
noncomputable def lossCd2dInverse : LossFunction nc nt nq where
  params := commonParams ++ ["bilinear_params_dict", "inverse_param_dict"]
  body
    | [.mat V, .mat GX, .mat GY, .pred u, .pred ux, .pred uy, .force F, .params p, .params ip] =>
      pdeLossCd2dInverse V GX GY u ux uy F p ip
    | _ => .error .typeError

/-- Signature `physics/cd2d_inverse_domain.py:18-28`. -/
noncomputable def lossCd2dInverseDomain : LossFunction nc nt nq where
  params := commonParams ++ ["bilinear_params", "inverse_params_list"]
  body
    | [.mat V, .mat GX, .mat GY, .pred u, .pred ux, .pred uy, .force F, .params p, .preds ip] =>
      pdeLossCd2dInverseDomain V GX GY u ux uy F p ip
    | _ => .error .typeError

/-- Signature `physics/helmholtz2d.py:18-27`. -/
noncomputable def lossHelmholtz : LossFunction nc nt nq where
  params := commonParams ++ ["bilinear_params"]
  body
    | [.mat V, .mat GX, .mat GY, .pred u, .pred ux, .pred uy, .force F, .params p] =>
      pdeLossHelmholtz V GX GY u ux uy F p
    | _ => .error .typeError

end

end FastVPINNs
