import Verif.Props.ModelConfig
import Verif.Props.Network
import Verif.Spec.Wiring

/-! # C64: the parts of the four model classes -/

namespace FastVPINNs

section
variable {T : Type}

/-- When the common part of the constructors succeeds, and with which result. -/
theorem modelCore_ok_iff (lrFn : List (String × PyVal) → Except PyErr LearningRate) (ld : List ℕ)
    (lrd : List (String × PyVal)) (pd : List (String × ℤ)) (lf : T) (its ofm : List T) (ffl : T)
    (dt : Bool × String) (att : Bool) (act : String) (hess : Bool) (core : ModelCore T) :
    modelCore lrFn ld lrd pd lf its ofm ffl dt att act hess = .ok core ↔
      dt.1 = true ∧ ∃ sv sx sy restF it di da restI n lr ls, ofm = sv :: sx :: sy :: restF ∧
        its = it :: di :: da :: restI ∧ pd.lookup "n_cells" = some n ∧ lrFn lrd = .ok lr ∧
        layerSpecs ld act = .ok ls ∧ ld ≠ [] ∧
        core = { layerDims := ld, learningRateDict := lrd, paramsDict := pd, lossFunction := lf
                 inputTensorsList := its, origFactorMatrices := ofm, forceFunctionList := ffl
                 tensorDtype := dt, useAttention := att, activation := act, hessian := hess
                 inputTensor := it, dirichletInput := di, dirichletActual := da
                 preMultiplierVal := sv, preMultiplierGradX := sx, preMultiplierGradY := sy
                 forceMatrix := ffl, nCells := n, learningRate := lr, layerList := ls } := by
  have e0 : ∀ (a : T) (l : List T), pyIndex (a :: l) 0 = .ok a := fun _ _ => rfl
  have e1 : ∀ (a b : T) (l : List T), pyIndex (a :: b :: l) 1 = .ok b := fun _ _ _ => rfl
  have e2 : ∀ (a b c : T) (l : List T), pyIndex (a :: b :: c :: l) 2 = .ok c := fun _ _ _ _ => rfl
  have n0 : pyIndex ([] : List T) 0 = .error .indexError := rfl
  have n1 : ∀ a : T, pyIndex [a] 1 = .error .indexError := fun _ => rfl
  have n2 : ∀ a b : T, pyIndex [a, b] 2 = .error .indexError := fun _ _ => rfl
  unfold modelCore
  simp only [bind, Except.bind, pure, Except.pure, throw, throwThe, MonadExceptOf.throw]
  obtain ⟨b, name⟩ := dt
  cases b with
  | false => simp
  | true =>
    match ofm with
    | [] => simp [n0]
    | [a] => simp [e0, n1]
    | [a, b] => simp [e0, e1, n2]
    | sv :: sx :: sy :: restF =>
      match its with
      | [] => simp [e0, e1, e2, n0]
      | [a] => simp [e0, e1, e2, n1]
      | [a, b] => simp [e0, e1, e2, n2]
      | it :: di :: da :: restI =>
        simp only [e0, e1, e2, Bool.true_eq_false, if_false]
        rcases strGet_cases pd "n_cells" with ⟨n, hn, hg⟩ | ⟨hn, hg⟩
        · rw [hg]
          cases hlr : lrFn lrd with
          | error e => simp
          | ok lr =>
            cases hls : layerSpecs ld act with
            | error e => simp
            | ok ls =>
              match ld with
              | [] => simp [layerSpecs, mapE, pyIndex] at hls
              | d :: ld =>
                have : pyIndex (d :: ld) 0 = .ok d := rfl
                simp only [this, Except.ok.injEq, true_and, hn]
                constructor
                · rintro rfl
                  exact ⟨_, _, _, _, _, _, _, _, _, _, _, rfl, rfl, rfl, rfl, rfl, by simp, rfl⟩
                · rintro ⟨_, _, _, _, _, _, _, _, _, _, _, h1, h2, h3, h4, h5, -, rfl⟩
                  cases h1; cases h2; cases h3; cases h4; cases h5
                  rfl
        · rw [hg]
          simp [hn, -List.lookup_eq_none_iff]

/-- The common part of the constructors succeeds exactly under the conditions of `Acceptable`. -/
theorem modelCore_accepts (lrFn : List (String × PyVal) → Except PyErr LearningRate) (keys : List String)
    (ld : List ℕ) (lrd : List (String × PyVal))
    (hkeys : (∃ lr, lrFn lrd = .ok lr) ↔ ∀ k ∈ keys, ∃ v, lrd.lookup k = some v)
    (pd : List (String × ℤ)) (lf : T) (its ofm : List T) (ffl : T)
    (dt : Bool × String) (att : Bool) (act : String) (hess : Bool) :
    (∃ core, modelCore lrFn ld lrd pd lf its ofm ffl dt att act hess = .ok core) ↔
      Spec.Acceptable keys ld lrd pd its ofm dt.1 := by
  simp only [modelCore_ok_iff, Spec.Acceptable]
  constructor
  · rintro ⟨core, hd, sv, sx, sy, restF, it, di, da, restI, n, lr, ls, rfl, rfl, hn, hlr, hls, hl, -⟩
    exact ⟨hd, by simp, by simp, ⟨n, hn⟩, hkeys.mp ⟨lr, hlr⟩, hl⟩
  · rintro ⟨hd, h1, h2, ⟨n, hn⟩, hk, hl⟩
    obtain ⟨lr, hlr⟩ := hkeys.mpr hk
    match ofm, its, h1, h2 with
    | sv :: sx :: sy :: restF, it :: di :: da :: restI, _, _ =>
      have hls : ∃ ls, layerSpecs ld act = .ok ls := by
        match ld, hl with
        | [d], _ => exact ⟨_, (C51_short d act).2⟩
        | a :: b :: l, _ =>
          obtain ⟨ls, h, -⟩ := C51_layers (a :: b :: l) act (by simp)
          exact ⟨ls, h⟩
      obtain ⟨ls, hls⟩ := hls
      exact ⟨_, hd, sv, sx, sy, restF, it, di, da, restI, n, lr, ls, rfl, rfl, hn, hlr, hls, hl, rfl⟩

theorem staircase_rate (d : List (String × PyVal)) (lr : LearningRate)
    (h : learningRateFnStaircase d = .ok lr) : learningRateFn d = .ok lr := by
  obtain ⟨v, hv⟩ := (C50_keys_staircase d).2.mp ⟨lr, h⟩ "staircase" (by simp)
  rw [← C50_staircase_ignored d v hv, h]

/-- From the values bound to the parameters and the success of the common part to the specification. -/
theorem wired_of (kwargs : List (String × MVal T))
    (lrFn : List (String × PyVal) → Except PyErr LearningRate)
    (hlrFn : ∀ d lr, lrFn d = .ok lr → learningRateFn d = .ok lr) (ld : List ℕ)
    (lrd : List (String × PyVal)) (pd : List (String × ℤ)) (lf : T) (its ofm : List T) (ffl : T)
    (b : Bool) (dt : String) (att : Bool) (act : String) (hess : Bool) (core : ModelCore T)
    (h : modelCore lrFn ld lrd pd lf its ofm ffl (b, dt) att act hess = .ok core)
    (k1 : kwargs.lookup "layer_dims" = some (.dims ld)) (k2 : kwargs.lookup "learning_rate_dict" = some (.lr lrd))
    (k3 : kwargs.lookup "params_dict" = some (.params pd)) (k4 : kwargs.lookup "loss_function" = some (.obj lf))
    (k5 : kwargs.lookup "input_tensors_list" = some (.objs its))
    (k6 : kwargs.lookup "orig_factor_matrices" = some (.objs ofm))
    (k7 : kwargs.lookup "force_function_list" = some (.obj ffl))
    (k8 : kwargs.lookup "tensor_dtype" = some (.dtype b dt))
    (k9 : (kwargs.lookup "use_attention").or (some (.bool false)) = some (.bool att))
    (k10 : (kwargs.lookup "activation").or (some (.str "tanh")) = some (.str act)) :
    Spec.Wired kwargs core := by
  obtain ⟨hd, sv, sx, sy, restF, it, di, da, restI, n, lr, ls, rfl, rfl, hn, hlr, hls, hl, rfl⟩ :=
    (modelCore_ok_iff ..).mp h
  simp only at hd
  subst hd
  refine ⟨⟨restF, k6⟩, ⟨restI, k5⟩, k7, k4, ⟨pd, k3, hn⟩, ⟨lrd, k2, hlrFn _ _ hlr⟩, ⟨ld, k1, hls⟩, ⟨dt, k8⟩,
    ?_, ?_⟩
  · cases hk : kwargs.lookup "use_attention" with
    | none => rw [hk] at k9; simpa using k9
    | some v => rw [hk] at k9; simpa using k9
  · cases hk : kwargs.lookup "activation" with
    | none => rw [hk] at k10; simpa using k10
    | some v => rw [hk] at k10; simpa using k10

/-- **C64** (parts of all four classes).  Whenever a constructor returns, the object's parts are those of
the arguments: test function matrices, tensors, forcing, loss, number of cells, learning rate, layers; for
the inverse models sensor points and values are the first two entries of `sensor_list`, the inverse
parameters those passed; for the hard-constraint model the constraint function is the one passed, or none. -/
theorem C64_parts (kwargs : List (String × MVal T)) :
    (∀ m, initDense kwargs = .ok m → Spec.Wired kwargs m.core) ∧
    (∀ m, initHard kwargs = .ok m → Spec.Wired kwargs m.core ∧
      (kwargs.lookup "hard_constraint_function").getD .none
        = match m.hardConstraint with | some g => .obj g | none => .none) ∧
    (∀ m, initInverse kwargs = .ok m → Spec.Wired kwargs m.core ∧
      (∃ rest, kwargs.lookup "sensor_list" = some (.objs (m.sensorPoints :: m.sensorValues :: rest))) ∧
      kwargs.lookup "inverse_params_dict" = some (.invParams m.inverseParamsDict)) ∧
    (∀ m, initInverseDomain kwargs = .ok m → Spec.Wired kwargs m.core ∧
      ∃ rest, kwargs.lookup "sensor_list" = some (.objs (m.sensorPoints :: m.sensorValues :: rest))) := by
  have two : ∀ (sl : List T) (a b : T), pyIndex sl 0 = .ok a → pyIndex sl 1 = .ok b → ∃ r, sl = a :: b :: r := by
    intro sl a b h0 h1
    match sl, h0, h1 with
    | [], h0, _ => cases h0
    | [_], _, h1 => cases h1
    | c :: d :: r, h0, h1 =>
      have e0 : pyIndex (c :: d :: r) 0 = .ok c := rfl
      have e1 : pyIndex (c :: d :: r) 1 = .ok d := rfl
      rw [e0] at h0
      rw [e1] at h1
      cases h0; cases h1
      exact ⟨r, rfl⟩
  refine ⟨fun m h => ?_, fun m h => ?_, fun m h => ?_, fun m h => ?_⟩
  · obtain ⟨ld, lrd, pd, lf, its, ofm, ffl, b, dt, att, act, hess, core, hb, hc, rfl⟩ :=
      initDense_inv kwargs m h
    have f := bindKwargs_value _ _ _ hb
    simp only [denseParams, List.forall₂_cons, Option.or_none] at f
    obtain ⟨k1, k2, k3, k4, k5, k6, k7, k8, k9, k10, -⟩ := f
    exact wired_of kwargs _ (fun _ _ h => h) _ _ _ _ _ _ _ _ _ _ _ _ _ hc k1 k2 k3 k4 k5 k6 k7 k8 k9 k10
  · obtain ⟨ld, lrd, pd, lf, its, ofm, ffl, b, dt, att, act, hess, hcn, g, core, hb, hg, hc, rfl⟩ :=
      initHard_inv kwargs m h
    have f := bindKwargs_value _ _ _ hb
    simp only [hardParams, denseParams, List.cons_append, List.nil_append, List.forall₂_cons,
      Option.or_none] at f
    obtain ⟨k1, k2, k3, k4, k5, k6, k7, k8, k9, k10, -, k12, -⟩ := f
    refine ⟨wired_of kwargs _ staircase_rate _ _ _ _ _ _ _ _ _ _ _ _ _ hc k1 k2 k3 k4 k5 k6 k7 k8 k9 k10, ?_⟩
    have k : (kwargs.lookup "hard_constraint_function").getD .none = hcn := by
      cases hk : kwargs.lookup "hard_constraint_function" with
      | none => rw [hk] at k12; simpa using k12
      | some v => rw [hk] at k12; simpa using k12
    rw [k]
    cases hcn <;> simp only [hardOf, reduceCtorEq, Except.ok.injEq] at hg <;> subst hg <;> rfl
  · obtain ⟨ld, lrd, pd, lf, its, ofm, ffl, sl, ip, b, dt, att, act, hess, sp, sv, core, hb, h0, h1, hc, rfl⟩ :=
      initInverse_inv kwargs m h
    have f := bindKwargs_value _ _ _ hb
    simp only [inverseParams, List.forall₂_cons, Option.or_none] at f
    obtain ⟨k1, k2, k3, k4, k5, k6, k7, k11, k12, k8, k9, k10, -⟩ := f
    obtain ⟨r, rfl⟩ := two sl sp sv h0 h1
    exact ⟨wired_of kwargs _ staircase_rate _ _ _ _ _ _ _ _ _ _ _ _ _ hc k1 k2 k3 k4 k5 k6 k7 k8 k9 k10,
      ⟨r, k11⟩, k12⟩
  · obtain ⟨ld, lrd, pd, lf, its, ofm, ffl, sl, b, dt, att, act, hess, sp, sv, core, hb, h0, h1, hc, rfl⟩ :=
      initInverseDomain_inv kwargs m h
    have f := bindKwargs_value _ _ _ hb
    simp only [inverseDomainParams, List.forall₂_cons, Option.or_none] at f
    obtain ⟨k1, k2, k3, k4, k5, k6, k7, k11, k8, k9, k10, -⟩ := f
    obtain ⟨r, rfl⟩ := two sl sp sv h0 h1
    exact ⟨wired_of kwargs _ (fun _ _ h => h) _ _ _ _ _ _ _ _ _ _ _ _ _ hc k1 k2 k3 k4 k5 k6 k7 k8 k9 k10,
      ⟨r, k11⟩⟩

/-- **C64** (`DenseModel_Hard`).  Conditions as for `DenseModel`, and the key `staircase`. -/
theorem C64_accepts_hard (kwargs : List (String × MVal T))
    (ld : List ℕ) (lrd : List (String × PyVal)) (pd : List (String × ℤ)) (lf : T) (its ofm : List T)
    (ffl : T) (b : Bool) (dt : String) (att : Bool) (act : String) (hess : Bool) (hc : MVal T)
    (hhc : hc = .none ∨ ∃ g, hc = .obj g)
    (hb : bindKwargs (hardParams T) kwargs = .ok [.dims ld, .lr lrd, .params pd, .obj lf, .objs its,
      .objs ofm, .obj ffl, .dtype b dt, .bool att, .str act, .bool hess, hc]) :
    (∃ m, initHard kwargs = .ok m) ↔ Spec.Acceptable (Spec.lrKeys ++ ["staircase"]) ld lrd pd its ofm b := by
  obtain ⟨g, hg⟩ : ∃ g, hardOf hc = .ok g := by
    rcases hhc with rfl | ⟨g, rfl⟩
    · exact ⟨none, rfl⟩
    · exact ⟨some g, rfl⟩
  have acc := modelCore_accepts learningRateFnStaircase (Spec.lrKeys ++ ["staircase"]) ld lrd
    (C50_keys_staircase lrd).2 pd lf its ofm ffl (b, dt) att act hess
  simp only at acc
  rw [← acc]
  unfold initHard
  simp only [hb, bind, Except.bind, hg, pure, Except.pure]
  cases modelCore learningRateFnStaircase ld lrd pd lf its ofm ffl (b, dt) att act hess <;> simp

/-- **C64** (`DenseModel_Inverse`).  Conditions as for `DenseModel_Hard`, and at least two entries in
`sensor_list`. -/
theorem C64_accepts_inverse (kwargs : List (String × MVal T))
    (ld : List ℕ) (lrd : List (String × PyVal)) (pd : List (String × ℤ)) (lf : T) (its ofm : List T)
    (ffl : T) (sl : List T) (ip : List (String × ℝ)) (b : Bool) (dt : String) (att : Bool) (act : String)
    (hess : Bool)
    (hb : bindKwargs (inverseParams T) kwargs = .ok [.dims ld, .lr lrd, .params pd, .obj lf, .objs its,
      .objs ofm, .obj ffl, .objs sl, .invParams ip, .dtype b dt, .bool att, .str act, .bool hess]) :
    (∃ m, initInverse kwargs = .ok m) ↔
      2 ≤ sl.length ∧ Spec.Acceptable (Spec.lrKeys ++ ["staircase"]) ld lrd pd its ofm b := by
  have acc := modelCore_accepts learningRateFnStaircase (Spec.lrKeys ++ ["staircase"]) ld lrd
    (C50_keys_staircase lrd).2 pd lf its ofm ffl (b, dt) att act hess
  simp only at acc
  rw [← acc]
  unfold initInverse
  simp only [hb, bind, Except.bind, pure, Except.pure]
  match sl with
  | [] => simp [show pyIndex ([] : List T) 0 = .error .indexError from rfl]
  | [a] => simp [show pyIndex [a] 0 = .ok a from rfl, show pyIndex [a] 1 = .error .indexError from rfl]
  | a :: c :: r =>
    simp only [show pyIndex (a :: c :: r) 0 = .ok a from rfl, show pyIndex (a :: c :: r) 1 = .ok c from rfl]
    cases modelCore learningRateFnStaircase ld lrd pd lf its ofm ffl (b, dt) att act hess <;> simp

/-- **C64** (`DenseModel_Inverse_Domain`).  Conditions as for `DenseModel`, and at least two entries in
`sensor_list`. -/
theorem C64_accepts_inverse_domain (kwargs : List (String × MVal T))
    (ld : List ℕ) (lrd : List (String × PyVal)) (pd : List (String × ℤ)) (lf : T) (its ofm : List T)
    (ffl : T) (sl : List T) (b : Bool) (dt : String) (att : Bool) (act : String) (hess : Bool)
    (hb : bindKwargs (inverseDomainParams T) kwargs = .ok [.dims ld, .lr lrd, .params pd, .obj lf, .objs its,
      .objs ofm, .obj ffl, .objs sl, .dtype b dt, .bool att, .str act, .bool hess]) :
    (∃ m, initInverseDomain kwargs = .ok m) ↔
      2 ≤ sl.length ∧ Spec.Acceptable Spec.lrKeys ld lrd pd its ofm b := by
  have acc := modelCore_accepts learningRateFn Spec.lrKeys ld lrd (C50_keys lrd).2 pd lf its ofm ffl (b, dt) att
    act hess
  simp only at acc
  rw [← acc]
  unfold initInverseDomain
  simp only [hb, bind, Except.bind, pure, Except.pure]
  match sl with
  | [] => simp [show pyIndex ([] : List T) 0 = .error .indexError from rfl]
  | [a] => simp [show pyIndex [a] 0 = .ok a from rfl, show pyIndex [a] 1 = .error .indexError from rfl]
  | a :: c :: r =>
    simp only [show pyIndex (a :: c :: r) 0 = .ok a from rfl, show pyIndex (a :: c :: r) 1 = .ok c from rfl]
    cases modelCore learningRateFn ld lrd pd lf its ofm ffl (b, dt) att act hess <;> simp

/-- **C64** (invalid data type, other classes).  `DenseModel_Hard` raises `TypeError` as `DenseModel` does, whatever the
other arguments.  The inverse models look at their sensors first: with fewer than two entries in `sensor_list` the
exception may be an `IndexError`, otherwise it is a `TypeError`. -/
theorem C64_dtype_others (kwargs : List (String × MVal T)) (name : String)
    (h : kwargs.lookup "tensor_dtype" = some (.dtype false name)) :
    initHard kwargs = .error .typeError ∧
    (initInverse kwargs = .error .typeError ∨ initInverse kwargs = .error .indexError ∧
      ∃ sl, kwargs.lookup "sensor_list" = some (.objs sl) ∧ sl.length < 2) ∧
    (initInverseDomain kwargs = .error .typeError ∨ initInverseDomain kwargs = .error .indexError ∧
      ∃ sl, kwargs.lookup "sensor_list" = some (.objs sl) ∧ sl.length < 2) := by
  refine ⟨?_, ?_, ?_⟩
  · unfold initHard
    cases hb : bindKwargs (hardParams T) kwargs with
    | error e =>
      rw [bindKwargs_error _ _ _ hb]
      rfl
    | ok args =>
      have f := bindKwargs_value _ _ _ hb
      simp only [bind, Except.bind, pure, Except.pure, throw, throwThe, MonadExceptOf.throw]
      split
      · rename_i b dt att act hess hc
        simp only [hardParams, denseParams, List.cons_append, List.nil_append, List.forall₂_cons, h, Option.some_or,
          Option.some.injEq, MVal.dtype.injEq] at f
        obtain ⟨-, -, -, -, -, -, -, ⟨rfl, -⟩, -⟩ := f
        cases hc <;> simp [hardOf, modelCore, bind, Except.bind, throw, throwThe, MonadExceptOf.throw]
      · rfl
  · unfold initInverse
    cases hb : bindKwargs (inverseParams T) kwargs with
    | error e =>
      rw [bindKwargs_error _ _ _ hb]
      exact Or.inl rfl
    | ok args =>
      have f := bindKwargs_value _ _ _ hb
      simp only [bind, Except.bind, pure, Except.pure, throw, throwThe, MonadExceptOf.throw]
      split
      · rename_i sl ip b dt att act hess
        simp only [inverseParams, List.forall₂_cons, h, Option.or_none,
          Option.some.injEq, MVal.dtype.injEq] at f
        obtain ⟨-, -, -, -, -, -, -, hs, -, ⟨rfl, -⟩, -⟩ := f
        match sl, hs with
        | [], hs => exact Or.inr ⟨rfl, [], hs, by simp⟩
        | [a], hs => exact Or.inr ⟨rfl, [a], hs, by simp⟩
        | a :: c :: r, _ =>
          left
          simp [show pyIndex (a :: c :: r) 0 = .ok a from rfl, show pyIndex (a :: c :: r) 1 = .ok c from rfl, modelCore,
            bind, Except.bind, throw, throwThe, MonadExceptOf.throw]
      · exact Or.inl rfl
  · unfold initInverseDomain
    cases hb : bindKwargs (inverseDomainParams T) kwargs with
    | error e =>
      rw [bindKwargs_error _ _ _ hb]
      exact Or.inl rfl
    | ok args =>
      have f := bindKwargs_value _ _ _ hb
      simp only [bind, Except.bind, pure, Except.pure, throw, throwThe, MonadExceptOf.throw]
      split
      · rename_i sl b dt att act hess
        simp only [inverseDomainParams, List.forall₂_cons, h, Option.or_none,
          Option.some.injEq, MVal.dtype.injEq] at f
        obtain ⟨-, -, -, -, -, -, -, hs, ⟨rfl, -⟩, -⟩ := f
        match sl, hs with
        | [], hs => exact Or.inr ⟨rfl, [], hs, by simp⟩
        | [a], hs => exact Or.inr ⟨rfl, [a], hs, by simp⟩
        | a :: c :: r, _ =>
          left
          simp [show pyIndex (a :: c :: r) 0 = .ok a from rfl, show pyIndex (a :: c :: r) 1 = .ok c from rfl, modelCore,
            bind, Except.bind, throw, throwThe, MonadExceptOf.throw]
      · exact Or.inl rfl

/-- A data type by its name is not a TensorFlow data type. -/
example : initHard [("tensor_dtype", (.dtype false "float32" : MVal String))] = .error .typeError :=
  (C64_dtype_others _ "float32" rfl).1

/-- The inverse model of `examples/inverse_problems_2d/const_inverse_poisson2d`, tensors by name. -/
noncomputable def demoInverseKwargs : List (String × MVal String) :=
  demoKwargs ++ [("sensor_list", .objs ["points", "sensor_values"]), ("inverse_params_dict", .invParams [("eps", 2.0)])]

example : ∃ m, initInverse demoInverseKwargs = .ok m ∧ m.sensorPoints = "points" ∧
    m.sensorValues = "sensor_values" ∧ m.core.preMultiplierGradX = "grad_x_mat_list" := by
  obtain ⟨m, hm⟩ := (C64_accepts_inverse demoInverseKwargs [2, 30, 30, 1] [("initial_learning_rate", .num 0.003),
     ("use_lr_scheduler", .bool true), ("decay_steps", .num 1000), ("decay_rate", .num 0.99),
     ("staircase", .bool true)] [("n_cells", 16)] "pde_loss_poisson"
    ["x_pde_list", "train_dirichlet_input", "train_dirichlet_output"]
    ["shape_val_mat_list", "grad_x_mat_list", "grad_y_mat_list"] "forcing_function_list"
    ["points", "sensor_values"] [("eps", 2.0)] true "float32" false "tanh" false (by
      simp [bindKwargs, inverseParams, demoKwargs, demoInverseKwargs, mapE, List.lookup])).mpr
    ⟨by simp, rfl, by simp, by simp, ⟨16, by simp [List.lookup]⟩,
      by simp [Spec.lrKeys, List.lookup], by simp⟩
  obtain ⟨hw, ⟨r, hs⟩, -⟩ := (C64_parts demoInverseKwargs).2.2.1 m hm
  obtain ⟨r', hm'⟩ := hw.matrices
  simp only [demoInverseKwargs, demoKwargs, List.cons_append, List.nil_append, List.lookup, String.reduceBEq,
    Option.some.injEq, MVal.objs.injEq, List.cons.injEq] at hs hm'
  exact ⟨m, hm, hs.1.symm, hs.2.1.symm, hm'.2.1.symm⟩

end

end FastVPINNs
