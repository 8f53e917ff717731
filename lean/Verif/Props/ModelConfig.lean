import Verif.Model.Models
import Mathlib.Algebra.Order.Floor.Semiring
import Mathlib.Algebra.Order.Field.Power
import Mathlib.Tactic.Linarith
import Mathlib.Tactic.Positivity
import Mathlib.Tactic.FieldSimp

/-! # C50, C52: learning rate and configuration round trip -/

namespace FastVPINNs

/-! ## C50: learning rate -/

theorem strGet_ok {α : Type} (d : List (String × α)) (k : String) (v : α) :
    strGet d k = .ok v ↔ d.lookup k = some v := by
  unfold strGet
  cases d.lookup k <;> simp

theorem strGet_error {α : Type} (d : List (String × α)) (k : String) :
    strGet d k = .error .keyError ↔ d.lookup k = none := by
  unfold strGet
  cases d.lookup k <;> simp

theorem strGet_cases {α : Type} (d : List (String × α)) (k : String) :
    (∃ v, d.lookup k = some v ∧ strGet d k = .ok v) ∨ (d.lookup k = none ∧ strGet d k = .error .keyError) := by
  unfold strGet
  cases d.lookup k <;> simp

/-- The four keys `DenseModel` (and the domain model) needs; a missing one is a `KeyError`, and nothing
else can go wrong. -/
theorem C50_keys (d : List (String × PyVal)) :
    (learningRateFn d = .error .keyError ↔
      ∃ k ∈ ["initial_learning_rate", "use_lr_scheduler", "decay_steps", "decay_rate"], d.lookup k = none) ∧
    ((∃ lr, learningRateFn d = .ok lr) ↔
      ∀ k ∈ ["initial_learning_rate", "use_lr_scheduler", "decay_steps", "decay_rate"],
        ∃ v, d.lookup k = some v) := by
  unfold learningRateFn
  rcases strGet_cases d "initial_learning_rate" with ⟨v1, a1, b1⟩ | ⟨a1, b1⟩ <;>
  rcases strGet_cases d "use_lr_scheduler" with ⟨v2, a2, b2⟩ | ⟨a2, b2⟩ <;>
  rcases strGet_cases d "decay_steps" with ⟨v3, a3, b3⟩ | ⟨a3, b3⟩ <;>
  rcases strGet_cases d "decay_rate" with ⟨v4, a4, b4⟩ | ⟨a4, b4⟩ <;>
  simp [a1, a2, a3, a4, b1, b2, b3, b4, -List.lookup_eq_none_iff] <;>
  (try (split_ifs <;> simp))

/-- The hard-constraint and inverse models additionally need `staircase`. -/
theorem C50_keys_staircase (d : List (String × PyVal)) :
    (learningRateFnStaircase d = .error .keyError ↔
      ∃ k ∈ ["initial_learning_rate", "use_lr_scheduler", "decay_steps", "decay_rate", "staircase"],
        d.lookup k = none) ∧
    ((∃ lr, learningRateFnStaircase d = .ok lr) ↔
      ∀ k ∈ ["initial_learning_rate", "use_lr_scheduler", "decay_steps", "decay_rate", "staircase"],
        ∃ v, d.lookup k = some v) := by
  unfold learningRateFnStaircase
  rcases strGet_cases d "initial_learning_rate" with ⟨v1, a1, b1⟩ | ⟨a1, b1⟩ <;>
  rcases strGet_cases d "use_lr_scheduler" with ⟨v2, a2, b2⟩ | ⟨a2, b2⟩ <;>
  rcases strGet_cases d "decay_steps" with ⟨v3, a3, b3⟩ | ⟨a3, b3⟩ <;>
  rcases strGet_cases d "decay_rate" with ⟨v4, a4, b4⟩ | ⟨a4, b4⟩ <;>
  rcases strGet_cases d "staircase" with ⟨v5, a5, b5⟩ | ⟨a5, b5⟩ <;>
  simp [a1, a2, a3, a4, a5, b1, b2, b3, b4, b5, -List.lookup_eq_none_iff] <;>
  (try (split_ifs <;> simp))

theorem learningRateFn_eq (d : List (String × PyVal)) (i u s r : PyVal)
    (hi : d.lookup "initial_learning_rate" = some i) (hu : d.lookup "use_lr_scheduler" = some u)
    (hs : d.lookup "decay_steps" = some s) (hr : d.lookup "decay_rate" = some r) :
    learningRateFn d = .ok (if u.truthy then .exponentialDecay i.toReal s.toReal r.toReal true
      else .constant i.toReal) := by
  unfold learningRateFn
  simp only [(strGet_ok _ _ _).mpr hi, (strGet_ok _ _ _).mpr hu, (strGet_ok _ _ _).mpr hs,
    (strGet_ok _ _ _).mpr hr]
  split_ifs <;> rfl

/-- The value of `staircase` is not used: with the key present, the rate is that of `DenseModel`. -/
theorem C50_staircase_ignored (d : List (String × PyVal)) (v : PyVal) (h : d.lookup "staircase" = some v) :
    learningRateFnStaircase d = learningRateFn d := by
  unfold learningRateFn learningRateFnStaircase
  simp only [(strGet_ok _ _ _).mpr h]
  rcases strGet_cases d "initial_learning_rate" with ⟨v1, a1, b1⟩ | ⟨a1, b1⟩ <;>
  rcases strGet_cases d "use_lr_scheduler" with ⟨v2, a2, b2⟩ | ⟨a2, b2⟩ <;>
  rcases strGet_cases d "decay_steps" with ⟨v3, a3, b3⟩ | ⟨a3, b3⟩ <;>
  rcases strGet_cases d "decay_rate" with ⟨v4, a4, b4⟩ | ⟨a4, b4⟩ <;>
  simp [b1, b2, b3, b4]

/-- With the scheduler on, the rate is `initial * decay_rate ^ k` during steps `k * decay_steps, …,
(k+1) * decay_steps - 1`; with the scheduler off it is `initial` at all steps. -/
theorem C50_rate (d : List (String × PyVal)) (initial decay : ℝ) (steps : ℕ) (hsteps : 0 < steps) (u : PyVal)
    (hi : d.lookup "initial_learning_rate" = some (.num initial)) (hu : d.lookup "use_lr_scheduler" = some u)
    (hs : d.lookup "decay_steps" = some (.num steps)) (hr : d.lookup "decay_rate" = some (.num decay)) :
    ∃ lr, learningRateFn d = .ok lr ∧
      (u.truthy = true → ∀ k t : ℕ, t < steps → lr.at (k * steps + t) = initial * decay ^ k) ∧
      (u.truthy = false → ∀ step, lr.at step = initial) := by
  refine ⟨_, learningRateFn_eq d _ _ _ _ hi hu hs hr, fun h k t ht => ?_, fun h step => ?_⟩
  · rw [if_pos h]
    simp only [LearningRate.at, PyVal.toReal]
    have hpos : (0 : ℝ) < steps := by exact_mod_cast hsteps
    have hf : ⌊((k * steps + t : ℕ) : ℝ) / (steps : ℝ)⌋ = (k : ℤ) := by
      rw [Int.floor_eq_iff]
      have ht' : (t : ℝ) < steps := by exact_mod_cast ht
      have ht0 : (0 : ℝ) ≤ t := Nat.cast_nonneg t
      push_cast
      rw [le_div_iff₀ hpos, div_lt_iff₀ hpos]
      constructor <;> nlinarith
    rw [hf, zpow_natCast]
  · rw [if_neg (by simp [h])]
    rfl

/-- The rate never increases when `0 < decay_rate ≤ 1`. -/
theorem C50_non_increasing (d : List (String × PyVal)) (initial decay : ℝ) (steps : ℕ) (hsteps : 0 < steps)
    (u : PyVal) (hi : d.lookup "initial_learning_rate" = some (.num initial))
    (hu : d.lookup "use_lr_scheduler" = some u)
    (hs : d.lookup "decay_steps" = some (.num steps)) (hr : d.lookup "decay_rate" = some (.num decay))
    (h0 : 0 ≤ initial) (hd0 : 0 < decay) (hd1 : decay ≤ 1) :
    ∃ lr, learningRateFn d = .ok lr ∧ ∀ s₁ s₂ : ℕ, s₁ ≤ s₂ → lr.at s₂ ≤ lr.at s₁ := by
  obtain ⟨lr, h1, h2, h3⟩ := C50_rate d initial decay steps hsteps u hi hu hs hr
  refine ⟨lr, h1, fun s₁ s₂ hle => ?_⟩
  cases hb : u.truthy with
  | false => rw [h3 hb, h3 hb]
  | true =>
    have e : ∀ s : ℕ, lr.at s = initial * decay ^ (s / steps) := by
      intro s
      have := h2 hb (s / steps) (s % steps) (Nat.mod_lt _ hsteps)
      rwa [Nat.div_add_mod'] at this
    rw [e, e]
    exact mul_le_mul_of_nonneg_left
      (pow_le_pow_of_le_one hd0.le hd1 (Nat.div_le_div_right hle)) h0

/-- The dictionary of the examples: rate 0.003, decay 0.99 every 1000 steps, scheduler off. -/
example : ∃ lr, learningRateFn [("initial_learning_rate", .num 0.003), ("use_lr_scheduler", .bool false),
    ("decay_steps", .num 1000), ("decay_rate", .num 0.99), ("staircase", .bool true)] = .ok lr ∧
    lr.at 5000 = 0.003 := by
  obtain ⟨lr, h1, -, h3⟩ := C50_rate [("initial_learning_rate", .num 0.003), ("use_lr_scheduler", .bool false),
    ("decay_steps", .num 1000), ("decay_rate", .num 0.99), ("staircase", .bool true)] 0.003 0.99 1000
    (by norm_num) (.bool false) (by simp [List.lookup]) (by simp [List.lookup]) (by simp [List.lookup])
    (by simp [List.lookup])
  exact ⟨lr, h1, h3 rfl 5000⟩

/-- The dictionary of the tuner has no `staircase`: the inverse models would reject it. -/
example : learningRateFnStaircase [("initial_learning_rate", .num 0.003), ("use_lr_scheduler", .bool true),
    ("decay_steps", .num 1000), ("decay_rate", .num 0.99)] = .error .keyError :=
  (C50_keys_staircase _).1.mpr ⟨"staircase", by simp, by simp [List.lookup]⟩

/-! ## C52: configuration -/

theorem lookup_dictUpdate {α : Type} (d e : List (String × α)) (k : String) :
    (dictUpdate d e).lookup k = (e.lookup k).or (d.lookup k) := by
  unfold dictUpdate
  rw [List.lookup_append]
  have h1 : ∀ d : List (String × α), (d.map fun kv => (kv.1, (e.lookup kv.1).getD kv.2)).lookup k
      = (d.lookup k).map fun v => (e.lookup k).getD v := by
    intro d
    induction d with
    | nil => rfl
    | cons kv d ih =>
      obtain ⟨a, v⟩ := kv
      by_cases ha : k = a
      · subst ha
        simp [List.lookup]
      · have hb : (k == a) = false := by simpa using ha
        simp only [List.map_cons, List.lookup, hb, ih]
  have h2 : ∀ e : List (String × α), (d.lookup k = none) →
      (e.filter fun kv => !(d.any fun kw => kw.1 == kv.1)).lookup k = e.lookup k := by
    intro e hd
    induction e with
    | nil => rfl
    | cons kv e ih =>
      obtain ⟨a, v⟩ := kv
      by_cases ha : k = a
      · subst ha
        have hany : (d.any fun kw => kw.1 == k) = false := by
          rw [List.any_eq_false]
          intro kw hkw heq
          rw [List.lookup_eq_none_iff] at hd
          have := hd kw hkw
          simp only [beq_iff_eq] at heq
          rw [heq] at this
          simp at this
        simp [List.filter, hany, List.lookup]
      · have hb : (k == a) = false := by simpa using ha
        rw [List.filter_cons]
        split_ifs
        · simp only [List.lookup, hb, ih]
        · simp only [List.lookup, hb, ih]
  rw [h1 d]
  cases hd : d.lookup k with
  | none => rw [h2 e hd]; simp
  | some v => cases he : e.lookup k <;> simp

theorem bindKwargs_of_lookup {α : Type} (params : List (String × Option α)) (kwargs : List (String × α))
    (args : List α) (h1 : ∀ kw ∈ kwargs, ∃ p ∈ params, p.1 = kw.1)
    (h2 : List.Forall₂ (fun p a => (kwargs.lookup p.1 = some a) ∨ (kwargs.lookup p.1 = none ∧ p.2 = some a))
      params args) :
    bindKwargs params kwargs = .ok args := by
  unfold bindKwargs
  rw [if_neg]
  · clear h1
    induction h2 with
    | nil => rfl
    | cons hpa _ ih =>
      unfold mapE
      rcases hpa with h | ⟨h, hd⟩
      · simp [h, ih]
      · simp [h, hd, ih]
  · simp only [List.any_eq_true, not_exists, not_and, Bool.not_eq_true']
    intro kw hkw hcon
    obtain ⟨p, hp, hpe⟩ := h1 kw hkw
    have : (params.any fun p => p.1 == kw.1) = true := List.any_eq_true.mpr ⟨p, hp, by simpa using hpe⟩
    rw [this] at hcon
    cases hcon

theorem bindKwargs_unexpected {α : Type} (params : List (String × Option α)) (kwargs : List (String × α))
    (kw : String × α) (hkw : kw ∈ kwargs) (h : ∀ p ∈ params, p.1 ≠ kw.1) :
    bindKwargs params kwargs = .error .typeError := by
  unfold bindKwargs
  rw [if_pos]
  refine List.any_eq_true.mpr ⟨kw, hkw, ?_⟩
  simp only [Bool.not_eq_true', List.any_eq_false, beq_iff_eq]
  exact fun p hp => h p hp

/-- Keys of an updated dictionary. -/
theorem mem_dictUpdate_key {α : Type} (d e : List (String × α)) (kv : String × α)
    (h : kv ∈ dictUpdate d e) : (∃ w ∈ d, w.1 = kv.1) ∨ ∃ w ∈ e, w.1 = kv.1 := by
  unfold dictUpdate at h
  rcases List.mem_append.mp h with h | h
  · obtain ⟨w, hw, rfl⟩ := List.mem_map.mp h
    exact Or.inl ⟨w, hw, rfl⟩
  · exact Or.inr ⟨kv, (List.mem_filter.mp h).1, rfl⟩

theorem dictUpdate_base_key {α : Type} (d e : List (String × α)) (w : String × α) (h : w ∈ d) :
    ∃ kv ∈ dictUpdate d e, kv.1 = w.1 :=
  ⟨_, List.mem_append_left _ (List.mem_map_of_mem h), rfl⟩

section
variable {T : Type}

theorem modelCore_fields (lrFn : List (String × PyVal) → Except PyErr LearningRate)
    (ld : List ℕ) (lrd : List (String × PyVal)) (pd : List (String × ℤ)) (lf : T) (its ofm : List T)
    (ffl : T) (dt : Bool × String) (att : Bool) (act : String) (hess : Bool) (m : ModelCore T)
    (h : modelCore lrFn ld lrd pd lf its ofm ffl dt att act hess = .ok m) :
    m.layerDims = ld ∧ m.learningRateDict = lrd ∧ m.paramsDict = pd ∧ m.lossFunction = lf ∧
    m.inputTensorsList = its ∧ m.origFactorMatrices = ofm ∧ m.forceFunctionList = ffl ∧
    m.tensorDtype = dt ∧ m.useAttention = att ∧ m.activation = act ∧ m.hessian = hess := by
  unfold modelCore at h
  simp only [bind, Except.bind, pure, Except.pure, throw, throwThe, MonadExceptOf.throw] at h
  repeat' split at h
  all_goals first
    | cases h; done
    | (cases h; exact ⟨rfl, rfl, rfl, rfl, rfl, rfl, rfl, rfl, rfl, rfl, rfl⟩)

theorem mapE_forall₂ {α β ε : Type*} (f : α → Except ε β) (l : List α) (bs : List β)
    (h : mapE f l = .ok bs) : List.Forall₂ (fun a b => f a = .ok b) l bs := by
  induction l generalizing bs with
  | nil => cases h; exact .nil
  | cons a l ih =>
    unfold mapE at h
    cases ha : f a with
    | error e => simp [ha] at h
    | ok b =>
      cases hl : mapE f l with
      | error e => simp [ha, hl] at h
      | ok cs =>
        simp only [ha, hl, Except.ok.injEq] at h
        subst h
        exact .cons ha (ih cs hl)

theorem bindKwargs_value {α : Type} (params : List (String × Option α)) (kwargs : List (String × α))
    (args : List α) (h : bindKwargs params kwargs = .ok args) :
    List.Forall₂ (fun p a => (kwargs.lookup p.1).or p.2 = some a) params args := by
  unfold bindKwargs at h
  split_ifs at h with hany
  refine (mapE_forall₂ _ _ _ h).imp fun p a hpa => ?_
  cases hk : kwargs.lookup p.1 with
  | some v => simpa [hk] using hpa
  | none =>
    cases hd : p.2 with
    | none => simp [hk, hd] at hpa
    | some v => simpa [hk, hd] using hpa

/-- Two calls with the same bound arguments give every parameter the same value. -/
theorem bindKwargs_agree {α : Type} (params : List (String × Option α)) (k₁ k₂ : List (String × α))
    (args : List α) (h₁ : bindKwargs params k₁ = .ok args) (h₂ : bindKwargs params k₂ = .ok args) :
    ∀ p ∈ params, (k₁.lookup p.1).or p.2 = (k₂.lookup p.1).or p.2 := by
  have f₁ := bindKwargs_value params k₁ args h₁
  have f₂ := bindKwargs_value params k₂ args h₂
  clear h₁ h₂
  induction f₁ with
  | nil => simp
  | cons h _ ih =>
    cases f₂ with
    | cons h' t =>
      intro p hp
      rcases List.mem_cons.mp hp with rfl | hp
      · rw [h, h']
      · exact ih t p hp

theorem initDense_inv (kwargs : List (String × MVal T)) (m : DenseModel T) (h : initDense kwargs = .ok m) :
    ∃ ld lrd pd lf its ofm ffl b dt att act hess core,
      bindKwargs (denseParams T) kwargs = .ok [.dims ld, .lr lrd, .params pd, .obj lf, .objs its, .objs ofm,
        .obj ffl, .dtype b dt, .bool att, .str act, .bool hess] ∧
      modelCore learningRateFn ld lrd pd lf its ofm ffl (b, dt) att act hess = .ok core ∧ m = ⟨core⟩ := by
  unfold initDense at h
  cases hb : bindKwargs (denseParams T) kwargs with
  | error e => simp [hb, bind, Except.bind] at h
  | ok args =>
    simp only [hb, bind, Except.bind, pure, Except.pure, throw, throwThe, MonadExceptOf.throw] at h
    split at h
    · split at h
      · cases h
      · rename_i hc
        cases h
        exact ⟨_, _, _, _, _, _, _, _, _, _, _, _, _, rfl, hc, rfl⟩
    · cases h

theorem initDense_of (kwargs : List (String × MVal T)) (ld lrd pd lf its ofm ffl b dt att act hess)
    (core : ModelCore T)
    (h : bindKwargs (denseParams T) kwargs = .ok [.dims ld, .lr lrd, .params pd, .obj lf, .objs its,
      .objs ofm, .obj ffl, .dtype b dt, .bool att, .str act, .bool hess])
    (hc : modelCore learningRateFn ld lrd pd lf its ofm ffl (b, dt) att act hess = .ok core) :
    initDense kwargs = .ok ⟨core⟩ := by
  unfold initDense
  rw [h]
  simp only [bind, Except.bind, hc, pure, Except.pure]

/-- The configuration lists all the arguments. -/
theorem config_lookup (base extra : List (String × MVal T)) (m : ModelCore T)
    (k : String) (v : MVal T) (h : (m.config ++ extra).lookup k = some v) :
    (dictUpdate base (m.config ++ extra)).lookup k = some v := by
  rw [lookup_dictUpdate, h]
  rfl

theorem config_keys (m : ModelCore T) : ∀ kv ∈ m.config, ∃ p ∈ denseParams T, p.1 = kv.1 := by
  intro kv hkv
  simp only [ModelCore.config, List.mem_cons, List.not_mem_nil, or_false] at hkv
  rcases hkv with rfl | rfl | rfl | rfl | rfl | rfl | rfl | rfl | rfl | rfl | rfl <;> simp [denseParams]

/-- Rebuilding a `DenseModel` from its configuration succeeds, gives the same object, and every constructor
parameter has the value of the original call; keras' own entries `base` may only contain constructor
parameters (they are empty for subclassed models up to Keras 2). -/
theorem C52_dense (kwargs : List (String × MVal T)) (m : DenseModel T) (h : initDense kwargs = .ok m)
    (base : List (String × MVal T)) (hbase : ∀ kv ∈ base, ∃ p ∈ denseParams T, p.1 = kv.1) :
    initDense (getConfigDense base m) = .ok m ∧
    ∀ p ∈ denseParams T, ((getConfigDense base m).lookup p.1).or p.2 = (kwargs.lookup p.1).or p.2 := by
  obtain ⟨ld, lrd, pd, lf, its, ofm, ffl, b, dt, att, act, hess, core, hb, hc, rfl⟩ := initDense_inv kwargs m h
  obtain ⟨f1, f2, f3, f4, f5, f6, f7, f8, f9, f10, f11⟩ := modelCore_fields _ _ _ _ _ _ _ _ _ _ _ _ _ hc
  have hb' : bindKwargs (denseParams T) (getConfigDense base ⟨core⟩) = .ok [.dims ld, .lr lrd, .params pd,
      .obj lf, .objs its, .objs ofm, .obj ffl, .dtype b dt, .bool att, .str act, .bool hess] := by
    refine bindKwargs_of_lookup _ _ _ (fun kw hkw => ?_) ?_
    · rcases mem_dictUpdate_key _ _ _ hkw with ⟨w, hw, he⟩ | ⟨w, hw, he⟩
      · obtain ⟨p, hp, hpe⟩ := hbase w hw
        exact ⟨p, hp, hpe.trans he⟩
      · obtain ⟨p, hp, hpe⟩ := config_keys core w hw
        exact ⟨p, hp, hpe.trans he⟩
    · have hl := config_lookup base [] core
      rw [List.append_nil] at hl
      unfold getConfigDense
      refine .cons (Or.inl (hl _ _ ?_)) (.cons (Or.inl (hl _ _ ?_)) (.cons (Or.inl (hl _ _ ?_))
        (.cons (Or.inl (hl _ _ ?_)) (.cons (Or.inl (hl _ _ ?_)) (.cons (Or.inl (hl _ _ ?_))
        (.cons (Or.inl (hl _ _ ?_)) (.cons (Or.inl (hl _ _ ?_)) (.cons (Or.inl (hl _ _ ?_))
        (.cons (Or.inl (hl _ _ ?_)) (.cons (Or.inl (hl _ _ ?_)) .nil)))))))))) <;>
      simp [ModelCore.config, List.lookup, f1, f2, f3, f4, f5, f6, f7, f8, f9, f10, f11]
  exact ⟨initDense_of _ _ _ _ _ _ _ _ _ _ _ _ _ core hb' hc, bindKwargs_agree _ _ _ _ hb' hb⟩

theorem initHard_inv (kwargs : List (String × MVal T)) (m : HardModel T) (h : initHard kwargs = .ok m) :
    ∃ ld lrd pd lf its ofm ffl b dt att act hess hc g core,
      bindKwargs (hardParams T) kwargs = .ok [.dims ld, .lr lrd, .params pd, .obj lf, .objs its, .objs ofm,
        .obj ffl, .dtype b dt, .bool att, .str act, .bool hess, hc] ∧ hardOf hc = .ok g ∧
      modelCore learningRateFnStaircase ld lrd pd lf its ofm ffl (b, dt) att act hess = .ok core ∧
      m = ⟨core, g⟩ := by
  unfold initHard at h
  cases hb : bindKwargs (hardParams T) kwargs with
  | error e => simp [hb, bind, Except.bind] at h
  | ok args =>
    simp only [hb, bind, Except.bind, pure, Except.pure, throw, throwThe, MonadExceptOf.throw] at h
    split at h
    · split at h
      · cases h
      · rename_i hg
        split at h
        · cases h
        · rename_i hc
          cases h
          exact ⟨_, _, _, _, _, _, _, _, _, _, _, _, _, _, _, rfl, hg, hc, rfl⟩
    · cases h

/-- Rebuilding a `DenseModel_Hard` from its configuration succeeds, but the constraint function is lost:
the result is the model without constraint. -/
theorem C52_hard (kwargs : List (String × MVal T)) (m : HardModel T) (h : initHard kwargs = .ok m)
    (base : List (String × MVal T)) (hbase : ∀ kv ∈ base, ∃ p ∈ denseParams T, p.1 = kv.1) :
    initHard (getConfigHard base m) = .ok { m with hardConstraint := none } ∧
    (getConfigHard base m).lookup "hard_constraint_function" = none ∧
    ∀ p ∈ denseParams T, ((getConfigHard base m).lookup p.1).or p.2 = (kwargs.lookup p.1).or p.2 := by
  obtain ⟨ld, lrd, pd, lf, its, ofm, ffl, b, dt, att, act, hess, hcf, g, core, hb, hg, hc, rfl⟩ :=
    initHard_inv kwargs m h
  obtain ⟨f1, f2, f3, f4, f5, f6, f7, f8, f9, f10, f11⟩ := modelCore_fields _ _ _ _ _ _ _ _ _ _ _ _ _ hc
  have hkey : ∀ kw ∈ getConfigHard base ⟨core, g⟩, ∃ p ∈ denseParams T, p.1 = kw.1 := by
    intro kw hkw
    rcases mem_dictUpdate_key _ _ _ hkw with ⟨w, hw, he⟩ | ⟨w, hw, he⟩
    · obtain ⟨p, hp, hpe⟩ := hbase w hw
      exact ⟨p, hp, hpe.trans he⟩
    · obtain ⟨p, hp, hpe⟩ := config_keys core w hw
      exact ⟨p, hp, hpe.trans he⟩
  have hnone : (getConfigHard base ⟨core, g⟩).lookup "hard_constraint_function" = none := by
    rw [List.lookup_eq_none_iff]
    intro kw hkw
    obtain ⟨p, hp, hpe⟩ := hkey kw hkw
    rw [← hpe]
    simp only [denseParams, List.mem_cons, List.not_mem_nil, or_false] at hp
    rcases hp with rfl | rfl | rfl | rfl | rfl | rfl | rfl | rfl | rfl | rfl | rfl <;> simp
  have hb' : bindKwargs (hardParams T) (getConfigHard base ⟨core, g⟩) = .ok [.dims ld, .lr lrd, .params pd,
      .obj lf, .objs its, .objs ofm, .obj ffl, .dtype b dt, .bool att, .str act, .bool hess, .none] := by
    refine bindKwargs_of_lookup _ _ _ (fun kw hkw => ?_) ?_
    · obtain ⟨p, hp, hpe⟩ := hkey kw hkw
      exact ⟨p, List.mem_append_left _ hp, hpe⟩
    · have hl := config_lookup base [] core
      rw [List.append_nil] at hl
      refine .cons (Or.inl (hl _ _ ?_)) (.cons (Or.inl (hl _ _ ?_)) (.cons (Or.inl (hl _ _ ?_))
        (.cons (Or.inl (hl _ _ ?_)) (.cons (Or.inl (hl _ _ ?_)) (.cons (Or.inl (hl _ _ ?_))
        (.cons (Or.inl (hl _ _ ?_)) (.cons (Or.inl (hl _ _ ?_)) (.cons (Or.inl (hl _ _ ?_))
        (.cons (Or.inl (hl _ _ ?_)) (.cons (Or.inl (hl _ _ ?_))
        (.cons (Or.inr ⟨hnone, rfl⟩) .nil))))))))))) <;>
      simp [ModelCore.config, List.lookup, f1, f2, f3, f4, f5, f6, f7, f8, f9, f10, f11]
  refine ⟨?_, hnone, ?_⟩
  · unfold initHard
    rw [hb']
    simp only [bind, Except.bind, hardOf, hc, pure, Except.pure]
  · have f₁ := bindKwargs_value _ _ _ hb'
    have f₂ := bindKwargs_value _ _ _ hb
    simp only [hardParams, denseParams, List.cons_append, List.nil_append, List.forall₂_cons] at f₁ f₂
    intro p hp
    simp only [denseParams, List.mem_cons, List.not_mem_nil, or_false] at hp
    rcases hp with rfl | rfl | rfl | rfl | rfl | rfl | rfl | rfl | rfl | rfl | rfl <;>
      simp only [f₁, f₂]

/-- So the rebuilt object is the original one only if there was no constraint. -/
theorem C52_hard_lost (kwargs : List (String × MVal T)) (m : HardModel T) (h : initHard kwargs = .ok m) :
    initHard (getConfigHard [] m) = .ok m ↔ m.hardConstraint = none := by
  rw [(C52_hard kwargs m h [] (by simp)).1]
  obtain ⟨core, g⟩ := m
  constructor
  · intro he
    have := Except.ok.inj he
    simpa using this.symm
  · intro hg
    simp only at hg
    rw [hg]

theorem initInverse_inv (kwargs : List (String × MVal T)) (m : InverseModel T) (h : initInverse kwargs = .ok m) :
    ∃ ld lrd pd lf its ofm ffl sl ip b dt att act hess sp sv core,
      bindKwargs (inverseParams T) kwargs = .ok [.dims ld, .lr lrd, .params pd, .obj lf, .objs its, .objs ofm,
        .obj ffl, .objs sl, .invParams ip, .dtype b dt, .bool att, .str act, .bool hess] ∧
      pyIndex sl 0 = .ok sp ∧ pyIndex sl 1 = .ok sv ∧
      modelCore learningRateFnStaircase ld lrd pd lf its ofm ffl (b, dt) att act hess = .ok core ∧
      m = ⟨core, sl, sp, sv, ip⟩ := by
  unfold initInverse at h
  cases hb : bindKwargs (inverseParams T) kwargs with
  | error e => simp [hb, bind, Except.bind] at h
  | ok args =>
    simp only [hb, bind, Except.bind, pure, Except.pure, throw, throwThe, MonadExceptOf.throw] at h
    split at h
    · split at h
      · cases h
      · rename_i h1
        split at h
        · cases h
        · rename_i h2
          split at h
          · cases h
          · rename_i hc
            cases h
            exact ⟨_, _, _, _, _, _, _, _, _, _, _, _, _, _, _, _, _, rfl, h1, h2, hc, rfl⟩
    · cases h

/-- Configuration round trip of `DenseModel_Inverse`. -/
theorem C52_inverse (kwargs : List (String × MVal T)) (m : InverseModel T) (h : initInverse kwargs = .ok m)
    (base : List (String × MVal T)) (hbase : ∀ kv ∈ base, ∃ p ∈ inverseParams T, p.1 = kv.1) :
    initInverse (getConfigInverse base m) = .ok m ∧
    ∀ p ∈ inverseParams T, ((getConfigInverse base m).lookup p.1).or p.2 = (kwargs.lookup p.1).or p.2 := by
  obtain ⟨ld, lrd, pd, lf, its, ofm, ffl, sl, ip, b, dt, att, act, hess, sp, sv, core, hb, h1, h2, hc, rfl⟩ :=
    initInverse_inv kwargs m h
  obtain ⟨f1, f2, f3, f4, f5, f6, f7, f8, f9, f10, f11⟩ := modelCore_fields _ _ _ _ _ _ _ _ _ _ _ _ _ hc
  have hb' : bindKwargs (inverseParams T) (getConfigInverse base ⟨core, sl, sp, sv, ip⟩)
      = .ok [.dims ld, .lr lrd, .params pd, .obj lf, .objs its, .objs ofm, .obj ffl, .objs sl, .invParams ip,
        .dtype b dt, .bool att, .str act, .bool hess] := by
    refine bindKwargs_of_lookup _ _ _ (fun kw hkw => ?_) ?_
    · rcases mem_dictUpdate_key _ _ _ hkw with ⟨w, hw, he⟩ | ⟨w, hw, he⟩
      · obtain ⟨p, hp, hpe⟩ := hbase w hw
        exact ⟨p, hp, hpe.trans he⟩
      · rcases List.mem_append.mp hw with hw | hw
        · obtain ⟨p, hp, hpe⟩ := config_keys core w hw
          refine ⟨p, ?_, hpe.trans he⟩
          simp only [denseParams, inverseParams, List.mem_cons, List.not_mem_nil, or_false] at hp ⊢
          rcases hp with rfl | rfl | rfl | rfl | rfl | rfl | rfl | rfl | rfl | rfl | rfl <;> simp
        · simp only [List.mem_cons, List.not_mem_nil, or_false] at hw
          rw [← he]
          rcases hw with rfl | rfl <;> simp [inverseParams]
    · have hl := config_lookup base
        [("sensor_list", .objs sl), ("inverse_params_dict", .invParams ip)] core
      refine .cons (Or.inl (hl _ _ ?_)) (.cons (Or.inl (hl _ _ ?_)) (.cons (Or.inl (hl _ _ ?_))
        (.cons (Or.inl (hl _ _ ?_)) (.cons (Or.inl (hl _ _ ?_)) (.cons (Or.inl (hl _ _ ?_))
        (.cons (Or.inl (hl _ _ ?_)) (.cons (Or.inl (hl _ _ ?_)) (.cons (Or.inl (hl _ _ ?_))
        (.cons (Or.inl (hl _ _ ?_)) (.cons (Or.inl (hl _ _ ?_)) (.cons (Or.inl (hl _ _ ?_))
        (.cons (Or.inl (hl _ _ ?_)) .nil)))))))))))) <;>
      simp [ModelCore.config, List.lookup, f1, f2, f3, f4, f5, f6, f7, f8, f9, f10, f11]
  refine ⟨?_, bindKwargs_agree _ _ _ _ hb' hb⟩
  unfold initInverse
  rw [hb']
  simp only [bind, Except.bind, h1, h2, hc, pure, Except.pure]

theorem initInverseDomain_inv (kwargs : List (String × MVal T)) (m : InverseDomainModel T)
    (h : initInverseDomain kwargs = .ok m) :
    ∃ ld lrd pd lf its ofm ffl sl b dt att act hess sp sv core,
      bindKwargs (inverseDomainParams T) kwargs = .ok [.dims ld, .lr lrd, .params pd, .obj lf, .objs its,
        .objs ofm, .obj ffl, .objs sl, .dtype b dt, .bool att, .str act, .bool hess] ∧
      pyIndex sl 0 = .ok sp ∧ pyIndex sl 1 = .ok sv ∧
      modelCore learningRateFn ld lrd pd lf its ofm ffl (b, dt) att act hess = .ok core ∧
      m = ⟨core, sl, sp, sv⟩ := by
  unfold initInverseDomain at h
  cases hb : bindKwargs (inverseDomainParams T) kwargs with
  | error e => simp [hb, bind, Except.bind] at h
  | ok args =>
    simp only [hb, bind, Except.bind, pure, Except.pure, throw, throwThe, MonadExceptOf.throw] at h
    split at h
    · split at h
      · cases h
      · rename_i h1
        split at h
        · cases h
        · rename_i h2
          split at h
          · cases h
          · rename_i hc
            cases h
            exact ⟨_, _, _, _, _, _, _, _, _, _, _, _, _, _, _, _, rfl, h1, h2, hc, rfl⟩
    · cases h

/-- Configuration round trip of `DenseModel_Inverse_Domain`. -/
theorem C52_inverse_domain (kwargs : List (String × MVal T)) (m : InverseDomainModel T)
    (h : initInverseDomain kwargs = .ok m)
    (base : List (String × MVal T)) (hbase : ∀ kv ∈ base, ∃ p ∈ inverseDomainParams T, p.1 = kv.1) :
    initInverseDomain (getConfigInverseDomain base m) = .ok m ∧
    ∀ p ∈ inverseDomainParams T,
      ((getConfigInverseDomain base m).lookup p.1).or p.2 = (kwargs.lookup p.1).or p.2 := by
  obtain ⟨ld, lrd, pd, lf, its, ofm, ffl, sl, b, dt, att, act, hess, sp, sv, core, hb, h1, h2, hc, rfl⟩ :=
    initInverseDomain_inv kwargs m h
  obtain ⟨f1, f2, f3, f4, f5, f6, f7, f8, f9, f10, f11⟩ := modelCore_fields _ _ _ _ _ _ _ _ _ _ _ _ _ hc
  have hb' : bindKwargs (inverseDomainParams T) (getConfigInverseDomain base ⟨core, sl, sp, sv⟩)
      = .ok [.dims ld, .lr lrd, .params pd, .obj lf, .objs its, .objs ofm, .obj ffl, .objs sl,
        .dtype b dt, .bool att, .str act, .bool hess] := by
    refine bindKwargs_of_lookup _ _ _ (fun kw hkw => ?_) ?_
    · rcases mem_dictUpdate_key _ _ _ hkw with ⟨w, hw, he⟩ | ⟨w, hw, he⟩
      · obtain ⟨p, hp, hpe⟩ := hbase w hw
        exact ⟨p, hp, hpe.trans he⟩
      · rcases List.mem_append.mp hw with hw | hw
        · obtain ⟨p, hp, hpe⟩ := config_keys core w hw
          refine ⟨p, ?_, hpe.trans he⟩
          simp only [denseParams, inverseDomainParams, List.mem_cons, List.not_mem_nil, or_false] at hp ⊢
          rcases hp with rfl | rfl | rfl | rfl | rfl | rfl | rfl | rfl | rfl | rfl | rfl <;> simp
        · simp only [List.mem_cons, List.not_mem_nil, or_false] at hw
          rw [← he, hw]
          simp [inverseDomainParams]
    · have hl := config_lookup base [("sensor_list", .objs sl)] core
      refine .cons (Or.inl (hl _ _ ?_)) (.cons (Or.inl (hl _ _ ?_)) (.cons (Or.inl (hl _ _ ?_))
        (.cons (Or.inl (hl _ _ ?_)) (.cons (Or.inl (hl _ _ ?_)) (.cons (Or.inl (hl _ _ ?_))
        (.cons (Or.inl (hl _ _ ?_)) (.cons (Or.inl (hl _ _ ?_)) (.cons (Or.inl (hl _ _ ?_))
        (.cons (Or.inl (hl _ _ ?_)) (.cons (Or.inl (hl _ _ ?_)) (.cons (Or.inl (hl _ _ ?_))
        .nil))))))))))) <;>
      simp [ModelCore.config, List.lookup, f1, f2, f3, f4, f5, f6, f7, f8, f9, f10, f11]
  refine ⟨?_, bindKwargs_agree _ _ _ _ hb' hb⟩
  unfold initInverseDomain
  rw [hb']
  simp only [bind, Except.bind, h1, h2, hc, pure, Except.pure]

/-- If keras' own configuration has an entry that is no constructor parameter (as `name`, `trainable` and
`dtype` of Keras 3), rebuilding fails with a `TypeError`. -/
theorem C52_base_entries (m : DenseModel T) (base : List (String × MVal T)) (kv : String × MVal T)
    (hkv : kv ∈ base) (h : ∀ p ∈ denseParams T, p.1 ≠ kv.1) :
    initDense (getConfigDense base m) = .error .typeError := by
  obtain ⟨w, hw, he⟩ := dictUpdate_base_key base m.core.config kv hkv
  unfold initDense
  rw [bindKwargs_unexpected (denseParams T) (getConfigDense base m) w hw (fun p hp => by
    rw [he]
    exact h p hp)]
  rfl

/-! ## C64: wiring of the constructor -/

/-- What a constructor call does with its tensors, for `DenseModel`: the three test function matrices, the
input points, the boundary points and the boundary values come from the documented positions; `n_cells`
comes from `params_dict`; the learning rate and the layers from their arguments. -/
theorem C64_wiring (kwargs : List (String × MVal T)) (m : DenseModel T) (h : initDense kwargs = .ok m)
    (sv sx sy it di da ffl : T) (restF restI : List T) (pd : List (String × ℤ)) (ld : List ℕ)
    (lrd : List (String × PyVal))
    (h1 : kwargs.lookup "orig_factor_matrices" = some (.objs (sv :: sx :: sy :: restF)))
    (h2 : kwargs.lookup "input_tensors_list" = some (.objs (it :: di :: da :: restI)))
    (h3 : kwargs.lookup "force_function_list" = some (.obj ffl))
    (h4 : kwargs.lookup "params_dict" = some (.params pd))
    (h5 : kwargs.lookup "layer_dims" = some (.dims ld))
    (h6 : kwargs.lookup "learning_rate_dict" = some (.lr lrd)) :
    m.core.preMultiplierVal = sv ∧ m.core.preMultiplierGradX = sx ∧ m.core.preMultiplierGradY = sy ∧
    m.core.inputTensor = it ∧ m.core.dirichletInput = di ∧ m.core.dirichletActual = da ∧
    m.core.forceMatrix = ffl ∧ pd.lookup "n_cells" = some m.core.nCells ∧
    learningRateFn lrd = .ok m.core.learningRate ∧ layerSpecs ld m.core.activation = .ok m.core.layerList := by
  obtain ⟨ld', lrd', pd', lf, its, ofm, ffl', b, dt, att, act, hess, core, hb, hc, rfl⟩ :=
    initDense_inv kwargs m h
  have f := bindKwargs_value _ _ _ hb
  simp only [denseParams, List.forall₂_cons, h1, h2, h3, h4, h5, h6, Option.some_or, Option.some.injEq,
    MVal.dims.injEq, MVal.lr.injEq, MVal.params.injEq, MVal.objs.injEq, MVal.obj.injEq] at f
  obtain ⟨rfl, rfl, rfl, -, rfl, rfl, rfl, -⟩ := f
  unfold modelCore at hc
  simp only [bind, Except.bind, pure, Except.pure, throw, throwThe, MonadExceptOf.throw] at hc
  cases b with
  | false => simp at hc
  | true =>
    have e0 : ∀ (a b c : T) (l : List T), pyIndex (a :: b :: c :: l) 0 = .ok a := fun _ _ _ _ => rfl
    have e1 : ∀ (a b c : T) (l : List T), pyIndex (a :: b :: c :: l) 1 = .ok b := fun _ _ _ _ => rfl
    have e2 : ∀ (a b c : T) (l : List T), pyIndex (a :: b :: c :: l) 2 = .ok c := fun _ _ _ _ => rfl
    simp only [e0, e1, e2] at hc
    cases hn : strGet pd "n_cells" with
    | error e => simp [hn] at hc
    | ok n =>
      cases hlr : learningRateFn lrd with
      | error e => simp [hn, hlr] at hc
      | ok lr =>
        cases hls : layerSpecs ld act with
        | error e => simp [hn, hlr, hls] at hc
        | ok ls =>
          cases hl0 : pyIndex ld 0 with
          | error e => simp [hn, hlr, hls, hl0] at hc
          | ok l0 =>
            simp [hn, hlr, hls, hl0] at hc
            subst hc
            exact ⟨rfl, rfl, rfl, rfl, rfl, rfl, rfl, (strGet_ok _ _ _).mp hn, rfl, hls⟩

theorem pyIndex_ok_iff {α : Type*} (l : List α) (i : ℕ) : (∃ a, pyIndex l i = .ok a) ↔ i < l.length := by
  unfold pyIndex
  simp only [Int.natCast_nonneg, if_true, Int.toNat_natCast]
  by_cases h : i < l.length
  · simp [h]
  · simp [h]

theorem pyIndex_cases {α : Type*} (l : List α) (i : ℕ) :
    (∃ a, pyIndex l i = .ok a ∧ i < l.length) ∨ (pyIndex l i = .error .indexError ∧ ¬ i < l.length) := by
  unfold pyIndex
  simp only [Int.natCast_nonneg, if_true, Int.toNat_natCast]
  by_cases h : i < l.length
  · simp [h]
  · simp [h]

theorem layerSpecs_ok_of_ne_nil (ld : List ℕ) (a : String) (h : ld ≠ []) : ∃ ls, layerSpecs ld a = .ok ls := by
  unfold layerSpecs
  have h1 : ∃ hidden, mapE (fun dim : ℕ => pyIndex ld ((dim : ℤ) + 1)) (List.range (ld.length - 2)) = .ok hidden := by
    have : ∀ l : List ℕ, (∀ k ∈ l, k + 1 < ld.length) →
        ∃ hidden, mapE (fun dim : ℕ => pyIndex ld ((dim : ℤ) + 1)) l = .ok hidden := by
      intro l
      induction l with
      | nil => exact fun _ => ⟨[], rfl⟩
      | cons k l ih =>
        intro hk
        obtain ⟨a, ha⟩ := (pyIndex_ok_iff ld (k + 1)).mpr (hk k (by simp))
        obtain ⟨bs, hbs⟩ := ih fun j hj => hk j (List.mem_cons_of_mem _ hj)
        push_cast at ha
        exact ⟨a :: bs, by simp [mapE, ha, hbs]⟩
    exact this _ fun k hk => by
      have := List.mem_range.mp hk
      omega
  obtain ⟨hidden, h1⟩ := h1
  have h2 : ∃ x, pyIndex ld (-1) = .ok x := by
    have hpos : 0 < ld.length := List.length_pos_iff.mpr h
    unfold pyIndex
    rw [if_neg (by omega), if_pos (by omega), List.getElem?_eq_getElem (by omega)]
    exact ⟨_, rfl⟩
  obtain ⟨x, h2⟩ := h2
  rw [h1, h2]
  exact ⟨_, rfl⟩

/-- The conditions under which a `DenseModel` can be built from arguments of the right types: a TensorFlow
data type, at least three test function matrices and three input tensors, the key `n_cells`, the four
learning rate keys and a non-empty list of widths.  Every other call raises an exception. -/
theorem C64_accepts (kwargs : List (String × MVal T))
    (ld : List ℕ) (lrd : List (String × PyVal)) (pd : List (String × ℤ)) (lf : T) (its ofm : List T)
    (ffl : T) (b : Bool) (dt : String) (att : Bool) (act : String) (hess : Bool)
    (hb : bindKwargs (denseParams T) kwargs = .ok [.dims ld, .lr lrd, .params pd, .obj lf, .objs its,
      .objs ofm, .obj ffl, .dtype b dt, .bool att, .str act, .bool hess]) :
    (∃ m, initDense kwargs = .ok m) ↔
      b = true ∧ 3 ≤ ofm.length ∧ 3 ≤ its.length ∧ (∃ n, pd.lookup "n_cells" = some n) ∧
      (∀ k ∈ ["initial_learning_rate", "use_lr_scheduler", "decay_steps", "decay_rate"],
        ∃ v, lrd.lookup k = some v) ∧ ld ≠ [] := by
  constructor
  · rintro ⟨m, hm⟩
    obtain ⟨ld', lrd', pd', lf', its', ofm', ffl', b', dt', att', act', hess', core, hb', hc, -⟩ :=
      initDense_inv kwargs m hm
    rw [hb] at hb'
    simp only [Except.ok.injEq, List.cons.injEq, MVal.dims.injEq, MVal.lr.injEq, MVal.params.injEq,
      MVal.objs.injEq, MVal.obj.injEq, MVal.dtype.injEq, MVal.bool.injEq, MVal.str.injEq, and_true] at hb'
    obtain ⟨rfl, rfl, rfl, rfl, rfl, rfl, rfl, ⟨rfl, rfl⟩, rfl, rfl, rfl⟩ := hb'
    unfold modelCore at hc
    simp only [bind, Except.bind, pure, Except.pure, throw, throwThe, MonadExceptOf.throw] at hc
    cases b with
    | false => simp at hc
    | true =>
      simp only [Bool.true_eq_false, if_false] at hc
      rcases pyIndex_cases ofm 2 with ⟨a2, p2, q2⟩ | ⟨p2, q2⟩
      · rcases pyIndex_cases its 2 with ⟨a5, p5, q5⟩ | ⟨p5, q5⟩
        · obtain ⟨a0, p0⟩ := (pyIndex_ok_iff ofm 0).mpr (by omega)
          obtain ⟨a1, p1⟩ := (pyIndex_ok_iff ofm 1).mpr (by omega)
          obtain ⟨a3, p3⟩ := (pyIndex_ok_iff its 0).mpr (by omega)
          obtain ⟨a4, p4⟩ := (pyIndex_ok_iff its 1).mpr (by omega)
          norm_cast at hc
          simp only [Nat.cast_zero, Nat.cast_one, Nat.cast_ofNat] at p0 p1 p2 p3 p4 p5
          simp only [p0, p1, p2, p3, p4, p5] at hc
          refine ⟨rfl, q2, q5, ?_, ?_, ?_⟩
          · rcases strGet_cases pd "n_cells" with ⟨v, hv, -⟩ | ⟨-, hv⟩
            · exact ⟨v, hv⟩
            · simp [hv] at hc
          · rw [← (C50_keys lrd).2]
            cases hl : learningRateFn lrd with
            | ok lr => exact ⟨lr, rfl⟩
            | error e =>
              rcases strGet_cases pd "n_cells" with ⟨v, -, hv⟩ | ⟨-, hv⟩ <;> simp [hv, hl] at hc
          · rintro rfl
            rcases strGet_cases pd "n_cells" with ⟨v, -, hv⟩ | ⟨-, hv⟩
            · cases hl : learningRateFn lrd with
              | ok lr =>
                have : layerSpecs [] act = .error .indexError := rfl
                simp [hv, hl, this] at hc
              | error e => simp [hv, hl] at hc
            · simp [hv] at hc
        · simp only [Nat.cast_ofNat] at p5
          rw [p5] at hc
          revert hc
          cases pyIndex ofm 0 <;> cases pyIndex ofm 1 <;> cases pyIndex ofm 2 <;> cases pyIndex its 0 <;>
            cases pyIndex its 1 <;> simp
      · simp only [Nat.cast_ofNat] at p2
        rw [p2] at hc
        revert hc
        cases pyIndex ofm 0 <;> cases pyIndex ofm 1 <;> simp
  · rintro ⟨rfl, h1, h2, ⟨n, h3⟩, h4, h5⟩
    obtain ⟨lr, h4⟩ := (C50_keys lrd).2.mpr h4
    obtain ⟨ls, h6⟩ := layerSpecs_ok_of_ne_nil ld act h5
    obtain ⟨a0, p0⟩ := (pyIndex_ok_iff ofm 0).mpr (by omega)
    obtain ⟨a1, p1⟩ := (pyIndex_ok_iff ofm 1).mpr (by omega)
    obtain ⟨a2, p2⟩ := (pyIndex_ok_iff ofm 2).mpr (by omega)
    obtain ⟨a3, p3⟩ := (pyIndex_ok_iff its 0).mpr (by omega)
    obtain ⟨a4, p4⟩ := (pyIndex_ok_iff its 1).mpr (by omega)
    obtain ⟨a5, p5⟩ := (pyIndex_ok_iff its 2).mpr (by omega)
    obtain ⟨a6, p6⟩ := (pyIndex_ok_iff ld 0).mpr (List.length_pos_iff.mpr h5)
    simp only [Nat.cast_zero, Nat.cast_one, Nat.cast_ofNat] at p0 p1 p2 p3 p4 p5 p6
    have h3' := (strGet_ok pd "n_cells" n).mpr h3
    have hc : ∃ core, modelCore learningRateFn ld lrd pd lf its ofm ffl (true, dt) att act hess = .ok core := by
      unfold modelCore
      simp only [bind, Except.bind, pure, Except.pure, Bool.true_eq_false, if_false, p0, p1, p2, p3, p4, p5,
        p6, h3', h4, h6]
      exact ⟨_, rfl⟩
    obtain ⟨core, hc⟩ := hc
    exact ⟨_, initDense_of kwargs _ _ _ _ _ _ _ _ _ _ _ _ core hb hc⟩

theorem bindKwargs_error {α : Type} (params : List (String × Option α)) (kwargs : List (String × α)) (e : PyErr)
    (h : bindKwargs params kwargs = .error e) : e = .typeError := by
  unfold bindKwargs at h
  split_ifs at h with hany
  · exact (Except.error.inj h).symm
  · clear hany
    induction params with
    | nil => cases h
    | cons p ps ih =>
      revert h
      unfold mapE
      cases kwargs.lookup p.1 with
      | some a =>
        simp only
        split
        · rename_i hm
          intro he
          rw [Except.error.inj he] at hm
          exact ih hm
        · simp
      | none =>
        cases p.2 with
        | none => simp only; exact fun he => (Except.error.inj he).symm
        | some a =>
          simp only
          split
          · rename_i hm
            intro he
            rw [Except.error.inj he] at hm
            exact ih hm
          · simp

/-- An invalid data type is a `TypeError`, whatever the other arguments. -/
theorem C64_dtype (kwargs : List (String × MVal T)) (name : String)
    (h : kwargs.lookup "tensor_dtype" = some (.dtype false name)) : initDense kwargs = .error .typeError := by
  unfold initDense
  cases hb : bindKwargs (denseParams T) kwargs with
  | error e =>
    rw [bindKwargs_error _ _ _ hb]
    rfl
  | ok args =>
    have f := bindKwargs_value _ _ _ hb
    simp only [bind, Except.bind, pure, Except.pure, throw, throwThe, MonadExceptOf.throw]
    split
    · rename_i b dt att act hess
      simp only [denseParams, List.forall₂_cons, h, Option.some_or, Option.some.injEq, MVal.dtype.injEq] at f
      obtain ⟨-, -, -, -, -, -, -, ⟨rfl, -⟩, -⟩ := f
      simp [modelCore, bind, Except.bind, throw, throwThe, MonadExceptOf.throw]
    · rfl

end

/-! ## A concrete call -/

/-- A call as in `hyperparameter_tuning/objective.py:111-126`, tensors by their names. -/
noncomputable def demoKwargs : List (String × MVal String) :=
  [("layer_dims", .dims [2, 30, 30, 1]),
   ("learning_rate_dict", .lr [("initial_learning_rate", .num 0.003), ("use_lr_scheduler", .bool true),
     ("decay_steps", .num 1000), ("decay_rate", .num 0.99), ("staircase", .bool true)]),
   ("params_dict", .params [("n_cells", 16)]), ("loss_function", .obj "pde_loss_poisson"),
   ("input_tensors_list", .objs ["x_pde_list", "train_dirichlet_input", "train_dirichlet_output"]),
   ("orig_factor_matrices", .objs ["shape_val_mat_list", "grad_x_mat_list", "grad_y_mat_list"]),
   ("force_function_list", .obj "forcing_function_list"), ("tensor_dtype", .dtype true "float32")]

theorem demo_bind : bindKwargs (denseParams String) demoKwargs = .ok [.dims [2, 30, 30, 1],
    .lr [("initial_learning_rate", .num 0.003), ("use_lr_scheduler", .bool true),
     ("decay_steps", .num 1000), ("decay_rate", .num 0.99), ("staircase", .bool true)],
    .params [("n_cells", 16)], .obj "pde_loss_poisson",
    .objs ["x_pde_list", "train_dirichlet_input", "train_dirichlet_output"],
    .objs ["shape_val_mat_list", "grad_x_mat_list", "grad_y_mat_list"], .obj "forcing_function_list",
    .dtype true "float32", .bool false, .str "tanh", .bool false] := by
  simp [bindKwargs, denseParams, demoKwargs, mapE, List.lookup]

/-- The call succeeds, so the theorems of this file apply to it. -/
example : ∃ m, initDense demoKwargs = .ok m ∧ initDense (getConfigDense [] m) = .ok m ∧
    m.core.dirichletInput = "train_dirichlet_input" := by
  obtain ⟨m, hm⟩ := (C64_accepts demoKwargs _ _ _ _ _ _ _ _ _ _ _ _ demo_bind).mpr
    ⟨rfl, by simp, by simp, ⟨16, by simp [List.lookup]⟩, by simp [List.lookup], by simp⟩
  refine ⟨m, hm, (C52_dense demoKwargs m hm [] (by simp)).1, ?_⟩
  exact (C64_wiring demoKwargs m hm "shape_val_mat_list" "grad_x_mat_list" "grad_y_mat_list" "x_pde_list"
    "train_dirichlet_input" "train_dirichlet_output" "forcing_function_list" [] [] [("n_cells", 16)]
    [2, 30, 30, 1] _ (by simp [demoKwargs, List.lookup]) (by simp [demoKwargs, List.lookup])
    (by simp [demoKwargs, List.lookup]) (by simp [demoKwargs, List.lookup])
    (by simp [demoKwargs]) (by simp [demoKwargs, List.lookup]; rfl)).2.2.2.2.1

/-- With a constraint function the hard model is not reproduced. -/
example : ∃ m, initHard (demoKwargs ++ [("hard_constraint_function", .obj "g")]) = .ok m ∧
    initHard (getConfigHard [] m) ≠ .ok m := by
  have hb : bindKwargs (hardParams String) (demoKwargs ++ [("hard_constraint_function", .obj "g")])
      = .ok [.dims [2, 30, 30, 1],
    .lr [("initial_learning_rate", .num 0.003), ("use_lr_scheduler", .bool true),
     ("decay_steps", .num 1000), ("decay_rate", .num 0.99), ("staircase", .bool true)],
    .params [("n_cells", 16)], .obj "pde_loss_poisson",
    .objs ["x_pde_list", "train_dirichlet_input", "train_dirichlet_output"],
    .objs ["shape_val_mat_list", "grad_x_mat_list", "grad_y_mat_list"], .obj "forcing_function_list",
    .dtype true "float32", .bool false, .str "tanh", .bool false, .obj "g"] := by
    simp [bindKwargs, hardParams, denseParams, demoKwargs, mapE, List.lookup]
  obtain ⟨lr, hlr⟩ := (C50_keys_staircase [("initial_learning_rate", .num 0.003),
    ("use_lr_scheduler", .bool true), ("decay_steps", .num 1000), ("decay_rate", .num 0.99),
    ("staircase", .bool true)]).2.mpr (by simp [List.lookup])
  obtain ⟨core, hc⟩ : ∃ core, modelCore learningRateFnStaircase [2, 30, 30, 1]
      [("initial_learning_rate", .num 0.003), ("use_lr_scheduler", .bool true), ("decay_steps", .num 1000),
        ("decay_rate", .num 0.99), ("staircase", .bool true)] [("n_cells", 16)] "pde_loss_poisson"
      ["x_pde_list", "train_dirichlet_input", "train_dirichlet_output"]
      ["shape_val_mat_list", "grad_x_mat_list", "grad_y_mat_list"] "forcing_function_list"
      (true, "float32") false "tanh" false = .ok core := by
    unfold modelCore
    have hn : strGet [("n_cells", (16 : ℤ))] "n_cells" = .ok 16 := rfl
    rw [hlr, hn]
    exact ⟨_, rfl⟩
  have hm : initHard (demoKwargs ++ [("hard_constraint_function", .obj "g")]) = .ok ⟨core, some "g"⟩ := by
    unfold initHard
    rw [hb]
    simp only [bind, Except.bind, hardOf, hc, pure, Except.pure]
  exact ⟨_, hm, fun he => by simpa using (C52_hard_lost _ _ hm).mp he⟩

end FastVPINNs
