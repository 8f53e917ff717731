import Verif.Model.Training
import Verif.Props.Train
import Mathlib.Analysis.Calculus.LocalExtr.Basic

/-! # Lemmas on the weight update -/

namespace FastVPINNs

open Spec

/-! ## One update of all variables -/

lemma zip_map_self {α β : Type} (g : β → α) (l : List β) : List.zip (l.map g) l = l.map fun v => (g v, v) := by
  induction l with
  | nil => rfl
  | cons a l ih => simp [ih]

/-- New first moment. -/
noncomputable def adamM (m g : ℝ) : ℝ := m + (g - m) * (1 - 9 / 10)

/-- New second moment. -/
noncomputable def adamV (v g : ℝ) : ℝ := v + (g ^ 2 - v) * (1 - 999 / 1000)

lemma foldl_update (alpha : ℝ) (g : Var → ℝ) (vars : List Var) (hn : vars.Nodup)
    (s : (Var → ℝ) × (Var → ℝ) × Weights) :
    (vars.map fun v => (g v, v)).foldl (fun acc p => adamUpdateVar alpha p.1 p.2 acc) s
      = (fun x => if x ∈ vars then adamM (s.1 x) (g x) else s.1 x,
         fun x => if x ∈ vars then adamV (s.2.1 x) (g x) else s.2.1 x,
         fun x => if x ∈ vars then s.2.2 x - adamM (s.1 x) (g x) * alpha
           / (Real.sqrt (adamV (s.2.1 x) (g x)) + 1 / 10000000) else s.2.2 x) := by
  induction vars generalizing s with
  | nil => simp
  | cons a l ih =>
    have hnl := (List.nodup_cons.mp hn)
    rw [List.map_cons, List.foldl_cons, ih hnl.2]
    have key : ∀ x, x ∈ l → x ≠ a := fun x hx e => hnl.1 (e ▸ hx)
    refine Prod.ext ?_ (Prod.ext ?_ ?_)
    · funext x
      by_cases hx : x ∈ l
      · simp [hx, adamUpdateVar, key x hx]
      · by_cases e : x = a
        · subst e
          simp [hx, adamUpdateVar, adamM]
        · simp [hx, adamUpdateVar, e]
    · funext x
      by_cases hx : x ∈ l
      · simp [hx, adamUpdateVar, key x hx]
      · by_cases e : x = a
        · subst e
          simp [hx, adamUpdateVar, adamV]
        · simp [hx, adamUpdateVar, e]
    · funext x
      by_cases hx : x ∈ l
      · simp [hx, adamUpdateVar, key x hx]
      · by_cases e : x = a
        · subst e
          simp [hx, adamUpdateVar, adamM, adamV]
        · simp [hx, adamUpdateVar, e]

/-- The optimizer step, entry by entry. -/
lemma applyGradients_eq (lr : LearningRate) (g : Var → ℝ) (vars : List Var) (hn : vars.Nodup)
    (s : TrainState) :
    applyGradients lr (List.zip (vars.map g) vars) s
      = ⟨fun x => if x ∈ vars then s.weights x - adamM (s.adam.m x) (g x) * adamAlpha lr s.adam.iterations
           / (Real.sqrt (adamV (s.adam.v x) (g x)) + 1 / 10000000) else s.weights x,
         ⟨fun x => if x ∈ vars then adamM (s.adam.m x) (g x) else s.adam.m x,
          fun x => if x ∈ vars then adamV (s.adam.v x) (g x) else s.adam.v x, s.adam.iterations + 1⟩⟩ := by
  unfold applyGradients
  rw [zip_map_self]
  simp only [foldl_update _ g vars hn]

/-! ## The variables are distinct -/

lemma mem_layerVars {k n : ℕ} {specs : List LayerSpec} {v : Var} (h : v ∈ layerVars k n specs) :
    (∃ l i j, k ≤ l ∧ v = .kernel l i j) ∨ (∃ l j, k ≤ l ∧ v = .bias l j) := by
  induction specs generalizing k n with
  | nil => simp [layerVars] at h
  | cons s rest ih =>
    simp only [layerVars, List.mem_append, List.mem_flatMap, List.mem_map, List.mem_range] at h
    rcases h with (⟨i, -, j, -, rfl⟩ | ⟨j, -, rfl⟩) | h
    · exact Or.inl ⟨k, i, j, le_rfl, rfl⟩
    · exact Or.inr ⟨k, j, le_rfl, rfl⟩
    · rcases ih h with ⟨l, i, j, hl, e⟩ | ⟨l, j, hl, e⟩
      · exact Or.inl ⟨l, i, j, by omega, e⟩
      · exact Or.inr ⟨l, j, by omega, e⟩

lemma layerVars_nodup (k n : ℕ) (specs : List LayerSpec) : (layerVars k n specs).Nodup := by
  induction specs generalizing k n with
  | nil => simp [layerVars]
  | cons s rest ih =>
    simp only [layerVars]
    refine List.Nodup.append (List.Nodup.append ?_ ?_ ?_) (ih _ _) ?_
    · rw [List.nodup_flatMap]
      refine ⟨fun i _ => List.Nodup.map (fun a b h => by simpa using h) List.nodup_range, ?_⟩
      refine List.Nodup.pairwise_of_forall_ne List.nodup_range fun i _ i' _ hne => ?_
      rw [Function.onFun, List.disjoint_left]
      intro v h1 h2
      obtain ⟨j, -, rfl⟩ := List.mem_map.mp h1
      obtain ⟨j', -, e⟩ := List.mem_map.mp h2
      injection e with e1 e2 e3
      exact hne e2.symm
    · exact List.Nodup.map (fun a b h => by simpa using h) List.nodup_range
    · rw [List.disjoint_left]
      intro v h1 h2
      obtain ⟨j, -, rfl⟩ := List.mem_map.mp h2
      simp at h1
    · rw [List.disjoint_left]
      intro v h1 h2
      rcases mem_layerVars h2 with ⟨l, i, j, hl, rfl⟩ | ⟨l, j, hl, rfl⟩
      · simp at h1
        omega
      · simp at h1
        omega

lemma trainableVariables_nodup (n : ℕ) (specs : List LayerSpec) (keys : List String) (h : keys.Nodup) :
    (trainableVariables n specs keys).Nodup := by
  refine List.Nodup.append (layerVars_nodup _ _ _) (List.Nodup.map (fun a b h => by simpa using h) h) ?_
  rw [List.disjoint_left]
  intro v h1 h2
  obtain ⟨key, -, rfl⟩ := List.mem_map.mp h2
  rcases mem_layerVars h1 with ⟨_, _, _, _, e⟩ | ⟨_, _, _, e⟩ <;> exact Var.noConfusion e

/-! ## Losses are not negative -/

section
variable {nc nt nq nIn nBd dout : ℕ} (M : ModelData nc nt nq nIn nBd)

lemma sum_runLoss_nonneg (kind : LossKind) (V GX GY : Fin nc → Fin nt → Fin nq → ℝ)
    (u ux uy : Fin nc → Fin nq → ℝ) (F : Fin nt → Fin nc → ℝ) (p ip : ParamDict)
    (cf : List (Fin nc → Fin nq → ℝ)) (R : Fin nc → ℝ)
    (h : runLoss kind V GX GY u ux uy F p ip cf = .ok R) : 0 ≤ ∑ c, R c := by
  obtain ⟨a, b, r, -, hR⟩ := (runLoss_ok_iff kind V GX GY u ux uy F p ip cf R).1 h
  refine Finset.sum_nonneg fun c _ => ?_
  rw [hR]
  exact meanSq_nonneg _

lemma meanSquareError_nonneg {n : ℕ} (pred : Fin n → Fin dout → ℝ) (actual : Fin n → ℝ) (j : Fin dout) :
    0 ≤ meanSquareError pred actual j := by
  rw [meanSquareError_eq]
  exact meanSq_nonneg _

lemma cellsResidual_ok (L : LossFunction nc nt nq) (net : Network dout) (p : ParamDict)
    (extra : List (String × LossArg nc nt nq)) (R : Fin nc → ℝ)
    (h : cellsResidual L M net p extra = .ok R) :
    ∃ v gx gy, L.call (lossKwargs M v gx gy p ++ extra) = .ok R := by
  unfold cellsResidual at h
  dsimp only at h
  split at h
  · exact ⟨_, _, _, h⟩
  all_goals exact absurd h (by simp)

lemma lit_zero_add (x : ℝ) : (0.0 : ℝ) + x = x := by
  have : (0.0 : ℝ) = 0 := by norm_num
  rw [this, zero_add]

variable (act : String → ℝ → ℝ) (attention : Batch → Except PyErr Batch) (useAttention : Bool)
  (inDim : ℕ) (specs : List LayerSpec) (beta : ℝ) (p : ParamDict) (θ : Weights)

lemma forwardDense_nonneg (kind : LossKind) (hk : kind.forward) (hβ : 0 ≤ beta) :
    0 ≤ (forwardDense (lossOf kind nc nt nq) M act attention useAttention inDim specs dout beta p).total θ := by
  unfold Forward.total forwardDense trainStepDense
  dsimp only
  cases h : cellsResidual (lossOf kind nc nt nq) M
      (networkAt act attention useAttention inDim specs dout θ) p [] with
  | error e => simp
  | ok R =>
    obtain ⟨v, gx, gy, hc⟩ := cellsResidual_ok M _ _ _ _ _ h
    rw [forward_call hk] at hc
    have := sum_runLoss_nonneg _ _ _ _ _ _ _ _ _ _ _ _ hc
    refine Finset.sum_nonneg fun j _ => ?_
    rw [lit_zero_add]
    exact add_nonneg this (mul_nonneg hβ (meanSquareError_nonneg _ _ _))

lemma forwardHard_nonneg (kind : LossKind) (hk : kind.forward) (hard : Batch → Batch → Batch) :
    0 ≤ (forwardHard (lossOf kind nc nt nq) M act attention useAttention inDim specs dout beta p hard).total
      θ := by
  unfold Forward.total forwardHard trainStepHard
  dsimp only
  cases h : cellsResidual (lossOf kind nc nt nq) M
      (networkHard act attention useAttention (layersAt θ 0 inDim specs) hard dout) p [] with
  | error e => simp
  | ok R =>
    obtain ⟨v, gx, gy, hc⟩ := cellsResidual_ok M _ _ _ _ _ h
    rw [forward_call hk] at hc
    have := sum_runLoss_nonneg _ _ _ _ _ _ _ _ _ _ _ _ hc
    simp only
    rw [lit_zero_add]
    exact this

lemma forwardInverse_nonneg (hβ : 0 ≤ beta) {nS : ℕ} (sp : Fin nS → ℝ × ℝ) (sv : Fin nS → ℝ)
    (keys : List String) :
    0 ≤ (forwardInverse (lossPoissonInverse nc nt nq) M act attention useAttention inDim specs dout beta p
      sp sv keys).total θ := by
  unfold Forward.total forwardInverse trainStepInverse
  dsimp only
  cases h : cellsResidual (lossPoissonInverse nc nt nq) M
      (networkAt act attention useAttention inDim specs dout θ) p
      [("inverse_params_dict", .params (inverseAt θ keys))] with
  | error e => simp
  | ok R =>
    obtain ⟨v, gx, gy, hc⟩ := cellsResidual_ok M _ _ _ _ _ h
    have hc' : runLoss .poissonInverse M.preMultiplierVal M.preMultiplierGradX M.preMultiplierGradY v gx gy
        M.forceMatrix p (inverseAt θ keys) [] = .ok R := hc
    have := sum_runLoss_nonneg _ _ _ _ _ _ _ _ _ _ _ _ hc'
    refine Finset.sum_nonneg fun j _ => ?_
    rw [lit_zero_add]
    exact add_nonneg (add_nonneg this (mul_nonneg hβ (meanSquareError_nonneg _ _ _)))
      (mul_nonneg (by norm_num) (meanSquareError_nonneg _ _ _))

lemma forwardInverseDomain_nonneg (hβ : 0 ≤ beta) {nS : ℕ} (sp : Fin nS → ℝ × ℝ) (sv : Fin nS → ℝ) :
    0 ≤ (forwardInverseDomain (lossCd2dInverseDomain nc nt nq) M act attention useAttention inDim specs dout
      beta p sp sv).total θ := by
  unfold Forward.total forwardInverseDomain
  cases h : trainStepInverseDomain (lossCd2dInverseDomain nc nt nq) M sp sv
      (networkAt act attention useAttention inDim specs dout θ) beta p with
  | error e => simp
  | ok out =>
    unfold trainStepInverseDomain at h
    split at h
    · dsimp only at h
      split at h
      · rename_i gx gy v k _ _ _ _
        split at h
        · exact absurd h (by simp)
        · rename_i R hc
          have hc' : runLoss .cd2dInverseDomain M.preMultiplierVal M.preMultiplierGradX M.preMultiplierGradY
              v gx gy M.forceMatrix p none [k] = .ok R := hc
          have := sum_runLoss_nonneg _ _ _ _ _ _ _ _ _ _ _ _ hc'
          have ho := Except.ok.inj h
          subst ho
          refine Finset.sum_nonneg fun j _ => ?_
          dsimp only
          rw [lit_zero_add]
          exact add_nonneg (add_nonneg this (mul_nonneg hβ (meanSquareError_nonneg _ _ _)))
            (mul_nonneg (by norm_num) (meanSquareError_nonneg _ _ _))
      all_goals exact absurd h (by simp)
    · exact absurd h (by simp)

end

/-! ## Zero loss -/

lemma lossGradient_eq_zero {α : Type} (fwd : Forward α) (hpos : ∀ θ, 0 ≤ fwd.total θ) (θ : Weights)
    (h0 : fwd.total θ = 0) (v : Var) : lossGradient fwd θ v = 0 := by
  unfold lossGradient
  refine IsLocalMin.deriv_eq_zero (Filter.Eventually.of_forall fun t => ?_)
  dsimp only
  rw [Function.update_eq_self, h0]
  exact hpos _

/-- A step at a zero of a non-negative loss changes no weight and keeps the first moments zero. -/
lemma trainStepWith_zero {α : Type} (fwd : Forward α) (hpos : ∀ θ, 0 ≤ fwd.total θ) (vars : List Var)
    (hn : vars.Nodup) (lr : LearningRate) (s : TrainState) (hm : ∀ x ∈ vars, s.adam.m x = 0) (out : α)
    (h0 : fwd s.weights = .ok (out, 0)) :
    ∃ s', trainStepWith fwd vars lr s = .ok (out, s') ∧ s'.weights = s.weights ∧
      (∀ x ∈ vars, s'.adam.m x = 0) ∧ s'.adam.iterations = s.adam.iterations + 1 := by
  have ht : fwd.total s.weights = 0 := by unfold Forward.total; rw [h0]
  have hg := lossGradient_eq_zero fwd hpos s.weights ht
  unfold trainStepWith
  rw [h0]
  refine ⟨_, rfl, ?_, ?_, ?_⟩ <;> rw [applyGradients_eq _ _ _ hn]
  · funext x
    dsimp only
    split_ifs with hx
    · rw [hm x hx, hg]
      simp [adamM]
    · rfl
  · intro x hx
    dsimp only
    rw [if_pos hx, hm x hx, hg]
    simp [adamM]

lemma trainEpochs_zero {α : Type} (fwd : Forward α) (hpos : ∀ θ, 0 ≤ fwd.total θ) (vars : List Var)
    (hn : vars.Nodup) (lr : LearningRate) (n : ℕ) (s : TrainState) (hm : ∀ x ∈ vars, s.adam.m x = 0)
    (out : α) (h0 : fwd s.weights = .ok (out, 0)) :
    ∃ s', trainEpochs (trainStepWith fwd vars lr) n s = .ok (List.replicate n out, s') ∧
      s'.weights = s.weights ∧ s'.adam.iterations = s.adam.iterations + n := by
  induction n generalizing s with
  | zero => exact ⟨s, rfl, rfl, rfl⟩
  | succ n ih =>
    obtain ⟨s1, h1, h2, h3, h4⟩ := trainStepWith_zero fwd hpos vars hn lr s hm out h0
    obtain ⟨s2, h5, h6, h7⟩ := ih s1 h3 (by rw [h2]; exact h0)
    refine ⟨s2, ?_, by rw [h6, h2], by rw [h7, h4]; omega⟩
    simp only [trainEpochs, h1, h5, List.replicate_succ]

end FastVPINNs
