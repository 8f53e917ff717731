import Verif.Spec.Trainable
import Verif.Props.Training
import Mathlib.Analysis.SpecialFunctions.Artanh

/-! # C89: the weights that are trained are those of the network -/

namespace FastVPINNs

open Spec

/-! ## Which numbers they are -/

lemma mem_layerVars_iff (k n : ℕ) (specs : List LayerSpec) (v : Var) :
    v ∈ layerVars k n specs ↔
      match v with
      | .kernel l i j => k ≤ l ∧ l - k < specs.length ∧ i < (n :: specs.map LayerSpec.units).getD (l - k) 0 ∧
          j < (n :: specs.map LayerSpec.units).getD (l - k + 1) 0
      | .bias l j => k ≤ l ∧ l - k < specs.length ∧ j < (n :: specs.map LayerSpec.units).getD (l - k + 1) 0
      | .inverse _ => False := by
  induction specs generalizing k n with
  | nil => cases v <;> simp [layerVars]
  | cons s rest ih =>
    simp only [layerVars, List.mem_append, ih]
    cases v with
    | kernel l i j =>
      simp only [List.mem_flatMap, List.mem_map, List.mem_range, Var.kernel.injEq, reduceCtorEq, and_false,
        exists_false, or_false]
      constructor
      · rintro (⟨i', hi, j', hj, rfl, rfl, rfl⟩ | ⟨h1, h2, h3, h4⟩)
        · simp [hi, hj]
        · obtain ⟨m, rfl⟩ : ∃ m, l = k + 1 + m := ⟨l - (k + 1), by omega⟩
          have e1 : k + 1 + m - (k + 1) = m := by omega
          have e2 : k + 1 + m - k = m + 1 := by omega
          rw [e1] at h2 h3 h4
          rw [e2]
          exact ⟨by omega, by simpa using h2, by simpa using h3, by simpa using h4⟩
      · rintro ⟨h1, h2, h3, h4⟩
        rcases Nat.eq_or_lt_of_le h1 with rfl | h1
        · left
          simp at h3 h4
          exact ⟨i, h3, j, h4, rfl, rfl, rfl⟩
        · right
          obtain ⟨m, rfl⟩ : ∃ m, l = k + 1 + m := ⟨l - (k + 1), by omega⟩
          have e1 : k + 1 + m - (k + 1) = m := by omega
          have e2 : k + 1 + m - k = m + 1 := by omega
          rw [e2] at h2 h3 h4
          rw [e1]
          exact ⟨by omega, by simpa using h2, by simpa using h3, by simpa using h4⟩
    | bias l j =>
      simp only [List.mem_flatMap, List.mem_map, List.mem_range, Var.bias.injEq, reduceCtorEq, and_false,
        exists_false, false_or]
      constructor
      · rintro (⟨j', hj, rfl, rfl⟩ | ⟨h1, h2, h4⟩)
        · simp [hj]
        · obtain ⟨m, rfl⟩ : ∃ m, l = k + 1 + m := ⟨l - (k + 1), by omega⟩
          have e1 : k + 1 + m - (k + 1) = m := by omega
          have e2 : k + 1 + m - k = m + 1 := by omega
          rw [e1] at h2 h4
          rw [e2]
          exact ⟨by omega, by simpa using h2, by simpa using h4⟩
      · rintro ⟨h1, h2, h4⟩
        rcases Nat.eq_or_lt_of_le h1 with rfl | h1
        · left
          simp at h4
          exact ⟨j, h4, rfl, rfl⟩
        · right
          obtain ⟨m, rfl⟩ : ∃ m, l = k + 1 + m := ⟨l - (k + 1), by omega⟩
          have e1 : k + 1 + m - (k + 1) = m := by omega
          have e2 : k + 1 + m - k = m + 1 := by omega
          rw [e2] at h2 h4
          rw [e1]
          exact ⟨by omega, by simpa using h2, by simpa using h4⟩
    | inverse key => simp

lemma layerVars_length (k n : ℕ) (specs : List LayerSpec) :
    (layerVars k n specs).length = ∑ l ∈ Finset.range specs.length,
      ((n :: specs.map LayerSpec.units).getD l 0 + 1) * (n :: specs.map LayerSpec.units).getD (l + 1) 0 := by
  induction specs generalizing k n with
  | nil => simp [layerVars]
  | cons s rest ih =>
    simp only [layerVars, List.length_append, ih, List.length_flatMap, List.length_map, List.length_range,
      List.length_cons, Finset.sum_range_succ']
    simp
    ring

lemma specs_units {dims : List ℕ} {a : String} {specs : List LayerSpec} (h : 2 ≤ dims.length)
    (hs : layerSpecs dims a = .ok specs) :
    dims.getD 0 0 :: specs.map LayerSpec.units = dims ∧ specs.length + 1 = dims.length := by
  obtain ⟨specs', h1, h2, h3⟩ := C51_layers dims a h
  obtain rfl : specs' = specs := Except.ok.inj (h1.symm.trans hs)
  refine ⟨List.ext_getElem (by simpa using h2) fun k hk1 hk2 => ?_, h2⟩
  cases k with
  | zero => simp [hk2]
  | succ k =>
    rw [List.getElem_cons_succ, List.getElem_map, h3 k (by simpa using hk1) hk2]

/-- **C89** (which).  For the layer widths `dims` the trainable variables are the entries of kernels of shape
`dims[k] × dims[k+1]` and biases of length `dims[k+1]`, and the unknown parameters: each of them once, and
nothing else. -/
theorem C89_variables (dims : List ℕ) (a : String) (h : 2 ≤ dims.length) (specs : List LayerSpec)
    (hs : layerSpecs dims a = .ok specs) (keys : List String) (hkeys : keys.Nodup) :
    (∀ v, v ∈ trainableVariables (dims.getD 0 0) specs keys ↔ IsWeight dims keys v) ∧
    (trainableVariables (dims.getD 0 0) specs keys).Nodup ∧
    (trainableVariables (dims.getD 0 0) specs keys).length
      = ∑ k ∈ Finset.range (dims.length - 1), (dims.getD k 0 + 1) * dims.getD (k + 1) 0 + keys.length := by
  obtain ⟨hu, hl⟩ := specs_units h hs
  refine ⟨fun v => ?_, trainableVariables_nodup _ _ _ hkeys, ?_⟩
  · unfold trainableVariables
    rw [List.mem_append, mem_layerVars_iff, hu]
    cases v with
    | kernel k i j => simp [IsWeight]; omega
    | bias k j => simp [IsWeight]; omega
    | inverse key => simp [IsWeight]
  · unfold trainableVariables
    rw [List.length_append, layerVars_length, hu, List.length_map]
    have : dims.length - 1 = specs.length := by omega
    rw [this]

/-! ## Nothing else is read -/

lemma layersAt_congr (θ θ' : Weights) (k n : ℕ) (specs : List LayerSpec)
    (h : ∀ x ∈ layerVars k n specs, θ' x = θ x) : layersAt θ' k n specs = layersAt θ k n specs := by
  induction specs generalizing k n with
  | nil => rfl
  | cons s rest ih =>
    simp only [layerVars, List.mem_append, List.mem_flatMap, List.mem_map, List.mem_range] at h
    simp only [layersAt]
    rw [ih (k + 1) s.units fun x hx => h x (Or.inr hx)]
    have e1 : (fun (i : Fin n) (j : Fin s.units) => θ' (.kernel k i j))
        = fun (i : Fin n) (j : Fin s.units) => θ (.kernel k i j) := by
      funext i j
      exact h _ (Or.inl (Or.inl ⟨i, i.2, j, j.2, rfl⟩))
    have e2 : (fun (j : Fin s.units) => θ' (.bias k j)) = fun (j : Fin s.units) => θ (.bias k j) := by
      funext j
      exact h _ (Or.inl (Or.inr ⟨j, j.2, rfl⟩))
    rw [e1, e2]

lemma inverseAt_congr (θ θ' : Weights) (keys : List String)
    (h : ∀ key ∈ keys, θ' (.inverse key) = θ (.inverse key)) : inverseAt θ' keys = inverseAt θ keys := by
  unfold inverseAt
  congr 1
  exact List.map_congr_left fun k hk => by rw [h k hk]

/-- What a step computes depends on `vars` only. -/
def ReadsOnly {α : Type} (fwd : Forward α) (vars : List Var) : Prop :=
  ∀ θ θ' : Weights, (∀ x ∈ vars, θ' x = θ x) → fwd θ' = fwd θ

lemma ReadsOnly.gradient {α : Type} {fwd : Forward α} {vars : List Var} (hf : ReadsOnly fwd vars)
    {θ θ' : Weights} (h : ∀ x ∈ vars, θ' x = θ x) {x : Var} (hx : x ∈ vars) :
    lossGradient fwd θ' x = lossGradient fwd θ x := by
  unfold lossGradient
  rw [h x hx]
  congr 1
  funext t
  unfold Forward.total
  rw [hf (Function.update θ x t) (Function.update θ' x t) fun y hy => ?_]
  by_cases e : y = x
  · subst e; simp
  · rw [Function.update_of_ne e, Function.update_of_ne e, h y hy]

lemma ReadsOnly.step {α : Type} {fwd : Forward α} {vars : List Var} (hf : ReadsOnly fwd vars)
    (hn : vars.Nodup) (lr : LearningRate) {s s' : TrainState} (h : AgreeOn vars s s') :
    (∃ e, trainStepWith fwd vars lr s = .error e ∧ trainStepWith fwd vars lr s' = .error e) ∨
    ∃ out t t', trainStepWith fwd vars lr s = .ok (out, t) ∧ trainStepWith fwd vars lr s' = .ok (out, t') ∧
      AgreeOn vars t t' := by
  unfold trainStepWith
  rw [hf s.weights s'.weights h.weights]
  cases fwd s.weights with
  | error e => exact Or.inl ⟨e, rfl, rfl⟩
  | ok o =>
    right
    refine ⟨o.1, _, _, rfl, rfl, ?_⟩
    rw [applyGradients_eq lr _ _ hn, applyGradients_eq lr _ _ hn]
    refine ⟨fun x hx => ?_, fun x hx => ?_, fun x hx => ?_, congrArg (· + 1) h.iterations⟩
    · simp only [if_pos hx]
      rw [hf.gradient h.weights hx, h.weights x hx, h.m x hx, h.v x hx, h.iterations]
    · simp only [if_pos hx]
      rw [hf.gradient h.weights hx, h.m x hx]
    · simp only [if_pos hx]
      rw [hf.gradient h.weights hx, h.v x hx]

lemma trainEpochs_agree {α : Type} (step : TrainState → Except PyErr (α × TrainState)) (vars : List Var)
    (hstep : ∀ s s', AgreeOn vars s s' → (∃ e, step s = .error e ∧ step s' = .error e) ∨
      ∃ out t t', step s = .ok (out, t) ∧ step s' = .ok (out, t') ∧ AgreeOn vars t t')
    (n : ℕ) {s s' : TrainState} (h : AgreeOn vars s s') :
    (∃ e, trainEpochs step n s = .error e ∧ trainEpochs step n s' = .error e) ∨
    ∃ outs t t', trainEpochs step n s = .ok (outs, t) ∧ trainEpochs step n s' = .ok (outs, t') ∧
      AgreeOn vars t t' := by
  induction n generalizing s s' with
  | zero => exact Or.inr ⟨[], s, s', rfl, rfl, h⟩
  | succ n ih =>
    simp only [trainEpochs]
    rcases hstep s s' h with ⟨e, h1, h2⟩ | ⟨out, t, t', h1, h2, h3⟩
    · rw [h1, h2]
      exact Or.inl ⟨e, rfl, rfl⟩
    · rw [h1, h2]
      rcases ih h3 with ⟨e, h4, h5⟩ | ⟨outs, u, u', h4, h5, h6⟩
      · simp only [h4, h5]
        exact Or.inl ⟨e, rfl, rfl⟩
      · simp only [h4, h5]
        exact Or.inr ⟨_, _, _, rfl, rfl, h6⟩

section
variable {nc nt nq nIn nBd : ℕ} (L : LossFunction nc nt nq) (M : ModelData nc nt nq nIn nBd)
  (act : String → ℝ → ℝ) (attention : Batch → Except PyErr Batch) (useAttention : Bool)
  (inDim : ℕ) (specs : List LayerSpec) (dout : ℕ) (beta : ℝ) (p : ParamDict)

lemma layers_of_trainable {keys : List String} {θ θ' : Weights}
    (h : ∀ x ∈ trainableVariables inDim specs keys, θ' x = θ x) :
    layersAt θ' 0 inDim specs = layersAt θ 0 inDim specs :=
  layersAt_congr _ _ _ _ _ fun x hx => h x (List.mem_append_left _ hx)

lemma inverse_of_trainable {keys : List String} {θ θ' : Weights}
    (h : ∀ x ∈ trainableVariables inDim specs keys, θ' x = θ x) : inverseAt θ' keys = inverseAt θ keys :=
  inverseAt_congr _ _ _ fun _ hk => h _ (List.mem_append_right _ (List.mem_map_of_mem hk))

lemma networkAt_of_trainable {keys : List String} {θ θ' : Weights}
    (h : ∀ x ∈ trainableVariables inDim specs keys, θ' x = θ x) :
    networkAt act attention useAttention inDim specs dout θ'
      = networkAt act attention useAttention inDim specs dout θ := by
  unfold networkAt
  rw [layers_of_trainable inDim specs h]

/-- **C89** (nothing else is read).  Two trainings that start with the same trainable variables and the same
optimizer state for them report the same losses in all epochs and end with the same trainable variables, or
fail with the same exception: there is no hidden state.  For each of the four models, with any network, data
and loss function. -/
theorem C89_no_hidden_state (lr : LearningRate) (n : ℕ) (s s' : TrainState) (keys : List String)
    (hkeys : keys.Nodup) {nS : ℕ} (sp : Fin nS → ℝ × ℝ) (sv : Fin nS → ℝ) (hard : Batch → Batch → Batch) :
    (AgreeOn (trainableVariables inDim specs []) s s' →
      SameOutcome (trainableVariables inDim specs []) (trainEpochs (trainStepWith (forwardDense L M act
        attention useAttention inDim specs dout beta p) (trainableVariables inDim specs []) lr) n) s s' ∧
      SameOutcome (trainableVariables inDim specs []) (trainEpochs (trainStepWith (forwardHard L M act
        attention useAttention inDim specs dout beta p hard) (trainableVariables inDim specs []) lr) n) s s' ∧
      SameOutcome (trainableVariables inDim specs []) (trainEpochs (trainStepWith (forwardInverseDomain L M
        act attention useAttention inDim specs dout beta p sp sv) (trainableVariables inDim specs []) lr) n)
        s s') ∧
    (AgreeOn (trainableVariables inDim specs keys) s s' →
      SameOutcome (trainableVariables inDim specs keys) (trainEpochs (trainStepInverseFull L M act attention
        useAttention inDim specs dout beta p sp sv keys lr) n) s s') := by
  have hn := trainableVariables_nodup inDim specs [] List.nodup_nil
  refine ⟨fun h => ⟨?_, ?_, ?_⟩, fun h => ?_⟩
  · refine trainEpochs_agree _ _ (fun t t' ht => ReadsOnly.step (fun θ θ' hθ => ?_) hn lr ht) n h
    unfold forwardDense
    rw [networkAt_of_trainable act attention useAttention inDim specs dout hθ]
  · refine trainEpochs_agree _ _ (fun t t' ht => ReadsOnly.step (fun θ θ' hθ => ?_) hn lr ht) n h
    unfold forwardHard
    rw [layers_of_trainable inDim specs hθ]
  · refine trainEpochs_agree _ _ (fun t t' ht => ReadsOnly.step (fun θ θ' hθ => ?_) hn lr ht) n h
    unfold forwardInverseDomain
    rw [networkAt_of_trainable act attention useAttention inDim specs dout hθ]
  · refine trainEpochs_agree _ _ (fun t t' ht => ?_) n h
    unfold trainStepInverseFull
    have hf : ReadsOnly (forwardInverse L M act attention useAttention inDim specs dout beta p sp sv keys)
        (trainableVariables inDim specs keys) := by
      intro θ θ' hθ
      unfold forwardInverse
      rw [networkAt_of_trainable act attention useAttention inDim specs dout hθ,
        inverse_of_trainable inDim specs hθ]
    rcases hf.step (trainableVariables_nodup _ _ _ hkeys) lr ht with ⟨e, h1, h2⟩ | ⟨out, u, u', h1, h2, h3⟩
    · rw [h1, h2]
      exact Or.inl ⟨e, rfl, rfl⟩
    · rw [h1, h2]
      refine Or.inr ⟨_, u, u', rfl, ?_, h3⟩
      dsimp only
      rw [inverse_of_trainable inDim specs h3.weights]

end

/-! ## Each of them is used -/

/-- One layer with activation `g` on a row. -/
lemma applyLayer_row (act : String → ℝ → ℝ) (n m : ℕ) (K : Fin n → Fin m → ℝ) (b : Fin m → ℝ)
    (s : Option String) (x : List ℝ) (hx : x.length = n) (g : ℝ → ℝ)
    (hg : g = match s with | none => id | some a => act a) :
    applyLayer act ⟨n, m, K, b, s⟩ x
      = .ok (List.ofFn fun j => g ((∑ i : Fin n, x.getD i 0 * K i j) + b j)) := by
  unfold applyLayer
  rw [dif_pos hx]
  congr 2
  funext j
  have e : (∑ i : Fin n, x[i.val]'(by omega) * K i j) = ∑ i : Fin n, x.getD i 0 * K i j :=
    Finset.sum_congr rfl fun i _ => by rw [getD_lt _ _ _ (by omega)]
  subst hg
  dsimp only
  rw [e]
  cases s <;> rfl

/-- Kernels and biases zero in layer `k` (biases `b`), the others as in `θ`. -/
noncomputable def flatLayer (k : ℕ) (b : ℝ) (θ : Weights) : Weights
  | .kernel l i j => if l = k then 0 else θ (.kernel l i j)
  | .bias l j => if l = k then b else θ (.bias l j)
  | .inverse key => θ (.inverse key)

/-- Kernels one, biases zero. -/
def allOnes : Weights
  | .kernel _ _ _ => 1
  | .bias _ _ => 0
  | .inverse _ => 0

/-- The layers from the one on with weights one notice every change of the sum of their inputs. -/
lemma allOnes_injective (act : String → ℝ → ℝ) (k n : ℕ) (specs : List LayerSpec)
    (hu : ∀ s ∈ specs, 0 < s.units) (hact : ∀ s ∈ specs, Function.Injective (actOf act s.activation)) :
    ∃ y : List ℝ → List ℝ,
      (∀ x, x.length = n → applyLayers act (layersAt allOnes k n specs) [x] = .ok [y x]) ∧
      ∀ x x', x.length = n → x'.length = n → y x = y x' → x.sum = x'.sum := by
  induction specs generalizing k n with
  | nil => exact ⟨id, fun x _ => rfl, fun x x' _ _ h => congrArg List.sum h⟩
  | cons s rest ih =>
    obtain ⟨y, h1, h2⟩ := ih (k + 1) s.units (fun s hs => hu s (List.mem_cons_of_mem _ hs))
      (fun s hs => hact s (List.mem_cons_of_mem _ hs))
    have hrow : ∀ x : List ℝ, x.length = n →
        applyLayer act ⟨n, s.units, fun _ _ => 1, fun _ => 0, s.activation⟩ x
          = .ok (List.replicate s.units (actOf act s.activation x.sum)) := by
      intro x hx
      rw [applyLayer_row act n s.units _ _ s.activation x hx (actOf act s.activation)
        (by cases s.activation <;> rfl)]
      congr 1
      rw [← List.ofFn_const]
      congr 1
      funext j
      congr 1
      simp only [mul_one, add_zero]
      subst hx
      rw [← List.sum_ofFn]
      congr 1
      refine List.ext_getElem (by simp) fun i hi hi' => ?_
      simp
    refine ⟨fun x => y (List.replicate s.units (actOf act s.activation x.sum)), fun x hx => ?_,
      fun x x' hx hx' he => ?_⟩
    · simp only [layersAt, allOnes, applyLayers, mapE, hrow x hx]
      exact h1 _ (by simp)
    · have := h2 _ _ (by simp) (by simp) he
      simp only [List.sum_replicate, nsmul_eq_mul] at this
      have hpos : (s.units : ℝ) ≠ 0 := by
        exact_mod_cast (hu s List.mem_cons_self).ne'
      exact hact s List.mem_cons_self (mul_left_cancel₀ hpos this)

lemma sum_ofFn_injective {m : ℕ} (f : ℝ → Fin m → ℝ) (j : Fin m) (hj : ∀ j' ≠ j, ∀ t t', f t j' = f t' j')
    (hi : Function.Injective fun t => f t j) {t t' : ℝ}
    (h : (List.ofFn (f t)).sum = (List.ofFn (f t')).sum) : t = t' := by
  rw [List.sum_ofFn, List.sum_ofFn, ← Finset.add_sum_erase _ _ (Finset.mem_univ j),
    ← Finset.add_sum_erase _ (f t') (Finset.mem_univ j)] at h
  have e : ∑ x ∈ Finset.univ.erase j, f t x = ∑ x ∈ Finset.univ.erase j, f t' x :=
    Finset.sum_congr rfl fun x hx => hj x (Finset.ne_of_mem_erase hx) t t'
  rw [e] at h
  exact hi (add_right_cancel h)

lemma layerVars_used (act : String → ℝ → ℝ) (k n : ℕ) (specs : List LayerSpec)
    (hu : ∀ s ∈ specs, 0 < s.units) (hact : ∀ s ∈ specs, Function.Injective (actOf act s.activation))
    (v : Var) (hv : v ∈ layerVars k n specs) (x : List ℝ) (hx : x.length = n) (hx0 : ∀ z ∈ x, z ≠ 0) :
    ∃ (θ : Weights) (y : ℝ → List ℝ), Function.Injective y ∧
      ∀ t, applyLayers act (layersAt (Function.update θ v t) k n specs) [x] = .ok [y t] := by
  induction specs generalizing k n x with
  | nil => simp [layerVars] at hv
  | cons s rest ih =>
    have hu' : ∀ s ∈ rest, 0 < s.units := fun s hs => hu s (List.mem_cons_of_mem _ hs)
    have hact' : ∀ s ∈ rest, Function.Injective (actOf act s.activation) :=
      fun s hs => hact s (List.mem_cons_of_mem _ hs)
    have hg := hact s List.mem_cons_self
    simp only [layerVars, List.mem_append] at hv
    rcases hv with hv | hv
    · -- the variable belongs to the first layer
      obtain ⟨y, h1, h2⟩ := allOnes_injective act (k + 1) s.units rest hu' hact'
      have hk : ∀ w ∈ layerVars (k + 1) s.units rest, ∀ t,
          Function.update (flatLayer k 0 allOnes) v t w = allOnes w := by
        intro w hw t
        have hne : w ≠ v := by
          rintro rfl
          simp only [List.mem_flatMap, List.mem_map, List.mem_range] at hv
          rcases mem_layerVars hw with ⟨l, i, j, hl, rfl⟩ | ⟨l, j, hl, rfl⟩
          · simp at hv; omega
          · simp at hv; omega
        rw [Function.update_of_ne hne]
        rcases mem_layerVars hw with ⟨l, i, j, hl, rfl⟩ | ⟨l, j, hl, rfl⟩ <;>
          simp [flatLayer, show l ≠ k by omega]
      have hrow : ∃ f : ℝ → Fin s.units → ℝ,
          (∀ t t', (List.ofFn (f t)).sum = (List.ofFn (f t')).sum → t = t') ∧
          ∀ t, applyLayer act ⟨n, s.units, fun i j => Function.update (flatLayer k 0 allOnes) v t (.kernel k i j),
            fun j => Function.update (flatLayer k 0 allOnes) v t (.bias k j), s.activation⟩ x
              = .ok (List.ofFn (f t)) := by
        refine ⟨fun t j => actOf act s.activation ((∑ i : Fin n, x.getD i 0
          * Function.update (flatLayer k 0 allOnes) v t (.kernel k i j))
          + Function.update (flatLayer k 0 allOnes) v t (.bias k j)), ?_,
          fun t => applyLayer_row act n s.units _ _ s.activation x hx (actOf act s.activation)
            (by cases s.activation <;> rfl)⟩
        simp only [List.mem_flatMap, List.mem_map, List.mem_range] at hv
        rcases hv with ⟨i, hi, j, hj, rfl⟩ | ⟨j, hj, rfl⟩
        · have hval : ∀ t (j' : Fin s.units), (∑ i' : Fin n, x.getD i' 0
              * Function.update (flatLayer k 0 allOnes) (.kernel k i j) t (.kernel k i' j'))
              + Function.update (flatLayer k 0 allOnes) (.kernel k i j) t (.bias k j')
              = if j'.val = j then x.getD i 0 * t else 0 := by
            intro t j'
            rw [Function.update_of_ne (by simp)]
            simp only [flatLayer, if_true, add_zero]
            rw [Finset.sum_eq_single (⟨i, hi⟩ : Fin n)]
            · by_cases e : j'.val = j
              · rw [if_pos e, e, Function.update_self]
              · rw [if_neg e, Function.update_of_ne (by simp [e])]
                simp [flatLayer]
            · intro i' _ hne
              rw [Function.update_of_ne (by simp; intro h; exact absurd (Fin.ext h) hne)]
              simp [flatLayer]
            · simp
          intro t t' h
          simp only [hval] at h
          refine sum_ofFn_injective (fun t (j' : Fin s.units) => actOf act s.activation
            (if j'.val = j then x.getD i 0 * t else 0)) ⟨j, hj⟩ ?_ ?_ h
          · intro j' hne a b
            rw [if_neg (fun e => hne (Fin.ext e)), if_neg (fun e => hne (Fin.ext e))]
          · intro a b hab
            simp only [if_true] at hab
            have hxi : x.getD i 0 ≠ 0 := by
              rw [getD_lt _ _ _ (by omega)]
              exact hx0 _ (List.getElem_mem _)
            exact mul_left_cancel₀ hxi (hg hab)
        · have hval : ∀ t (j' : Fin s.units), (∑ i' : Fin n, x.getD i' 0
              * Function.update (flatLayer k 0 allOnes) (.bias k j) t (.kernel k i' j'))
              + Function.update (flatLayer k 0 allOnes) (.bias k j) t (.bias k j')
              = if j'.val = j then t else 0 := by
            intro t j'
            rw [Finset.sum_eq_zero fun i' _ => by
              rw [Function.update_of_ne (by simp)]; simp [flatLayer], zero_add]
            by_cases e : j'.val = j
            · rw [if_pos e, e, Function.update_self]
            · rw [if_neg e, Function.update_of_ne (by simp [e])]
              simp [flatLayer]
          intro t t' h
          simp only [hval] at h
          refine sum_ofFn_injective (fun t (j' : Fin s.units) => actOf act s.activation
            (if j'.val = j then t else 0)) ⟨j, hj⟩ ?_ ?_ h
          · intro j' hne a b
            rw [if_neg (fun e => hne (Fin.ext e)), if_neg (fun e => hne (Fin.ext e))]
          · intro a b hab
            simp only [if_true] at hab
            exact hg hab
      obtain ⟨f, hf1, hf2⟩ := hrow
      refine ⟨flatLayer k 0 allOnes, fun t => y (List.ofFn (f t)),
        fun t t' h => hf1 t t' (h2 _ _ (by simp) (by simp) h), fun t => ?_⟩
      simp only [layersAt, applyLayers, mapE, hf2 t]
      rw [layersAt_congr allOnes _ (k + 1) s.units rest fun w hw => hk w hw t]
      exact h1 _ (by simp)
    · -- the variable belongs to a later layer: the first one passes on a constant
      obtain ⟨b, hb⟩ : ∃ b : ℝ, actOf act s.activation b ≠ 0 := by
        by_contra hcon
        push Not at hcon
        exact zero_ne_one (hg ((hcon 0).trans (hcon 1).symm))
      obtain ⟨θ, y, hy, h⟩ := ih (k + 1) s.units hu' hact' hv
        (List.replicate s.units (actOf act s.activation b)) (by simp)
        (fun z hz => by rw [(List.mem_replicate.mp hz).2]; exact hb)
      refine ⟨flatLayer k b θ, y, hy, fun t => ?_⟩
      have hrow : applyLayer act ⟨n, s.units,
          fun i j => Function.update (flatLayer k b θ) v t (.kernel k i j),
          fun j => Function.update (flatLayer k b θ) v t (.bias k j), s.activation⟩ x
            = .ok (List.replicate s.units (actOf act s.activation b)) := by
        rw [applyLayer_row act n s.units _ _ s.activation x hx (actOf act s.activation)
          (by cases s.activation <;> rfl)]
        congr 1
        rw [← List.ofFn_const]
        congr 1
        funext j
        rw [Finset.sum_eq_zero, zero_add]
        · rw [Function.update_of_ne]
          · simp [flatLayer]
          · rintro rfl
            rcases mem_layerVars hv with ⟨l, i, j, hl, e⟩ | ⟨l, j, hl, e⟩
            · cases e
            · injection e with e1; omega
        · intro i _
          rw [Function.update_of_ne]
          · simp [flatLayer]
          · rintro rfl
            rcases mem_layerVars hv with ⟨l, i, j, hl, e⟩ | ⟨l, j, hl, e⟩
            · injection e with e1; omega
            · cases e
      simp only [layersAt, applyLayers, mapE, hrow]
      rw [layersAt_congr (Function.update θ v t) (Function.update (flatLayer k b θ) v t) (k + 1) s.units rest
        fun w hw => ?_]
      · exact h t
      · by_cases e : w = v
        · subst e; simp
        · rw [Function.update_of_ne e, Function.update_of_ne e]
          rcases mem_layerVars hw with ⟨l, i, j, hl, rfl⟩ | ⟨l, j, hl, rfl⟩ <;>
            simp [flatLayer, show l ≠ k by omega]

/-- **C89** (each is used).  With positive widths and an injective activation (`tanh`, `sigmoid`, ...), for
each trainable variable of the layers and each input without a zero coordinate there are values of the other
variables for which the output of the network at this input is an injective function of the variable: no
trained number is without effect. -/
theorem C89_each_used (act : String → ℝ → ℝ) (attention : Batch → Except PyErr Batch) (dims : List ℕ)
    (a : String) (h : 2 ≤ dims.length) (hpos : ∀ d ∈ dims, 0 < d) (specs : List LayerSpec)
    (hs : layerSpecs dims a = .ok specs) (hact : Function.Injective (act a)) (v : Var)
    (hv : v ∈ trainableVariables (dims.getD 0 0) specs []) (x : List ℝ) (hx : x.length = dims.getD 0 0)
    (hx0 : ∀ z ∈ x, z ≠ 0) :
    ∃ (θ : Weights) (y : ℝ → List ℝ), Function.Injective y ∧
      ∀ t, callDense act attention false (layersAt (Function.update θ v t) 0 (dims.getD 0 0) specs) [x]
        = .ok [y t] := by
  obtain ⟨hu, -⟩ := specs_units h hs
  obtain ⟨specs', h1, h2, h3⟩ := C51_layers dims a h
  obtain rfl : specs' = specs := Except.ok.inj (h1.symm.trans hs)
  refine layerVars_used act 0 _ specs' (fun s hs => ?_) (fun s hs => ?_) v ?_ x hx hx0
  · refine hpos _ ?_
    rw [← hu]
    exact List.mem_cons_of_mem _ (List.mem_map_of_mem hs)
  · obtain ⟨k, hk, rfl⟩ := List.mem_iff_getElem.mp hs
    rw [h3 k hk (by omega)]
    dsimp only
    split_ifs
    · exact hact
    · exact Function.injective_id
  · simpa [trainableVariables] using hv

/-! ## The hypotheses can be met -/

/-- The architecture of most shipped configurations: 1981 numbers, all of them used with `tanh`. -/
example (attention : Batch → Except PyErr Batch) : ∃ specs, layerSpecs [2, 30, 30, 30, 1] "tanh" = .ok specs ∧
    (trainableVariables 2 specs []).length = 1981 ∧
    ∀ v ∈ trainableVariables 2 specs [], ∃ (θ : Weights) (y : ℝ → List ℝ), Function.Injective y ∧
      ∀ t, callDense (fun _ => Real.tanh) attention false (layersAt (Function.update θ v t) 0 2 specs) [[1, 1]]
        = .ok [y t] := by
  refine ⟨_, rfl, ?_, fun v hv => ?_⟩
  · exact (C89_variables [2, 30, 30, 30, 1] "tanh" (by simp) _ rfl [] List.nodup_nil).2.2
  · exact C89_each_used (fun _ => Real.tanh) attention [2, 30, 30, 30, 1] "tanh" (by simp) (by simp) _ rfl
      Real.tanh_injective v hv [1, 1] rfl (by simp)

/-- Two states that differ outside the trainable variables. -/
example : AgreeOn (trainableVariables 2 [⟨1, none⟩] []) ⟨fun _ => 0, AdamState.init⟩
    ⟨fun x => if x = .bias 7 0 then 1 else 0, AdamState.init⟩ :=
  ⟨fun x hx => by
    have : x ≠ .bias 7 0 := by
      rintro rfl
      simp [trainableVariables, layerVars] at hx
    simp [this], fun _ _ => rfl, fun _ _ => rfl, rfl⟩

end FastVPINNs
