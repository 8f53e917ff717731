import Verif.Lemmas.TapeRelu

/-! # C101: the gradient tapes

`tape1.gradient` and `tape.gradient` of `train_step` compute, operation by operation, the derivatives that the other
theorems take them to be, as long as no unit of the network sits at a kink of its activation. -/

namespace FastVPINNs

open Spec Filter Topology

section
variable {nc nt nq nIn nBd : ℕ} (M : ModelData nc nt nq nIn nBd) (act : String → ℕ → ℝ → ℝ)
  (useAttention : Bool) (inDim : ℕ) (specs : List LayerSpec) (dout : ℕ) (beta : ℝ) (p : ParamDict)

/-- The inner tape: both columns of `gradients` are the derivatives of the sum of the predictions with respect to the
coordinates of the points. -/
theorem C101_input (X : Fin nIn → ℝ × ℝ) (θ : Weights)
    (h : NoKinkAt act useAttention (layersAt θ 0 inDim specs) X) (r : Fin nIn) :
    let u := networkAt (fun a => act a 0) attentionDot useAttention inDim specs dout θ nIn
    let predicted := fun (r : Fin nIn) (j : Fin dout) =>
      nodeEntry (callN act useAttention inDim specs (sourceRows nIn)) r j
    (∀ i j, (predicted i j).value (Source.at X θ) = u X i j) ∧
      HasDerivAt (fun s => ∑ i, ∑ j, u (Function.update X r (s, (X r).2)) i j)
        ((innerGradient predicted (.x r)).value (Source.at X θ)) (X r).1 ∧
      HasDerivAt (fun s => ∑ i, ∑ j, u (Function.update X r ((X r).1, s)) i j)
        ((innerGradient predicted (.y r)).value (Source.at X θ)) (X r).2 := by
  intro u predicted
  have hN := records_dense (nIn := nIn) act useAttention inDim specs dout
  have hs : (Node.sum nIn fun r => Node.sum dout fun j => predicted r j).Regular 1 (Source.at X θ) :=
    fun i j => (dense_source_regular h i j).mono (by omega)
  refine ⟨fun i j => hN.source X θ i j, ?_, ?_⟩
  · refine HasDerivAt.congr_of_eventuallyEq (Node.hasDerivAt_back (Source.at X θ) (.x r) _ hs) (.of_forall fun s => ?_)
    beta_reduce
    rw [update_at_x]
    exact Finset.sum_congr rfl fun i _ => Finset.sum_congr rfl fun j _ => (hN.source _ θ i j).symm
  · refine HasDerivAt.congr_of_eventuallyEq (Node.hasDerivAt_back (Source.at X θ) (.y r) _ hs) (.of_forall fun s => ?_)
    beta_reduce
    rw [update_at_y]
    exact Finset.sum_congr rfl fun i _ => Finset.sum_congr rfl fun j _ => (hN.source _ θ i j).symm

/-- `DenseModel`: the step with the tapes is the step with derivatives. -/
theorem C101_dense {kind : LossKind} (hk : kind.forward) (lr : LearningRate) (s : TrainState)
    (hin : NoKinkAt act useAttention (layersAt s.weights 0 inDim specs) M.inputTensor)
    (hbd : NoKinkAt act useAttention (layersAt s.weights 0 inDim specs) M.dirichletInput) :
    tapedDense kind M act useAttention inDim specs dout beta p lr s
      = trainStepWith (forwardDense (lossOf kind nc nt nq) M (fun a => act a 0) attentionDot useAttention inDim specs
          dout beta p) (trainableVariables inDim specs []) lr s := by
  refine trainStepTaped_eq M _ _ _ _ lr s
    (fun θ => ∀ i : Fin nIn × Fin dout, (nodeEntry (callN act useAttention inDim specs (sourceRows nIn)) i.1
      i.2).Regular 2 (Source.at M.inputTensor θ)) (fun v => eventually_regular (by norm_num)
        (fun i : Fin nIn × Fin dout => dense_source_regular hin i.1 i.2) v)
    (fun θ hθ e he => by
      rw [recordDense_forward (beta := beta) (p := p) hk fun r j => (hθ (r, j)).mono (by omega), he])
    (fun θ hθ R hR => by
      rw [recordDense_forward (beta := beta) (p := p) hk fun r j => (hθ (r, j)).mono (by omega), hR])
    (fun i : Fin nIn × Fin dout => dense_source_regular hin i.1 i.2) (fun R hR j => ?_)
  exact recordDense_regular (fun r j => dense_source_regular hin r j) (fun r j => dense_const_regular hbd r j) hR j

/-- `DenseModel`: what the outer tape returns for an entry of the variables is the derivative of the total loss (which
exists). -/
theorem C101_dense_gradient {kind : LossKind} (hk : kind.forward) (θ : Weights)
    (hin : NoKinkAt act useAttention (layersAt θ 0 inDim specs) M.inputTensor)
    (hbd : NoKinkAt act useAttention (layersAt θ 0 inDim specs) M.dirichletInput) {R : Recorded nIn dout}
    (hR : recordDense M (callN act useAttention inDim specs) beta p dout kind = .ok R) (v : Var) :
    HasDerivAt (fun t => (forwardDense (lossOf kind nc nt nq) M (fun a => act a 0) attentionDot useAttention inDim specs
        dout beta p).total (Function.update θ v t))
      ((outerGradient R v).value (Source.at M.inputTensor θ)) (θ v) := by
  have hs : (Node.sum dout fun j => R.loss j).Regular 1 (Source.at M.inputTensor θ) := fun j =>
    recordDense_regular (fun r j => dense_source_regular hin r j) (fun r j => dense_const_regular hbd r j) hR j
  refine HasDerivAt.congr_of_eventuallyEq (Node.hasDerivAt_back (Source.at M.inputTensor θ) (.var v) _ hs) ?_
  filter_upwards [eventually_regular (ι := Fin nIn × Fin dout) one_le_two
    (fun i : Fin nIn × Fin dout => dense_source_regular hin i.1 i.2) v] with t ht
  rw [Forward.total, recordDense_forward hk fun r j => (ht (r, j)).mono (by omega), hR, update_at_var]
  rfl

/-- `DenseModel_Hard` with the constraint of the example script. -/
theorem C101_hard {kind : LossKind} (hk : kind.forward) (lr : LearningRate) (s : TrainState)
    (hin : NoKinkAt act useAttention (layersAt s.weights 0 inDim specs) M.inputTensor) :
    tapedHard kind M act useAttention inDim specs dout p lr s
      = trainStepWith (forwardHard (lossOf kind nc nt nq) M (fun a => act a 0) attentionDot useAttention inDim specs
          dout beta p applyHardBoundaryConstraints) (trainableVariables inDim specs []) lr s := by
  refine trainStepTaped_eq M _ _ _ _ lr s
    (fun θ => ∀ i : Fin nIn × Fin dout, (nodeEntry (callHardN act useAttention inDim specs (sourceRows nIn)) i.1
      i.2).Regular 2 (Source.at M.inputTensor θ)) (fun v => eventually_regular (by norm_num)
        (fun i : Fin nIn × Fin dout => hard_source_regular hin i.1 i.2) v)
    (fun θ hθ e he => by
      rw [recordHard_forward (beta := beta) (p := p) hk fun r j => (hθ (r, j)).mono (by omega), he])
    (fun θ hθ R hR => by
      rw [recordHard_forward (beta := beta) (p := p) hk fun r j => (hθ (r, j)).mono (by omega), hR])
    (fun i : Fin nIn × Fin dout => hard_source_regular hin i.1 i.2) (fun R hR j => ?_)
  exact recordHard_regular (fun r j => hard_source_regular hin r j) hR j

/-- `DenseModel_Inverse`: the coefficient, which multiplies the derivatives of the network, is one of the variables. -/
theorem C101_inverse {nS : ℕ} (sp : Fin nS → ℝ × ℝ) (sv : Fin nS → ℝ) (keys : List String) (lr : LearningRate)
    (s : TrainState) (hin : NoKinkAt act useAttention (layersAt s.weights 0 inDim specs) M.inputTensor)
    (hbd : NoKinkAt act useAttention (layersAt s.weights 0 inDim specs) M.dirichletInput)
    (hsp : NoKinkAt act useAttention (layersAt s.weights 0 inDim specs) sp) :
    tapedInverse M act useAttention inDim specs dout beta sp sv keys lr s
      = trainStepInverseFull (lossOf .poissonInverse nc nt nq) M (fun a => act a 0) attentionDot useAttention inDim
          specs dout beta p sp sv keys lr s := by
  unfold tapedInverse trainStepInverseFull
  rw [trainStepTaped_eq M _ _ (forwardInverse (lossOf .poissonInverse nc nt nq) M (fun a => act a 0) attentionDot
      useAttention inDim specs dout beta p sp sv keys) _ lr s
    (fun θ => ∀ i : Fin nIn × Fin dout, (nodeEntry (callN act useAttention inDim specs (sourceRows nIn)) i.1
      i.2).Regular 2 (Source.at M.inputTensor θ)) (fun v => eventually_regular (by norm_num)
        (fun i : Fin nIn × Fin dout => dense_source_regular hin i.1 i.2) v)
    (fun θ hθ e he => by
      rw [recordInverse_forward (beta := beta) (p := p) sp sv keys fun r j => (hθ (r, j)).mono (by omega), he])
    (fun θ hθ R hR => by
      rw [recordInverse_forward (beta := beta) (p := p) sp sv keys fun r j => (hθ (r, j)).mono (by omega), hR])
    (fun i : Fin nIn × Fin dout => dense_source_regular hin i.1 i.2) (fun R hR j => recordInverse_regular
      (fun r j => dense_source_regular hin r j) (fun r j => dense_const_regular hbd r j)
      (fun r j => dense_const_regular hsp r j) hR j)]
  cases trainStepWith (forwardInverse (lossOf .poissonInverse nc nt nq) M (fun a => act a 0) attentionDot
      useAttention inDim specs dout beta p sp sv keys) (trainableVariables inDim specs keys) lr s <;> rfl

/-- `DenseModel_Inverse_Domain`: the second output is the coefficient, and the inner tape differentiates only the
first. -/
theorem C101_inverse_domain {nS : ℕ} (sp : Fin nS → ℝ × ℝ) (sv : Fin nS → ℝ) (lr : LearningRate)
    (s : TrainState) (hin : NoKinkAt act useAttention (layersAt s.weights 0 inDim specs) M.inputTensor)
    (hbd : NoKinkAt act useAttention (layersAt s.weights 0 inDim specs) M.dirichletInput)
    (hsp : NoKinkAt act useAttention (layersAt s.weights 0 inDim specs) sp) :
    tapedInverseDomain M act useAttention inDim specs dout beta p sp sv lr s
      = trainStepWith (forwardInverseDomain (lossOf .cd2dInverseDomain nc nt nq) M (fun a => act a 0) attentionDot
          useAttention inDim specs dout beta p sp sv) (trainableVariables inDim specs []) lr s := by
  refine trainStepTaped_eq M _ _ _ _ lr s
    (fun θ => ∀ i : Fin nIn × Fin 1, (nodeEntry (callN act useAttention inDim specs (sourceRows nIn)) i.1
      i.2).Regular 2 (Source.at M.inputTensor θ)) (fun v => eventually_regular (by norm_num)
        (fun i : Fin nIn × Fin 1 => dense_source_regular hin i.1 i.2) v)
    (fun θ hθ e he => by
      rw [recordInverseDomain_forward (dout := dout) (beta := beta) (p := p) sp sv fun r => (hθ (r, 0)).mono (by omega), he])
    (fun θ hθ R hR => by
      rw [recordInverseDomain_forward (dout := dout) (beta := beta) (p := p) sp sv fun r => (hθ (r, 0)).mono (by omega), hR])
    (fun i : Fin nIn × Fin 1 => dense_source_regular hin i.1 i.2) (fun R hR j => ?_)
  exact recordInverseDomain_regular (fun r j => dense_source_regular hin r j)
    (fun r j => dense_const_regular hbd r j) (fun r j => dense_const_regular hsp r j) hR j

/-- With activations that are twice differentiable everywhere no condition on the weights remains, and whole trainings
agree, for all four models. -/
theorem C101_training {kind : LossKind} (hk : kind.forward) {nS : ℕ} (sp : Fin nS → ℝ × ℝ) (sv : Fin nS → ℝ)
    (keys : List String) (lr : LearningRate) (n : ℕ) (s : TrainState)
    (hact : ∀ l ∈ specs, ∀ a, l.activation = some a → ∀ z, SmoothAt (act a) z) :
    trainEpochs (tapedDense kind M act useAttention inDim specs dout beta p lr) n s
      = trainEpochs (trainStepWith (forwardDense (lossOf kind nc nt nq) M (fun a => act a 0) attentionDot useAttention
          inDim specs dout beta p) (trainableVariables inDim specs []) lr) n s ∧
    trainEpochs (tapedHard kind M act useAttention inDim specs dout p lr) n s
      = trainEpochs (trainStepWith (forwardHard (lossOf kind nc nt nq) M (fun a => act a 0) attentionDot useAttention
          inDim specs dout beta p applyHardBoundaryConstraints) (trainableVariables inDim specs []) lr) n s ∧
    trainEpochs (tapedInverse M act useAttention inDim specs dout beta sp sv keys lr) n s
      = trainEpochs (trainStepInverseFull (lossOf .poissonInverse nc nt nq) M (fun a => act a 0) attentionDot
          useAttention inDim specs dout beta p sp sv keys lr) n s ∧
    trainEpochs (tapedInverseDomain M act useAttention inDim specs dout beta p sp sv lr) n s
      = trainEpochs (trainStepWith (forwardInverseDomain (lossOf .cd2dInverseDomain nc nt nq) M (fun a => act a 0)
          attentionDot useAttention inDim specs dout beta p sp sv) (trainableVariables inDim specs []) lr) n s := by
  have hN : ∀ (θ : Weights) {m : ℕ} (X : Fin m → ℝ × ℝ), NoKinkAt act useAttention (layersAt θ 0 inDim specs) X :=
    fun θ m X rows _ x _ => noKink_of_smooth act _ (fun L hL a ha => by
      obtain ⟨l, hl, e⟩ := layersAt_activation θ specs 0 inDim L hL
      exact hact l hl a (e ▸ ha)) x
  refine ⟨?_, ?_, ?_, ?_⟩
  · exact congrArg (fun f => trainEpochs f n s) (funext fun s =>
      C101_dense M act useAttention inDim specs dout beta p hk lr s (hN _ _) (hN _ _))
  · exact congrArg (fun f => trainEpochs f n s) (funext fun s =>
      C101_hard M act useAttention inDim specs dout beta p hk lr s (hN _ _))
  · exact congrArg (fun f => trainEpochs f n s) (funext fun s =>
      C101_inverse M act useAttention inDim specs dout beta p sp sv keys lr s (hN _ _) (hN _ _) (hN _ _))
  · exact congrArg (fun f => trainEpochs f n s) (funext fun s =>
      C101_inverse_domain M act useAttention inDim specs dout beta p sp sv lr s (hN _ _) (hN _ _) (hN _ _))

/-- The activation `tanh` of the scripts meets the condition. -/
theorem C101_tanh (z : ℝ) : tanhOps 0 = Real.tanh ∧ SmoothAt tanhOps z :=
  ⟨iteratedDeriv_zero, tanhOps_smoothAt z⟩

/-- The ReLU meets the condition exactly where its argument is not zero. -/
theorem C101_relu (z : ℝ) : SmoothAt reluOps z ↔ z ≠ 0 := by
  refine ⟨fun h hz => ?_, reluOps_smoothAt⟩
  subst hz
  have h0 := h.1.self_of_nhds
  have h1 : HasDerivWithinAt (reluOps 0) 1 (Set.Ici 0) 0 := by
    refine (hasDerivWithinAt_id (0 : ℝ) _).congr (fun x hx => ?_) (by simp [reluOps])
    simpa [reluOps] using hx
  have := (uniqueDiffOn_Ici (0 : ℝ) 0 (by simp)).eq_deriv _ h1 h0.hasDerivWithinAt
  simp [reluOps] at this

/-- With the ReLU (or other activations whose second registered derivative is zero) the Poisson loss has no gradient
with respect to any bias, whatever the weights are: biases are trained by the boundary loss only. -/
theorem C101_relu_bias (hact : ∀ l ∈ specs, ∀ a, l.activation = some a → act a 2 = fun _ => 0) (θ : Weights)
    {R : Recorded nIn dout} (hR : recordDense M (callN act false inDim specs) beta p dout .poisson = .ok R) (l i : ℕ) :
    (R.lossPde.back (.const 1) (.var (.bias l i))).value (Source.at M.inputTensor θ) = 0 ∧
      (outerGradient R (.bias l i)).value (Source.at M.inputTensor θ)
        = beta * ∑ j, ((R.lossDirichlet j).back (.const 1) (.var (.bias l i))).value (Source.at M.inputTensor θ) := by
  unfold recordDense at hR
  cases hc : cellsResidualN M (callN act false inDim specs) dout (lossN M p .poisson []) with
  | error e => simp [hc] at hR
  | ok es =>
    simp only [hc, Except.ok.injEq] at hR
    subst hR
    have hf := lossPde_flat act M p hact l i hc
    refine ⟨hf.back_zero _ _, ?_⟩
    simp only [outerGradient, Node.value, Node.back, hf.back_zero, Finset.mul_sum]
    refine Finset.sum_congr rfl fun j _ => ?_
    rw [Node.value_back]
    simp [Node.value]

/-- A model whose first layer has the activation ReLU and still has its initial biases: at the origin the tape finds
the gradient zero, for all kernels. -/
theorem C101_relu_origin {units : ℕ} {a : String} (ha : act a = reluOps) (rest : List LayerSpec) (X : Fin nIn → ℝ × ℝ)
    (θ : Weights) (hb : ∀ j < units, θ (.bias 0 j) = 0) (r : Fin nIn) (hr : X r = (0, 0)) :
    let predicted := fun (r : Fin nIn) (j : Fin dout) =>
      nodeEntry (callN act false inDim (⟨units, some a⟩ :: rest) (sourceRows nIn)) r j
    (innerGradient predicted (.x r)).value (Source.at X θ) = 0 ∧
      (innerGradient predicted (.y r)).value (Source.at X θ) = 0 := by
  intro predicted
  constructor
  · exact Finset.sum_eq_zero fun i _ => Finset.sum_eq_zero fun j _ =>
      inner_zero act ha rest X θ hb r hr (.inl rfl) i j (.const 1)
  · exact Finset.sum_eq_zero fun i _ => Finset.sum_eq_zero fun j _ =>
      inner_zero act ha rest X θ hb r hr (.inr rfl) i j (.const 1)

/-- The condition of `C101_input` cannot be dropped: there is a ReLU network that is the function `x`, and the tape
finds the gradient zero at the origin. -/
theorem C101_kink : ∃ (specs : List LayerSpec) (θ : Weights),
    (∀ (n : ℕ) (X : Fin n → ℝ × ℝ) r j, networkAt (fun _ => reluOps 0) attentionDot false 2 specs 1 θ n X r j = (X r).1) ∧
    (innerGradient (fun (r : Fin 1) (j : Fin 1) => nodeEntry (callN (fun _ => reluOps) false 2 specs (sourceRows 1)) r j)
      (.x 0)).value (Source.at (fun _ => (0, 0)) θ) = 0 := by
  let θ : Weights := fun v => match v with
    | .kernel 0 0 0 => 1
    | .kernel 0 0 1 => -1
    | .kernel 1 0 0 => 1
    | .kernel 1 1 0 => -1
    | _ => 0
  refine ⟨[⟨2, some "relu"⟩, ⟨1, none⟩], θ, fun n X r j => ?_, ?_⟩
  · have h1 : mapE (applyLayer (fun _ => reluOps 0) ⟨2, 2, fun i j => θ (.kernel 0 i j), fun j => θ (.bias 0 j),
        some "relu"⟩) (pointRows X) = .ok ((pointRows X).map fun x => [max (x.getD 0 0) 0, max (-(x.getD 0 0)) 0]) := by
      refine mapE_eq_map _ _ _ fun x hx => ?_
      obtain ⟨q, rfl⟩ := (List.mem_ofFn).1 hx
      simp [applyLayer, reluOps, List.ofFn_succ, Fin.sum_univ_two, θ]
    have h2 : mapE (applyLayer (fun _ => reluOps 0) ⟨2, 1, fun i j => θ (.kernel 1 i j), fun j => θ (.bias 1 j), none⟩)
        ((pointRows X).map fun x => [max (x.getD 0 0) 0, max (-(x.getD 0 0)) 0])
        = .ok (((pointRows X).map fun x => [max (x.getD 0 0) 0, max (-(x.getD 0 0)) 0]).map
          fun x => [x.getD 0 0 - x.getD 1 0]) := by
      refine mapE_eq_map _ _ _ fun x hx => ?_
      obtain ⟨q, -, rfl⟩ := List.mem_map.1 hx
      simp [applyLayer, Fin.sum_univ_two, θ, sub_eq_add_neg]
    have h3 : callDense (fun _ => reluOps 0) attentionDot false (layersAt θ 0 2 [⟨2, some "relu"⟩, ⟨1, none⟩]) (pointRows X)
        = .ok (((pointRows X).map fun x => [max (x.getD 0 0) 0, max (-(x.getD 0 0)) 0]).map
          fun x => [x.getD 0 0 - x.getD 1 0]) := by
      simp only [callDense, layersAt, applyLayers, Bool.false_eq_true, if_false, h1, h2]
    rw [networkAt, networkDense, h3]
    have hj : j.val = 0 := by omega
    rw [List.map_map]
    simp only [batchEntry, pointRows, List.map_ofFn, hj]
    have h4 : ∀ (f : Fin n → List ℝ), (List.ofFn f).getD r [] = f r := by
      intro f
      rw [List.getD_eq_getElem _ _ (by simp)]
      simp
    rw [h4]
    show max (X r).1 0 - max (-(X r).1) 0 = (X r).1
    rcases le_total 0 (X r).1 with h | h
    · simp [max_eq_left h, max_eq_right (neg_nonpos.2 h)]
    · simp [max_eq_right h, max_eq_left (neg_nonneg.2 h)]
  · exact (C101_relu_origin (nIn := 1) (fun _ => reluOps) 2 1 (units := 2) (a := "relu") rfl [⟨1, none⟩] (fun _ => (0, 0)) θ
      (fun j _ => rfl) 0 rfl).1

end

/-! ## Cases that meet the hypotheses -/

section
/-- One cell with one point. -/
private noncomputable def tapeData : ModelData 1 1 1 1 1 :=
  ⟨fun _ _ _ => 1, fun _ _ _ => 2, fun _ _ _ => 3, fun _ _ => 1, fun _ => (1, 1), fun _ => (0, 1), fun _ => 0, 1⟩

private def tapeSpecs : List LayerSpec := [⟨3, some "relu"⟩, ⟨1, none⟩]

/-- All weights are 1. -/
private def tapeState : TrainState := ⟨fun _ => 1, .init⟩

private lemma tape_noKink {m : ℕ} (X : Fin m → ℝ × ℝ) (hX : ∀ r, 0 ≤ (X r).1 + (X r).2) :
    NoKinkAt (fun _ => reluOps) false (layersAt tapeState.weights 0 2 tapeSpecs) X := by
  intro rows h x hx
  simp only [Bool.false_eq_true, if_false, Except.ok.injEq] at h
  subst h
  obtain ⟨r, rfl⟩ := (List.mem_ofFn).1 hx
  refine ⟨fun a _ j => reluOps_smoothAt ?_, nofun, trivial⟩
  simp only [preActivation, tapeState, mul_one, Fin.sum_univ_two]
  have := hX r
  exact ne_of_gt (by
    show (0 : ℝ) < (X r).1 + (X r).2 + 1
    linarith)

example : NoKinkAt (fun _ => reluOps) false (layersAt tapeState.weights 0 2 tapeSpecs) tapeData.inputTensor ∧
    NoKinkAt (fun _ => reluOps) false (layersAt tapeState.weights 0 2 tapeSpecs) tapeData.dirichletInput :=
  ⟨tape_noKink _ fun r => by norm_num [tapeData], tape_noKink _ fun r => by norm_num [tapeData]⟩

/-- The recorded step does not fail. -/
private lemma tape_record : ∃ R, recordDense tapeData (callN (fun _ => reluOps) false 2 tapeSpecs) 10
    (some [("eps", 1)]) 1 .poisson = .ok R := by
  have h : ((1 : ℤ) * ((1 : ℕ) : ℤ) = ((1 : ℕ) : ℤ) ∧ (1 : ℤ) = ((1 : ℕ) : ℤ)) := by norm_num
  cases hR : recordDense tapeData (callN (fun _ => reluOps) false 2 tapeSpecs) 10 (some [("eps", 1)]) 1 .poisson with
  | ok R => exact ⟨R, rfl⟩
  | error e =>
    exfalso
    unfold recordDense cellsResidualN reshapeCellsN at hR
    simp only [tapeData, h] at hR
    cases hR

/-- The step with the tapes succeeds and is the step with derivatives, with the ReLU away from its kink. -/
example : ∃ out s', tapedDense .poisson tapeData (fun _ => reluOps) false 2 tapeSpecs 1 10 (some [("eps", 1)])
      (.constant 0.01) tapeState = .ok (out, s') ∧
    trainStepWith (forwardDense (lossOf .poisson 1 1 1) tapeData (fun _ => reluOps 0) attentionDot false 2 tapeSpecs
      1 10 (some [("eps", 1)])) (trainableVariables 2 tapeSpecs []) (.constant 0.01) tapeState = .ok (out, s') := by
  have h := C101_dense tapeData (fun _ => reluOps) false 2 tapeSpecs 1 10 (some [("eps", 1)]) (.inl rfl) (.constant 0.01)
    tapeState (tape_noKink _ fun r => by norm_num [tapeData]) (tape_noKink _ fun r => by norm_num [tapeData])
  obtain ⟨R, hR⟩ := tape_record
  have hT : ∃ o, tapedDense .poisson tapeData (fun _ => reluOps) false 2 tapeSpecs 1 10 (some [("eps", 1)])
      (.constant 0.01) tapeState = .ok o := by
    unfold tapedDense trainStepTaped
    rw [hR]
    exact ⟨_, rfl⟩
  obtain ⟨⟨out, s'⟩, ho⟩ := hT
  exact ⟨out, s', ho, h ▸ ho⟩

example : ∀ l ∈ [(⟨30, some "tanh"⟩ : LayerSpec), ⟨1, none⟩], ∀ a, l.activation = some a →
    ∀ z, SmoothAt ((fun _ => tanhOps : String → ℕ → ℝ → ℝ) a) z := fun _ _ _ _ z => (C101_tanh z).2

example : (∀ l ∈ tapeSpecs, ∀ a, l.activation = some a → (fun _ => reluOps : String → ℕ → ℝ → ℝ) a 2 = fun _ => 0) ∧
    ∃ R, recordDense tapeData (callN (fun _ => reluOps) false 2 tapeSpecs) 10 (some [("eps", 1)]) 1 .poisson = .ok R :=
  ⟨fun _ _ _ _ => rfl, tape_record⟩

end

end FastVPINNs
