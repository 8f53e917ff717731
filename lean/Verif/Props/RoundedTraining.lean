import Verif.Lemmas.TapeContinuous
import Verif.Props.Tape
import Verif.Props.Underflow

/-! # C102 Training in finite precision converges to the exact training -/

namespace FastVPINNs

open Spec Filter Topology

lemma trainEpochs_total {α : Type} (f : TrainState → α) (next : TrainState → TrainState) : ∀ (n : ℕ) (s : TrainState),
    trainEpochs (fun s => .ok (f s, next s)) n s
      = .ok ((List.range n).map fun k => f (next^[k] s), next^[n] s)
  | 0, _ => rfl
  | n + 1, s => by
    simp only [trainEpochs, trainEpochs_total f next n (next s), List.range_succ_eq_map, List.map_cons, List.map_map]
    rfl

/-- The general form, for a step that succeeds. -/
lemma taped_converge {α : Type} {nIn dout : ℕ} (P : Program nIn dout) (R : Recorded nIn dout) (X : Fin nIn → ℝ × ℝ)
    (vars : List Var) (lr : LearningRate) (step : TrainState → Except PyErr (α × TrainState)) (f : TrainState → α)
    (hstep : step = fun s => .ok (f s, nextState R X vars lr s)) (n : ℕ) (s : TrainState)
    (hP : ∀ k < n, ∀ os t, trainEpochs step k s = .ok (os, t) → ContinuousProgram P (Source.at X t.weights) ∧
      Rearranges P R (Source.at X t.weights)) {outs : List α} {s' : TrainState}
    (h : trainEpochs step n s = .ok (outs, s')) {κ : ℝ} (hκ : 0 < κ) (Rel : LossValues dout → α → Prop)
    (hRel : ∀ o s, CloseLosses κ o (R.values (Source.at X s.weights)) → Rel o (f s)) :
    ∃ d > 0, TrainsWithin P X vars lr n s Rel outs s' κ d := by
  subst hstep
  simp only [trainEpochs_total, Except.ok.injEq, Prod.mk.injEq] at h hP
  obtain ⟨rfl, rfl⟩ := h
  obtain ⟨d, hd, H⟩ := (tolerance_pos.and (epochs_converge P R X vars lr n s
    (fun k hk => hP k hk _ _ ⟨rfl, rfl⟩) hκ)).exists
  refine ⟨d, hd, fun τ h1 h2 X' s₀ os t hX hs hrun => ?_⟩
  obtain ⟨e1, e2⟩ := H τ h1 h2 X' s₀ os t hX hs hrun
  refine ⟨?_, e2⟩
  rw [List.forall₂_map_right_iff] at e1 ⊢
  exact e1.imp fun o k h => hRel o _ h

lemma rearranges_self {n dout : ℕ} (R : Recorded n dout) (ρ : Source n → ℝ) : Rearranges R.program R ρ :=
  ⟨rfl, fun _ => rfl, fun _ => rfl, fun _ => rfl, fun _ => rfl⟩

section
variable {nc nt nq nIn nBd : ℕ} (M : ModelData nc nt nq nIn nBd) (act : String → ℕ → ℝ → ℝ)
  (useAttention : Bool) (inDim : ℕ) (specs : List LayerSpec) (dout : ℕ) (beta : ℝ) (p : ParamDict)

lemma tapedDense_total {kind : LossKind} {R : Recorded nIn dout}
    (hR : recordDense M (callN act useAttention inDim specs) beta p dout kind = .ok R) (lr : LearningRate) :
    tapedDense kind M act useAttention inDim specs dout beta p lr = fun s =>
      .ok (⟨(R.values (Source.at M.inputTensor s.weights)).lossPde,
        (R.values (Source.at M.inputTensor s.weights)).lossDirichlet,
        (R.values (Source.at M.inputTensor s.weights)).loss⟩,
        nextState R M.inputTensor (trainableVariables inDim specs []) lr s) := by
  funext s
  unfold tapedDense trainStepTaped
  rw [hR]
  rfl

lemma tapedHard_total {kind : LossKind} {R : Recorded nIn 1}
    (hR : recordHard M (callHardN act useAttention inDim specs) p dout kind = .ok R) (lr : LearningRate) :
    tapedHard kind M act useAttention inDim specs dout p lr = fun s =>
      .ok (⟨(R.values (Source.at M.inputTensor s.weights)).lossPde,
        (R.values (Source.at M.inputTensor s.weights)).lossDirichlet 0,
        (R.values (Source.at M.inputTensor s.weights)).loss 0⟩,
        nextState R M.inputTensor (trainableVariables inDim specs []) lr s) := by
  funext s
  unfold tapedHard trainStepTaped
  rw [hR]
  rfl

lemma tapedInverse_total {nS : ℕ} (sp : Fin nS → ℝ × ℝ) (sv : Fin nS → ℝ) (keys : List String) {R : Recorded nIn dout}
    (hR : recordInverse M (callN act useAttention inDim specs) beta dout sp sv keys = .ok R) (lr : LearningRate) :
    tapedInverse M act useAttention inDim specs dout beta sp sv keys lr = fun s =>
      .ok (⟨(R.values (Source.at M.inputTensor s.weights)).lossPde,
        (R.values (Source.at M.inputTensor s.weights)).lossDirichlet,
        (R.values (Source.at M.inputTensor s.weights)).loss,
        inverseAt (nextState R M.inputTensor (trainableVariables inDim specs keys) lr s).weights keys,
        (R.values (Source.at M.inputTensor s.weights)).sensorLoss⟩,
        nextState R M.inputTensor (trainableVariables inDim specs keys) lr s) := by
  funext s
  unfold tapedInverse trainStepTaped
  rw [hR]
  rfl

lemma tapedInverseDomain_total {nS : ℕ} (sp : Fin nS → ℝ × ℝ) (sv : Fin nS → ℝ) {R : Recorded nIn 1}
    (hR : recordInverseDomain M (callN act useAttention inDim specs) beta p dout sp sv = .ok R) (lr : LearningRate) :
    tapedInverseDomain M act useAttention inDim specs dout beta p sp sv lr = fun s =>
      .ok (⟨(R.values (Source.at M.inputTensor s.weights)).lossPde,
        (R.values (Source.at M.inputTensor s.weights)).lossDirichlet,
        (R.values (Source.at M.inputTensor s.weights)).loss, none,
        (R.values (Source.at M.inputTensor s.weights)).sensorLoss⟩,
        nextState R M.inputTensor (trainableVariables inDim specs []) lr s) := by
  funext s
  unfold tapedInverseDomain trainStepTaped
  rw [hR]
  rfl

/-- **`DenseModel`**: as the accuracy of the arithmetic tends to zero, the losses of all epochs and the final weights and
moments tend to the exact ones, whatever the order in which sums are added up and however losses and gradient are
rearranged, as long as the program computes the same numbers in exact arithmetic and no elementary function is applied at
a jump in the exact training. -/
theorem C102_dense (kind : LossKind) (lr : LearningRate) (n : ℕ) (s : TrainState) {R : Recorded nIn dout}
    (hR : recordDense M (callN act useAttention inDim specs) beta p dout kind = .ok R) (P : Program nIn dout)
    (hP : ∀ k < n, ∀ os t, trainEpochs (tapedDense kind M act useAttention inDim specs dout beta p lr) k s = .ok (os, t) →
      ContinuousProgram P (Source.at M.inputTensor t.weights) ∧ Rearranges P R (Source.at M.inputTensor t.weights))
    {outs : List (TrainOut dout)} {s' : TrainState}
    (h : trainEpochs (tapedDense kind M act useAttention inDim specs dout beta p lr) n s = .ok (outs, s'))
    {κ : ℝ} (hκ : 0 < κ) :
    ∃ d > 0, TrainsWithin P M.inputTensor (trainableVariables inDim specs []) lr n s (CloseOut κ) outs s' κ d :=
  taped_converge P R M.inputTensor _ lr _ _ (tapedDense_total M act useAttention inDim specs dout beta p hR lr) n s hP h hκ
    (CloseOut κ) fun _ _ h => ⟨h.lossPde, h.lossDirichlet, h.loss⟩

/-- `DenseModel_Hard`. -/
theorem C102_hard (kind : LossKind) (lr : LearningRate) (n : ℕ) (s : TrainState) {R : Recorded nIn 1}
    (hR : recordHard M (callHardN act useAttention inDim specs) p dout kind = .ok R) (P : Program nIn 1)
    (hP : ∀ k < n, ∀ os t, trainEpochs (tapedHard kind M act useAttention inDim specs dout p lr) k s = .ok (os, t) →
      ContinuousProgram P (Source.at M.inputTensor t.weights) ∧ Rearranges P R (Source.at M.inputTensor t.weights))
    {outs : List TrainOutHard} {s' : TrainState}
    (h : trainEpochs (tapedHard kind M act useAttention inDim specs dout p lr) n s = .ok (outs, s'))
    {κ : ℝ} (hκ : 0 < κ) :
    ∃ d > 0, TrainsWithin P M.inputTensor (trainableVariables inDim specs []) lr n s (CloseOutHard κ) outs s' κ d :=
  taped_converge P R M.inputTensor _ lr _ _ (tapedHard_total M act useAttention inDim specs dout p hR lr) n s hP h hκ
    (CloseOutHard κ) fun _ _ h => ⟨h.lossPde, h.lossDirichlet 0, h.loss 0⟩

/-- `DenseModel_Inverse`; the unknown coefficient is one of the entries of the state. -/
theorem C102_inverse {nS : ℕ} (sp : Fin nS → ℝ × ℝ) (sv : Fin nS → ℝ) (keys : List String) (lr : LearningRate) (n : ℕ)
    (s : TrainState) {R : Recorded nIn dout}
    (hR : recordInverse M (callN act useAttention inDim specs) beta dout sp sv keys = .ok R) (P : Program nIn dout)
    (hP : ∀ k < n, ∀ os t, trainEpochs (tapedInverse M act useAttention inDim specs dout beta sp sv keys lr) k s
        = .ok (os, t) →
      ContinuousProgram P (Source.at M.inputTensor t.weights) ∧ Rearranges P R (Source.at M.inputTensor t.weights))
    {outs : List (TrainOutInverse dout)} {s' : TrainState}
    (h : trainEpochs (tapedInverse M act useAttention inDim specs dout beta sp sv keys lr) n s = .ok (outs, s'))
    {κ : ℝ} (hκ : 0 < κ) :
    ∃ d > 0, TrainsWithin P M.inputTensor (trainableVariables inDim specs keys) lr n s (CloseOutInverse κ) outs s' κ d :=
  taped_converge P R M.inputTensor _ lr _ _ (tapedInverse_total M act useAttention inDim specs dout beta sp sv keys hR lr)
    n s hP h hκ (CloseOutInverse κ) fun _ _ h => ⟨h.lossPde, h.lossDirichlet, h.sensorLoss, h.loss⟩

/-- `DenseModel_Inverse_Domain`. -/
theorem C102_inverse_domain {nS : ℕ} (sp : Fin nS → ℝ × ℝ) (sv : Fin nS → ℝ) (lr : LearningRate) (n : ℕ)
    (s : TrainState) {R : Recorded nIn 1}
    (hR : recordInverseDomain M (callN act useAttention inDim specs) beta p dout sp sv = .ok R) (P : Program nIn 1)
    (hP : ∀ k < n, ∀ os t, trainEpochs (tapedInverseDomain M act useAttention inDim specs dout beta p sp sv lr) k s
        = .ok (os, t) →
      ContinuousProgram P (Source.at M.inputTensor t.weights) ∧ Rearranges P R (Source.at M.inputTensor t.weights))
    {outs : List (TrainOutInverse 1)} {s' : TrainState}
    (h : trainEpochs (tapedInverseDomain M act useAttention inDim specs dout beta p sp sv lr) n s = .ok (outs, s'))
    {κ : ℝ} (hκ : 0 < κ) :
    ∃ d > 0, TrainsWithin P M.inputTensor (trainableVariables inDim specs []) lr n s (CloseOutInverse κ) outs s' κ d :=
  taped_converge P R M.inputTensor _ lr _ _
    (tapedInverseDomain_total M act useAttention inDim specs dout beta p sp sv hR lr) n s hP h hκ (CloseOutInverse κ)
    fun _ _ h => ⟨h.lossPde, h.lossDirichlet, h.sensorLoss, h.loss⟩

/-- The operations as they are recorded are such a program wherever no unit of the network sits at a jump of its
activation or of the two registered derivatives. -/
theorem C102_recorded (θ : Weights) (hin : NoJumpAt act useAttention (layersAt θ 0 inDim specs) M.inputTensor)
    (hbd : NoJumpAt act useAttention (layersAt θ 0 inDim specs) M.dirichletInput) :
    (∀ kind (R : Recorded nIn dout), recordDense M (callN act useAttention inDim specs) beta p dout kind = .ok R →
      ContinuousProgram R.program (Source.at M.inputTensor θ) ∧ Rearranges R.program R (Source.at M.inputTensor θ)) ∧
    (∀ kind (R : Recorded nIn 1), recordHard M (callHardN act useAttention inDim specs) p dout kind = .ok R →
      ContinuousProgram R.program (Source.at M.inputTensor θ) ∧ Rearranges R.program R (Source.at M.inputTensor θ)) ∧
    ∀ (nS : ℕ) (sp : Fin nS → ℝ × ℝ) (sv : Fin nS → ℝ), NoJumpAt act useAttention (layersAt θ 0 inDim specs) sp →
      (∀ keys (R : Recorded nIn dout), recordInverse M (callN act useAttention inDim specs) beta dout sp sv keys = .ok R →
        ContinuousProgram R.program (Source.at M.inputTensor θ) ∧ Rearranges R.program R (Source.at M.inputTensor θ)) ∧
      ∀ R : Recorded nIn 1, recordInverseDomain M (callN act useAttention inDim specs) beta p dout sp sv = .ok R →
        ContinuousProgram R.program (Source.at M.inputTensor θ) ∧ Rearranges R.program R (Source.at M.inputTensor θ) := by
  refine ⟨fun kind R hR => ⟨ContRec.program ?_, rearranges_self R _⟩,
    fun kind R hR => ⟨ContRec.program ?_, rearranges_self R _⟩, fun nS sp sv hs =>
    ⟨fun keys R hR => ⟨ContRec.program ?_, rearranges_self R _⟩, fun R hR => ⟨ContRec.program ?_, rearranges_self R _⟩⟩⟩
  · exact recordDense_contUp (fun r j => dense_source_contUp hin r j) (fun r j => dense_const_contUp hbd r j) hR
  · exact recordHard_contUp (fun r j => hard_source_contUp hin r j) hR
  · exact recordInverse_contUp (fun r j => dense_source_contUp hin r j) (fun r j => dense_const_contUp hbd r j)
      (fun r j => dense_const_contUp hs r j) hR
  · exact recordInverseDomain_contUp (fun r j => dense_source_contUp hin r j) (fun r j => dense_const_contUp hbd r j)
      (fun r j => dense_const_contUp hs r j) hR

/-- **With smooth activations** (twice differentiable, and the second derivative continuous) no condition on the training
remains: for all four models the trainings in finite precision tend to the trainings with exact derivatives. -/
theorem C102_smooth {kind : LossKind} (hk : kind.forward) {nS : ℕ} (sp : Fin nS → ℝ × ℝ) (sv : Fin nS → ℝ)
    (keys : List String) (lr : LearningRate) (n : ℕ) (s : TrainState)
    (hact : ∀ l ∈ specs, ∀ a, l.activation = some a → ∀ z, SmoothAt (act a) z ∧ NoJumpOf (act a) z) {κ : ℝ} (hκ : 0 < κ) :
    (∀ R, recordDense M (callN act useAttention inDim specs) beta p dout kind = .ok R → ∀ outs s',
      trainEpochs (trainStepWith (forwardDense (lossOf kind nc nt nq) M (fun a => act a 0) attentionDot useAttention
        inDim specs dout beta p) (trainableVariables inDim specs []) lr) n s = .ok (outs, s') →
      ∃ d > 0, TrainsWithin R.program M.inputTensor (trainableVariables inDim specs []) lr n s (CloseOut κ) outs s' κ d) ∧
    (∀ R, recordHard M (callHardN act useAttention inDim specs) p dout kind = .ok R → ∀ outs s',
      trainEpochs (trainStepWith (forwardHard (lossOf kind nc nt nq) M (fun a => act a 0) attentionDot useAttention
        inDim specs dout beta p applyHardBoundaryConstraints) (trainableVariables inDim specs []) lr) n s = .ok (outs, s') →
      ∃ d > 0, TrainsWithin R.program M.inputTensor (trainableVariables inDim specs []) lr n s (CloseOutHard κ) outs s' κ d) ∧
    (∀ R, recordInverse M (callN act useAttention inDim specs) beta dout sp sv keys = .ok R → ∀ outs s',
      trainEpochs (trainStepInverseFull (lossOf .poissonInverse nc nt nq) M (fun a => act a 0) attentionDot useAttention
        inDim specs dout beta p sp sv keys lr) n s = .ok (outs, s') →
      ∃ d > 0, TrainsWithin R.program M.inputTensor (trainableVariables inDim specs keys) lr n s (CloseOutInverse κ) outs s'
        κ d) ∧
    ∀ R, recordInverseDomain M (callN act useAttention inDim specs) beta p dout sp sv = .ok R → ∀ outs s',
      trainEpochs (trainStepWith (forwardInverseDomain (lossOf .cd2dInverseDomain nc nt nq) M (fun a => act a 0)
        attentionDot useAttention inDim specs dout beta p sp sv) (trainableVariables inDim specs []) lr) n s
        = .ok (outs, s') →
      ∃ d > 0, TrainsWithin R.program M.inputTensor (trainableVariables inDim specs []) lr n s (CloseOutInverse κ) outs s'
        κ d := by
  obtain ⟨e1, e2, e3, e4⟩ := C101_training M act useAttention inDim specs dout beta p hk sp sv keys lr n s
    fun l hl a ha z => (hact l hl a ha z).1
  have hj : ∀ θ {k : ℕ} (P : Fin k → ℝ × ℝ), NoJumpAt act useAttention (layersAt θ 0 inDim specs) P := fun θ _ P =>
    noJumpAt_of_continuous (fun l hl a ha z => (hact l hl a ha z).2) θ P
  have H := fun θ => C102_recorded M act useAttention inDim specs dout beta p θ (hj θ _) (hj θ _)
  rw [← e1, ← e2, ← e3, ← e4]
  exact ⟨fun R hR outs s' h => C102_dense M act useAttention inDim specs dout beta p kind lr n s hR R.program
      (fun _ _ _ t _ => (H t.weights).1 kind R hR) h hκ,
    fun R hR outs s' h => C102_hard M act useAttention inDim specs dout p kind lr n s hR R.program
      (fun _ _ _ t _ => (H t.weights).2.1 kind R hR) h hκ,
    fun R hR outs s' h => C102_inverse M act useAttention inDim specs dout beta sp sv keys lr n s hR R.program
      (fun _ _ _ t _ => ((H t.weights).2.2 nS sp sv (hj _ _)).1 keys R hR) h hκ,
    fun R hR outs s' h => C102_inverse_domain M act useAttention inDim specs dout beta p sp sv lr n s hR R.program
      (fun _ _ _ t _ => ((H t.weights).2.2 nS sp sv (hj _ _)).2 R hR) h hκ⟩

end

/-- The ReLU and its registered derivatives jump only at zero. -/
theorem C102_relu {z : ℝ} (hz : z ≠ 0) : NoJumpOf reluOps z := by
  intro i hi
  match i, hi with
  | 0, _ => exact (continuous_id.max continuous_const).continuousAt
  | 1, _ =>
    rcases lt_or_gt_of_ne hz with h | h
    · refine (continuousAt_const (y := (0 : ℝ))).congr ?_
      filter_upwards [gt_mem_nhds h] with y hy
      simp [reluOps, hy.le]
    · refine (continuousAt_const (y := (1 : ℝ))).congr ?_
      filter_upwards [lt_mem_nhds h] with y hy
      simp [reluOps, hy]
  | 2, _ => exact continuousAt_const

/-- `tanh` is smooth in this sense. -/
theorem C102_tanh (z : ℝ) : SmoothAt tanhOps z ∧ NoJumpOf tanhOps z :=
  ⟨tanhOps_smoothAt z, fun _ hi => (tanhOps_continuous hi).continuousAt⟩

/-! ## Rounding to nearest -/

lemma flU_mono {u u' η η' x r : ℝ} (hu : u ≤ u') (hη : η ≤ η') : FlU u η x r → FlU u' η' x r :=
  fun ⟨δ, θ, h1, h2, h3⟩ => ⟨δ, θ, h1.trans hu, h2.trans hη, h3⟩

lemma adamVarRun_rounded {τ : ℝ} (hτ : 0 ≤ τ) {fl : ℝ → ℝ} (hfl : ∀ x, FlU τ τ x (fl x)) (alpha g : ℝ) (x : Var)
    (s : (Var → ℝ) × (Var → ℝ) × Weights) : AdamVarRun τ alpha g x s (roundedAdamVar fl alpha g x s) :=
  ⟨_, _, _, Node.runT_inOrder hτ hfl _ _, Node.runT_inOrder hτ hfl _ _, Node.runT_inOrder hτ hfl _ _, rfl⟩

lemma adamFoldRun_rounded {τ : ℝ} (hτ : 0 ≤ τ) {fl : ℝ → ℝ} (hfl : ∀ x, FlU τ τ x (fl x)) (alpha : ℝ) :
    ∀ (ps : List (ℝ × Var)) (s : (Var → ℝ) × (Var → ℝ) × Weights),
      AdamFoldRun τ alpha ps s (ps.foldl (fun acc p => roundedAdamVar fl alpha p.1 p.2 acc) s)
  | [], _ => rfl
  | p :: ps, s => ⟨_, adamVarRun_rounded hτ hfl alpha p.1 p.2 s, adamFoldRun_rounded hτ hfl alpha ps _⟩

section
variable {nIn dout : ℕ} (P : Program nIn dout) (X : Fin nIn → ℝ × ℝ) (vars : List Var) (lr : LearningRate)

lemma stepRun_rounded {τ : ℝ} (hτ : 0 ≤ τ) {fl : ℝ → ℝ} (hfl : ∀ x, FlU τ τ x (fl x)) (s : TrainState) :
    StepRun τ P X vars lr s (roundedStep fl P X vars lr s).1 (roundedStep fl P X vars lr s).2 :=
  ⟨Node.runT_inOrder hτ hfl _ _, fun _ => Node.runT_inOrder hτ hfl _ _, fun _ => Node.runT_inOrder hτ hfl _ _,
    fun _ => Node.runT_inOrder hτ hfl _ _, _, fun _ _ => Node.runT_inOrder hτ hfl _ _,
    _, _, hfl _, adamFoldRun_rounded hτ hfl _ _ _, rfl⟩

/-- A training where every operation is followed by a rounding function with accuracy `τ` is a possible training, so the
theorems speak about something: possible trainings exist for all programs, points and states. -/
theorem C102_rounding {τ : ℝ} (hτ : 0 ≤ τ) {fl : ℝ → ℝ} (hfl : ∀ x, FlU τ τ x (fl x)) : ∀ (n : ℕ) (s : TrainState),
    EpochsRun τ P X vars lr n s (roundedEpochs fl P X vars lr n s).1 (roundedEpochs fl P X vars lr n s).2
  | 0, _ => ⟨rfl, rfl⟩
  | n + 1, s => ⟨_, _, _, stepRun_rounded P X vars lr hτ hfl s, C102_rounding hτ hfl n _, rfl⟩

/-- **The limit of the precision**: under the conclusion of the theorems above, the training with all operations (and the
points) rounded to the nearest number with `p` digits and smallest normal number `2 ^ emin` is within `κ` of the exact one
for all large `p` and small `emin`, with results below `2 ^ emin` flushed to zero and with gradual underflow. -/
theorem C102_precision {α : Type} {n : ℕ} {s s' : TrainState} {Rel : LossValues dout → α → Prop} {outs : List α}
    {κ d : ℝ} (hd : 0 < d) (h : TrainsWithin P X vars lr n s Rel outs s' κ d) :
    ∃ p₀ : ℕ, ∃ m₀ : ℤ, ∀ p ≥ p₀, ∀ emin ≤ m₀, ∀ fl ∈ ({flushed p emin, gradual p emin} : Set (ℝ → ℝ)),
      ∀ s₀, CloseState d s₀ s →
      List.Forall₂ Rel (roundedEpochs fl P (fun r => (fl (X r).1, fl (X r).2)) vars lr n s₀).1 outs ∧
        CloseState κ (roundedEpochs fl P (fun r => (fl (X r).1, fl (X r).2)) vars lr n s₀).2 s' := by
  obtain ⟨B, hB0, hB⟩ : ∃ B : ℝ, 0 ≤ B ∧ ∀ r, |(X r).1| ≤ B ∧ |(X r).2| ≤ B := by
    refine ⟨∑ r, (|(X r).1| + |(X r).2|), Finset.sum_nonneg fun _ _ => by positivity, fun r => ?_⟩
    have := Finset.single_le_sum (f := fun r => |(X r).1| + |(X r).2|) (fun _ _ => by positivity) (Finset.mem_univ r)
    have h1 := abs_nonneg (X r).1
    have h2 := abs_nonneg (X r).2
    constructor <;> linarith
  obtain ⟨p₀, m₀, hp⟩ := exists_precision (show 0 < d / (B + 1) by positivity)
  refine ⟨p₀, m₀, fun p h1 emin h2 fl hfl s₀ hs => ?_⟩
  obtain ⟨e1, e2⟩ := hp p h1 emin h2
  have e3 : (2 : ℝ) ^ (emin - p) ≤ 2 ^ emin := zpow_le_zpow_right₀ (by norm_num) (by omega)
  have hF : ∀ x, FlU (d / (B + 1)) (d / (B + 1)) x (fl x) := by
    intro x
    rcases hfl with rfl | hfl
    · exact flU_mono e1 e2 (flU_flushed p emin x)
    · rw [Set.mem_singleton_iff] at hfl
      subst hfl
      exact flU_mono e1 (e3.trans e2) (flU_gradual p emin x)
  have hle : d / (B + 1) ≤ d := div_le_self hd.le (by linarith)
  have hpt : ∀ x, |x| ≤ B → |fl x - x| ≤ d := by
    intro x hx
    obtain ⟨δ, θ, h3, h4, h5⟩ := hF x
    rw [h5]
    calc |x * (1 + δ) + θ - x| = |x * δ + θ| := by ring_nf
      _ ≤ |x| * |δ| + |θ| := by rw [← abs_mul]; exact abs_add_le _ _
      _ ≤ B * (d / (B + 1)) + d / (B + 1) := by gcongr
      _ = d := by field_simp
  exact h (d / (B + 1)) (by positivity) hle _ s₀ _ _ (fun r => ⟨hpt _ (hB r).1, hpt _ (hB r).2⟩) hs
    (C102_rounding P _ vars lr (by positivity) hF n s₀)

end

/-! ## At a jump -/

/-- One cell with one point, the origin. -/
private noncomputable def jumpData : ModelData 1 1 1 1 1 :=
  ⟨fun _ _ _ => 0, fun _ _ _ => 1, fun _ _ _ => 0, fun _ _ => 0, fun _ => (0, 0), fun _ => (0, 1), fun _ => 0, 1⟩

/-- The network `max (x + e) 0 - max (-x - e) 0`, which is `x + e`. -/
private noncomputable def jumpState (e : ℝ) : TrainState := ⟨fun v => match v with
    | .kernel 0 0 0 => 1
    | .kernel 0 0 1 => -1
    | .kernel 1 0 0 => 1
    | .kernel 1 1 0 => -1
    | .bias 0 0 => e
    | .bias 0 1 => -e
    | _ => 0, .init⟩

private def jumpSpecs : List LayerSpec := [⟨2, some "relu"⟩, ⟨1, none⟩]

private lemma jump_record : ∃ R, recordDense jumpData (callN (fun _ => reluOps) false 2 jumpSpecs) 10
    (some [("eps", 1)]) 1 .poisson = .ok R ∧ ∀ ρ, R.lossPde.value ρ = ((innerGradient (fun (r : Fin 1) (j : Fin 1) =>
      nodeEntry (callN (fun _ => reluOps) false 2 jumpSpecs (sourceRows 1)) r j) (.x 0)).value ρ) ^ 2 := by
  have h : ((1 : ℤ) * ((1 : ℕ) : ℤ) = ((1 : ℕ) : ℤ) ∧ (1 : ℤ) = ((1 : ℕ) : ℤ)) := by norm_num
  cases hR : recordDense jumpData (callN (fun _ => reluOps) false 2 jumpSpecs) 10 (some [("eps", 1)]) 1 .poisson with
  | ok R =>
    refine ⟨R, rfl, fun ρ => ?_⟩
    unfold recordDense cellsResidualN reshapeCellsN at hR
    simp only [jumpData, h] at hR
    cases hR
    rw [Node.value_ofExpr]
    simp [totalPdeE, meanSquare0E, transposeE, matvecE, readMat, readPred, constMat, ExprOf.map, ExprOf.eval, Leaf.ofReal,
      Node.value]
    norm_num
  | error e =>
    exfalso
    unfold recordDense cellsResidualN reshapeCellsN at hR
    simp only [jumpData, h] at hR
    cases hR

private lemma jump_gradient (e : ℝ) : (innerGradient (fun (r : Fin 1) (j : Fin 1) =>
      nodeEntry (callN (fun _ => reluOps) false 2 jumpSpecs (sourceRows 1)) r j) (.x 0)).value
      (Source.at jumpData.inputTensor (jumpState e).weights) = reluOps 1 e + reluOps 1 (-e) := by
  simp [innerGradient, nodeEntry, callN, jumpSpecs, sourceRows, Node.value, Node.back, applyLayersN, mapE, applyLayerN,
    List.ofFn_succ, Fin.sum_univ_two, Source.at, jumpState, jumpData]

/-- The condition cannot be dropped: there is a training of one epoch with a ReLU network where no accuracy suffices, since
an arbitrarily small change of the first weights moves a unit off its kink and changes the PDE loss by 1. -/
theorem C102_jump : ∃ (M : ModelData 1 1 1 1 1) (specs : List LayerSpec) (s s' : TrainState) (R : Recorded 1 1)
    (outs : List (TrainOut 1)),
    recordDense M (callN (fun _ => reluOps) false 2 specs) 10 (some [("eps", 1)]) 1 .poisson = .ok R ∧
    trainEpochs (tapedDense .poisson M (fun _ => reluOps) false 2 specs 1 10 (some [("eps", 1)]) (.constant 0.01)) 1 s
      = .ok (outs, s') ∧
    ¬ ∃ d > 0, TrainsWithin R.program M.inputTensor (trainableVariables 2 specs []) (.constant 0.01) 1 s (CloseOut (1 / 2))
      outs s' (1 / 2) d := by
  obtain ⟨R, hR, hv⟩ := jump_record
  refine ⟨jumpData, jumpSpecs, jumpState 0, _, R, _, hR, by
    rw [tapedDense_total _ _ _ _ _ _ _ _ hR, trainEpochs_total], ?_⟩
  rintro ⟨d, hd, H⟩
  have hc : CloseState d (jumpState d) (jumpState 0) := by
    refine ⟨fun x => ?_, fun x => by simpa [jumpState] using hd.le, fun x => by simpa [jumpState] using hd.le, rfl⟩
    simp only [jumpState]
    split <;> simp [abs_of_pos hd, hd.le]
  have h1 := (H 0 le_rfl hd.le jumpData.inputTensor (jumpState d) _ _ (fun r => by simpa using hd.le) hc
    (C102_rounding R.program jumpData.inputTensor (trainableVariables 2 jumpSpecs []) (.constant 0.01) le_rfl
      (fl := id) (fun x => ⟨0, 0, by simp, by simp, by simp⟩) 1 (jumpState d))).1
  simp only [List.range_one, List.map_cons, List.map_nil, Function.iterate_zero, id] at h1
  have h2 := (List.forall₂_cons.1 h1).1.1
  have h3 : (roundedStep id R.program jumpData.inputTensor (trainableVariables 2 jumpSpecs []) (.constant 0.01)
      (jumpState d)).1.lossPde = 1 := by
    show (R.lossPde).inOrder id _ = 1
    rw [Node.inOrder_id, hv, jump_gradient]
    simp [reluOps, hd, hd.le]
  have h4 : (R.values (Source.at jumpData.inputTensor (jumpState 0).weights)).lossPde = 0 := by
    show (R.lossPde).value _ = 0
    rw [hv, jump_gradient]
    simp [reluOps]
  rw [h3, h4] at h2
  norm_num at h2

/-! ## Cases that meet the hypotheses -/

section
/-- One cell with one point. -/
private noncomputable def rtData : ModelData 1 1 1 1 1 :=
  ⟨fun _ _ _ => 1, fun _ _ _ => 2, fun _ _ _ => 3, fun _ _ => 1, fun _ => (1, 1), fun _ => (0, 1), fun _ => 0, 1⟩

private def rtSpecs : List LayerSpec := [⟨3, some "a"⟩, ⟨1, none⟩]

/-- All weights are 1. -/
private def rtState : TrainState := ⟨fun _ => 1, .init⟩

private lemma rt_record (act : String → ℕ → ℝ → ℝ) : ∃ R, recordDense rtData (callN act false 2 rtSpecs) 10
    (some [("eps", 1)]) 1 .poisson = .ok R := by
  have h : ((1 : ℤ) * ((1 : ℕ) : ℤ) = ((1 : ℕ) : ℤ) ∧ (1 : ℤ) = ((1 : ℕ) : ℤ)) := by norm_num
  cases hR : recordDense rtData (callN act false 2 rtSpecs) 10 (some [("eps", 1)]) 1 .poisson with
  | ok R => exact ⟨R, rfl⟩
  | error e =>
    exfalso
    unfold recordDense cellsResidualN reshapeCellsN at hR
    simp only [rtData, h] at hR
    cases hR

/-- A `tanh` network trained for 1000 epochs: in precision `p` with gradual underflow the losses and the weights are
within 0.001 of those of the training with exact derivatives, if `p` is large. -/
example : ∃ outs s', trainEpochs (trainStepWith (forwardDense (lossOf .poisson 1 1 1) rtData (fun _ => tanhOps 0)
      attentionDot false 2 rtSpecs 1 10 (some [("eps", 1)])) (trainableVariables 2 rtSpecs []) (.constant 0.01)) 1000 rtState
        = .ok (outs, s') ∧
    ∃ R, recordDense rtData (callN (fun _ => tanhOps) false 2 rtSpecs) 10 (some [("eps", 1)]) 1 .poisson = .ok R ∧
      ∃ p₀ : ℕ, ∃ m₀ : ℤ, ∀ p ≥ p₀, ∀ emin ≤ m₀,
      let r := roundedEpochs (gradual p emin) R.program (fun r => (gradual p emin (rtData.inputTensor r).1,
        gradual p emin (rtData.inputTensor r).2)) (trainableVariables 2 rtSpecs []) (.constant 0.01) 1000 rtState
      List.Forall₂ (CloseOut 0.001) r.1 outs ∧ CloseState 0.001 r.2 s' := by
  obtain ⟨R, hR⟩ := rt_record fun _ => tanhOps
  have hs : ∀ l ∈ rtSpecs, ∀ a, l.activation = some a → ∀ z,
      SmoothAt ((fun _ => tanhOps : String → ℕ → ℝ → ℝ) a) z ∧ NoJumpOf ((fun _ => tanhOps : String → ℕ → ℝ → ℝ) a) z :=
    fun _ _ _ _ z => C102_tanh z
  have e := (C101_training rtData (fun _ => tanhOps) false 2 rtSpecs 1 10 (some [("eps", 1)]) (.inl rfl : LossKind.forward
    .poisson) (nS := 1) (fun _ => (0, 0)) (fun _ => 0) [] (.constant 0.01) 1000 rtState
    fun l hl a ha z => (hs l hl a ha z).1).1
  have h := (C102_smooth rtData (fun _ => tanhOps) false 2 rtSpecs 1 10 (some [("eps", 1)]) (.inl rfl : LossKind.forward
    .poisson) (nS := 1) (fun _ => (0, 0)) (fun _ => 0) [] (.constant 0.01) 1000 rtState hs
    (κ := 0.001) (by norm_num)).1 R hR
  obtain ⟨⟨outs, s'⟩, hok⟩ : ∃ o, trainEpochs (tapedDense .poisson rtData (fun _ => tanhOps) false 2 rtSpecs 1 10
      (some [("eps", 1)]) (.constant 0.01)) 1000 rtState = .ok o := by
    rw [tapedDense_total rtData (fun _ => tanhOps) false 2 rtSpecs 1 10 (some [("eps", 1)]) hR (.constant 0.01),
      trainEpochs_total]
    exact ⟨_, rfl⟩
  rw [e] at hok
  obtain ⟨d, hd, H⟩ := h _ _ hok
  obtain ⟨p₀, m₀, hp⟩ := C102_precision _ _ _ _ hd H
  exact ⟨_, _, hok, R, hR, p₀, m₀, fun p h1 emin h2 => hp p h1 emin h2 _ (.inr rfl) rtState
    ⟨fun _ => by simpa using hd.le, fun _ => by simpa using hd.le, fun _ => by simpa using hd.le, rfl⟩⟩

/-- A ReLU network with no unit at its kink. -/
example : NoJumpAt (fun _ => reluOps) false (layersAt rtState.weights 0 2 rtSpecs) rtData.inputTensor ∧
    NoJumpAt (fun _ => reluOps) false (layersAt rtState.weights 0 2 rtSpecs) rtData.dirichletInput := by
  have H : ∀ {m : ℕ} (X : Fin m → ℝ × ℝ), (∀ r, 0 ≤ (X r).1 + (X r).2) →
      NoJumpAt (fun _ => reluOps) false (layersAt rtState.weights 0 2 rtSpecs) X := by
    intro m X hX rows h x hx
    simp only [Bool.false_eq_true, if_false, Except.ok.injEq] at h
    subst h
    obtain ⟨r, rfl⟩ := (List.mem_ofFn).1 hx
    refine ⟨fun a _ j => ?_, nofun, trivial⟩
    have h1 : 0 < preActivation ⟨2, 3, fun i j => rtState.weights (.kernel 0 i j), fun j => rtState.weights (.bias 0 j),
        some "a"⟩ [(X r).1, (X r).2] j := by
      have := hX r
      simp only [preActivation, rtState, mul_one, Fin.sum_univ_two]
      show (0 : ℝ) < (X r).1 + (X r).2 + 1
      linarith
    exact C102_relu h1.ne'
  exact ⟨H _ fun r => by norm_num [rtData], H _ fun r => by norm_num [rtData]⟩

end

end FastVPINNs
