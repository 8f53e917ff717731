import Verif.Spec.Penalty
import Verif.Props.Settle

/-! # C108: the weight of the boundary loss -/

namespace FastVPINNs

open Spec

lemma tradeOff {β₁ β₂ δ₁ δ₂ b₁ b₂ q₁ q₂ : ℝ} (hβ : β₁ < β₂) (h1 : q₁ + β₁ * b₁ ≤ q₂ + β₁ * b₂ + δ₁)
    (h2 : q₂ + β₂ * b₂ ≤ q₁ + β₂ * b₁ + δ₂) : TradeOff β₁ β₂ δ₁ δ₂ b₁ b₂ q₁ q₂ := by
  have hd : 0 < β₂ - β₁ := by linarith
  have key : b₂ ≤ b₁ + (δ₁ + δ₂) / (β₂ - β₁) := by
    have : b₂ - b₁ ≤ (δ₁ + δ₂) / (β₂ - β₁) := by
      rw [le_div_iff₀ hd]
      nlinarith
    linarith
  refine ⟨key, fun h0 => ?_⟩
  have := mul_le_mul_of_nonneg_left key h0
  linarith

section
variable {nc nt nq nIn nBd dout : ℕ} (L : LossFunction nc nt nq) (M : ModelData nc nt nq nIn nBd) (p : ParamDict)

/-- The losses of one network for two values of `beta`. -/
lemma trainStepDense_beta (net : Network dout) (β β' : ℝ) (o : TrainOut dout)
    (h : trainStepDense L M net β p = .ok o) : trainStepDense L M net β' p
      = .ok ⟨o.lossPde, o.lossDirichlet, fun j => o.lossPde + β' * o.lossDirichlet j⟩ ∧
      ∀ j, o.loss j = o.lossPde + β * o.lossDirichlet j := by
  unfold trainStepDense at h ⊢
  dsimp only at h ⊢
  cases hr : cellsResidual L M net p [] with
  | error e => rw [hr] at h; cases h
  | ok r =>
    rw [hr] at h
    cases h
    exact ⟨rfl, fun _ => rfl⟩

lemma trainStepInverse_beta {nS : ℕ} (sp : Fin nS → ℝ × ℝ) (sv : Fin nS → ℝ) (q : ParamDict) (net : Network dout)
    (β β' : ℝ) (o : TrainOutInverse dout) (h : trainStepInverse L M sp sv q net β p = .ok o) :
    trainStepInverse L M sp sv q net β' p = .ok ⟨o.lossPde, o.lossDirichlet,
      fun j => o.lossPde + β' * o.lossDirichlet j + 10 * o.sensorLoss j, o.inverseParams, o.sensorLoss⟩ ∧
      ∀ j, o.loss j = o.lossPde + β * o.lossDirichlet j + 10 * o.sensorLoss j := by
  unfold trainStepInverse at h ⊢
  dsimp only at h ⊢
  cases hr : cellsResidual L M net p [("inverse_params_dict", .params q)] with
  | error e => rw [hr] at h; cases h
  | ok r =>
    rw [hr] at h
    cases h
    exact ⟨rfl, fun _ => rfl⟩

lemma trainStepInverseDomain_beta {nS : ℕ} (sp : Fin nS → ℝ × ℝ) (sv : Fin nS → ℝ) (net : Network dout)
    (β β' : ℝ) (o : TrainOutInverse 1) (h : trainStepInverseDomain L M sp sv net β p = .ok o) :
    trainStepInverseDomain L M sp sv net β' p = .ok ⟨o.lossPde, o.lossDirichlet,
      fun j => o.lossPde + β' * o.lossDirichlet j + 10 * o.sensorLoss j, o.inverseParams, o.sensorLoss⟩ ∧
      ∀ j, o.loss j = o.lossPde + β * o.lossDirichlet j + 10 * o.sensorLoss j := by
  unfold trainStepInverseDomain at h ⊢
  dsimp only at h ⊢
  split at h
  · rename_i hd
    rw [dif_pos hd]
    split at h
    · split at h
      · cases h
      · cases h
        rename_i h1 h2 h3 h4 _ _ h5
        simp only
        exact ⟨trivial, fun _ => trivial⟩
    all_goals cases h
  · cases h

/-- **C108** (`DenseModel`).  Let `S` be any set of networks (of any kind, with any loss function) and let two of
them be best in `S` up to `δ₁`, `δ₂` for `beta` equal to `β₁ < β₂`.  Then the boundary loss reported for the larger
`beta` is not the larger one and, for `β₁ ≥ 0`, its PDE loss not the smaller one, up to the tolerances. -/
theorem C108_dense (S : Set (Network 1)) (β₁ β₂ δ₁ δ₂ : ℝ) (hβ : β₁ < β₂) (net₁ net₂ : Network 1)
    (h₁ : NearlyBest S (fun net v => ∃ o, trainStepDense L M net β₁ p = .ok o ∧ o.loss 0 = v) δ₁ net₁)
    (h₂ : NearlyBest S (fun net v => ∃ o, trainStepDense L M net β₂ p = .ok o ∧ o.loss 0 = v) δ₂ net₂)
    (o₁ o₂ : TrainOut 1) (e₁ : trainStepDense L M net₁ β₁ p = .ok o₁) (e₂ : trainStepDense L M net₂ β₂ p = .ok o₂) :
    TradeOff β₁ β₂ δ₁ δ₂ (o₁.lossDirichlet 0) (o₂.lossDirichlet 0) o₁.lossPde o₂.lossPde := by
  obtain ⟨m₁, _, ⟨o₁', q₁, rfl⟩, b₁⟩ := h₁
  obtain ⟨m₂, _, ⟨o₂', q₂, rfl⟩, b₂⟩ := h₂
  obtain rfl := Except.ok.inj (e₁.symm.trans q₁)
  obtain rfl := Except.ok.inj (e₂.symm.trans q₂)
  have c₁ := b₁ net₂ m₂ _ ⟨_, (trainStepDense_beta L M p net₂ β₂ β₁ o₂ e₂).1, rfl⟩
  have c₂ := b₂ net₁ m₁ _ ⟨_, (trainStepDense_beta L M p net₁ β₁ β₂ o₁ e₁).1, rfl⟩
  rw [(trainStepDense_beta L M p net₁ β₁ β₁ o₁ e₁).2] at c₁
  rw [(trainStepDense_beta L M p net₂ β₂ β₂ o₂ e₂).2] at c₂
  exact tradeOff hβ c₁ c₂

/-- **C108** (inverse problems).  The same for `DenseModel_Inverse`, over any set of networks and parameters: the
rest is the PDE loss plus ten times the sensor loss. -/
theorem C108_inverse {nS : ℕ} (sp : Fin nS → ℝ × ℝ) (sv : Fin nS → ℝ) (S : Set (ParamDict × Network 1))
    (β₁ β₂ δ₁ δ₂ : ℝ) (hβ : β₁ < β₂) (x₁ x₂ : ParamDict × Network 1)
    (h₁ : NearlyBest S (fun x v => ∃ o, trainStepInverse L M sp sv x.1 x.2 β₁ p = .ok o ∧ o.loss 0 = v) δ₁ x₁)
    (h₂ : NearlyBest S (fun x v => ∃ o, trainStepInverse L M sp sv x.1 x.2 β₂ p = .ok o ∧ o.loss 0 = v) δ₂ x₂)
    (o₁ o₂ : TrainOutInverse 1) (e₁ : trainStepInverse L M sp sv x₁.1 x₁.2 β₁ p = .ok o₁)
    (e₂ : trainStepInverse L M sp sv x₂.1 x₂.2 β₂ p = .ok o₂) :
    TradeOff β₁ β₂ δ₁ δ₂ (o₁.lossDirichlet 0) (o₂.lossDirichlet 0) (o₁.lossPde + 10 * o₁.sensorLoss 0)
      (o₂.lossPde + 10 * o₂.sensorLoss 0) := by
  obtain ⟨m₁, _, ⟨o₁', q₁, rfl⟩, b₁⟩ := h₁
  obtain ⟨m₂, _, ⟨o₂', q₂, rfl⟩, b₂⟩ := h₂
  obtain rfl := Except.ok.inj (e₁.symm.trans q₁)
  obtain rfl := Except.ok.inj (e₂.symm.trans q₂)
  have c₁ := b₁ x₂ m₂ _ ⟨_, (trainStepInverse_beta L M p sp sv x₂.1 x₂.2 β₂ β₁ o₂ e₂).1, rfl⟩
  have c₂ := b₂ x₁ m₁ _ ⟨_, (trainStepInverse_beta L M p sp sv x₁.1 x₁.2 β₁ β₂ o₁ e₁).1, rfl⟩
  rw [(trainStepInverse_beta L M p sp sv x₁.1 x₁.2 β₁ β₁ o₁ e₁).2] at c₁
  rw [(trainStepInverse_beta L M p sp sv x₂.1 x₂.2 β₂ β₂ o₂ e₂).2] at c₂
  exact tradeOff hβ (by dsimp only at c₁; linarith) (by dsimp only at c₂; linarith)

/-- **C108** (`DenseModel_Inverse_Domain`). -/
theorem C108_inverse_domain {nS : ℕ} (sp : Fin nS → ℝ × ℝ) (sv : Fin nS → ℝ) (S : Set (Network dout))
    (β₁ β₂ δ₁ δ₂ : ℝ) (hβ : β₁ < β₂) (net₁ net₂ : Network dout)
    (h₁ : NearlyBest S (fun net v => ∃ o, trainStepInverseDomain L M sp sv net β₁ p = .ok o ∧ o.loss 0 = v) δ₁ net₁)
    (h₂ : NearlyBest S (fun net v => ∃ o, trainStepInverseDomain L M sp sv net β₂ p = .ok o ∧ o.loss 0 = v) δ₂ net₂)
    (o₁ o₂ : TrainOutInverse 1) (e₁ : trainStepInverseDomain L M sp sv net₁ β₁ p = .ok o₁)
    (e₂ : trainStepInverseDomain L M sp sv net₂ β₂ p = .ok o₂) :
    TradeOff β₁ β₂ δ₁ δ₂ (o₁.lossDirichlet 0) (o₂.lossDirichlet 0) (o₁.lossPde + 10 * o₁.sensorLoss 0)
      (o₂.lossPde + 10 * o₂.sensorLoss 0) := by
  obtain ⟨m₁, _, ⟨o₁', q₁, rfl⟩, b₁⟩ := h₁
  obtain ⟨m₂, _, ⟨o₂', q₂, rfl⟩, b₂⟩ := h₂
  obtain rfl := Except.ok.inj (e₁.symm.trans q₁)
  obtain rfl := Except.ok.inj (e₂.symm.trans q₂)
  have c₁ := b₁ net₂ m₂ _ ⟨_, (trainStepInverseDomain_beta L M p sp sv net₂ β₂ β₁ o₂ e₂).1, rfl⟩
  have c₂ := b₂ net₁ m₁ _ ⟨_, (trainStepInverseDomain_beta L M p sp sv net₁ β₁ β₂ o₁ e₁).1, rfl⟩
  rw [(trainStepInverseDomain_beta L M p sp sv net₁ β₁ β₁ o₁ e₁).2] at c₁
  rw [(trainStepInverseDomain_beta L M p sp sv net₂ β₂ β₂ o₂ e₂).2] at c₂
  exact tradeOff hβ (by dsimp only at c₁; linarith) (by dsimp only at c₂; linarith)

/-- **C108** (`DenseModel`, large `beta`).  With the three forward losses the boundary loss of a network that is
best in `S` up to `δ` exceeds that of any other network in `S` by at most the PDE loss of the latter plus `δ`,
divided by `beta`. -/
theorem C108_dense_bound (kind : LossKind) (hk : kind.forward) (S : Set (Network 1)) (beta δ : ℝ) (hβ : 0 < beta)
    (net net' : Network 1) (hb : NearlyBest S (fun net v => ∃ o,
      trainStepDense (lossOf kind nc nt nq) M net beta p = .ok o ∧ o.loss 0 = v) δ net) (hnet : net' ∈ S)
    (o o' : TrainOut 1) (e : trainStepDense (lossOf kind nc nt nq) M net beta p = .ok o)
    (e' : trainStepDense (lossOf kind nc nt nq) M net' beta p = .ok o') :
    o.lossDirichlet 0 ≤ o'.lossDirichlet 0 + (o'.lossPde + δ) / beta := by
  obtain ⟨-, _, ⟨q, h1, rfl⟩, h2⟩ := hb
  obtain rfl := Except.ok.inj (e.symm.trans h1)
  have h3 := h2 net' hnet _ ⟨_, e', rfl⟩
  rw [(trainStepDense_beta _ M p net beta beta o e).2, (trainStepDense_beta _ M p net' beta beta o' e').2] at h3
  have h4 : 0 ≤ o.lossPde := by
    unfold trainStepDense at e
    dsimp only at e
    cases h : cellsResidual (lossOf kind nc nt nq) M net p [] with
    | error e' => rw [h] at e; cases e
    | ok R =>
      rw [h] at e
      cases e
      obtain ⟨v, gx, gy, hc⟩ := cellsResidual_ok M _ _ _ _ _ h
      rw [forward_call hk] at hc
      rw [lit_zero_add]
      exact sum_runLoss_nonneg _ _ _ _ _ _ _ _ _ _ _ _ hc
  have h5 : o.lossDirichlet 0 - o'.lossDirichlet 0 ≤ (o'.lossPde + δ) / beta := by
    rw [le_div_iff₀ hβ]
    nlinarith
  linarith

end

/-- **C108** (fixed hidden layers).  With `0 ≤ β₁ < β₂` and the same hidden layers, let the gradients of the two
losses vanish in the entries of the output layer.  Then the boundary loss for `β₂` is not larger and the PDE
loss not smaller than for `β₁`. -/
theorem C108_stationary {nc nt nq nIn nBd : ℕ} (M : ModelData nc nt nq nIn nBd) (pt : Fin nc → Fin nq → ℝ × ℝ)
    (hM : Shaped M pt) (act : String → ℝ → ℝ) (attention : Batch → Except PyErr Batch) (a : String)
    (hσ : ContDiff ℝ 2 (act a)) (dims : List ℕ) (specs : List LayerSpec) (h : 2 ≤ dims.length)
    (hs : layerSpecs dims a = .ok specs) (hin : dims.getD 0 0 = 2) (p : ParamDict)
    (hout : dims.getD (dims.length - 1) 0 = 1) (kind : LossKind) (hk : kind.forward) (A : Fin nc → Fin nq → ℝ)
    (b : ℝ × ℝ) (r : ℝ) (hco : Coefficients kind p none [] A b r) (β₁ β₂ : ℝ) (h0 : 0 ≤ β₁) (hβ : β₁ < β₂)
    (θ₁ θ₂ : Weights) (hd : DifferOnly (OutputColumn (dims.length - 2) 0)
      (trainableVariables (dims.getD 0 0) specs []) θ₁ θ₂)
    (hg₁ : ∀ v ∈ trainableVariables (dims.getD 0 0) specs [], OutputColumn (dims.length - 2) 0 v →
      lossGradient (forwardDense (lossOf kind nc nt nq) M act attention false (dims.getD 0 0) specs 1 β₁ p) θ₁ v = 0)
    (hg₂ : ∀ v ∈ trainableVariables (dims.getD 0 0) specs [], OutputColumn (dims.length - 2) 0 v →
      lossGradient (forwardDense (lossOf kind nc nt nq) M act attention false (dims.getD 0 0) specs 1 β₂ p) θ₂ v = 0) :
    ∃ o₁ o₂, trainStepDense (lossOf kind nc nt nq) M
        (networkAt act attention false (dims.getD 0 0) specs 1 θ₁) β₁ p = .ok o₁ ∧
      trainStepDense (lossOf kind nc nt nq) M
        (networkAt act attention false (dims.getD 0 0) specs 1 θ₂) β₂ p = .ok o₂ ∧
      o₂.lossDirichlet 0 ≤ o₁.lossDirichlet 0 ∧ o₁.lossPde ≤ o₂.lossPde := by
  obtain ⟨J₁, j₁, -, s₁⟩ := C106_dense M pt hM act attention a hσ dims specs h hs hin β₁ p h0 hout kind hk A b r hco
  obtain ⟨J₂, j₂, -, s₂⟩ := C106_dense M pt hM act attention a hσ dims specs h hs hin β₂ p (h0.trans hβ.le) hout kind
    hk A b r hco
  obtain ⟨o₁, e₁, -⟩ := j₁ θ₁
  obtain ⟨o₂, e₂, -⟩ := j₂ θ₂
  have hd' : DifferOnly (OutputColumn (dims.length - 2) 0) (trainableVariables (dims.getD 0 0) specs []) θ₂ θ₁ :=
    fun v hv => hd v hv.symm
  have t := C108_dense (lossOf kind nc nt nq) M p
    {n | n = networkAt act attention false (dims.getD 0 0) specs 1 θ₁ ∨
      n = networkAt act attention false (dims.getD 0 0) specs 1 θ₂} β₁ β₂ 0 0 hβ _ _
    ⟨Or.inl rfl, J₁ θ₁, j₁ θ₁, ?_⟩ ⟨Or.inr rfl, J₂ θ₂, j₂ θ₂, ?_⟩ o₁ o₂ e₁ e₂
  · refine ⟨o₁, o₂, e₁, e₂, ?_, ?_⟩
    · simpa using t.1
    · simpa using t.2 h0
  · rintro _ (rfl | rfl) w hw
    · obtain ⟨o, e, rfl⟩ := hw
      obtain ⟨o', e', he⟩ := j₁ θ₁
      obtain rfl := Except.ok.inj (e.symm.trans e')
      rw [he, add_zero]
    · obtain ⟨o, e, rfl⟩ := hw
      obtain ⟨o', e', he⟩ := j₁ θ₂
      obtain rfl := Except.ok.inj (e.symm.trans e')
      rw [he, add_zero]
      exact s₁ θ₁ hg₁ θ₂ hd
  · rintro _ (rfl | rfl) w hw
    · obtain ⟨o, e, rfl⟩ := hw
      obtain ⟨o', e', he⟩ := j₂ θ₁
      obtain rfl := Except.ok.inj (e.symm.trans e')
      rw [he, add_zero]
      exact s₂ θ₂ hg₂ θ₁ hd'
    · obtain ⟨o, e, rfl⟩ := hw
      obtain ⟨o', e', he⟩ := j₂ θ₂
      obtain rfl := Except.ok.inj (e.symm.trans e')
      rw [he, add_zero]

/-- A genuine trade-off: networks `t x + t`, for which the PDE asks for slope one and the boundary value for zero.
The best of them have `t = 1/2` for `beta = 1` and `t = 1/4` for `beta = 3`: the hypotheses of `C108_dense` and
`C108_dense_bound`. -/
example (act : String → ℝ → ℝ) (attention : Batch → Except PyErr Batch) :
    let w : ℝ → Weights := fun t v => if v = .kernel 0 0 0 ∨ v = .bias 0 0 then t else 0
    let net : ℝ → Network 1 := fun t => networkAt act attention false 2 [⟨1, none⟩] 1 (w t)
    let best : ℝ → Network 1 → Prop := fun beta => NearlyBest (Set.range net) (fun n v => ∃ o,
      trainStepDense (lossOf .poisson 1 1 1) (lineModel fun _ : Fin 1 => 1) n beta (some [("eps", 1)]) = .ok o ∧
        o.loss 0 = v) 0
    best 1 (net (1 / 2)) ∧ best 3 (net (1 / 4)) ∧ ∃ o₁ o₂,
      trainStepDense (lossOf .poisson 1 1 1) (lineModel fun _ : Fin 1 => 1) (net (1 / 2)) 1 (some [("eps", 1)]) = .ok o₁ ∧
      trainStepDense (lossOf .poisson 1 1 1) (lineModel fun _ : Fin 1 => 1) (net (1 / 4)) 3 (some [("eps", 1)]) = .ok o₂ ∧
      o₂.lossDirichlet 0 ≤ o₁.lossDirichlet 0 ∧ o₁.lossPde ≤ o₂.lossPde := by
  intro w net best
  have hval : ∀ beta t, ∃ o, trainStepDense (lossOf .poisson 1 1 1) (lineModel fun _ : Fin 1 => 1) (net t) beta
      (some [("eps", 1)]) = .ok o ∧ o.loss 0 = (t - 1) ^ 2 + beta * t ^ 2 := by
    intro beta t
    obtain ⟨o, ho⟩ := line_step (fun _ : Fin 1 => 1) attention act beta (w t)
    refine ⟨o, ho, ?_⟩
    have := line_total (fun _ : Fin 1 => 1) attention act beta (w t)
    unfold Forward.total forwardDense at this
    rw [ho] at this
    simp only [Fin.sum_univ_one] at this
    rw [this]
    simp [meanSq, w]
    ring
  have hbest : ∀ beta t, 0 ≤ beta → (1 + beta) * t = 1 → best beta (net t) := by
    intro beta t h0 ht
    refine ⟨⟨t, rfl⟩, _, hval beta t, ?_⟩
    rintro _ ⟨s, rfl⟩ v ⟨o, ho, rfl⟩
    obtain ⟨o', ho', e⟩ := hval beta s
    obtain rfl := Except.ok.inj (ho.symm.trans ho')
    rw [e]
    nlinarith [mul_nonneg h0 (sq_nonneg (s - t)), sq_nonneg (s - t)]
  obtain ⟨o₁, e₁, -⟩ := hval 1 (1 / 2)
  obtain ⟨o₂, e₂, -⟩ := hval 3 (1 / 4)
  have b₁ := hbest 1 (1 / 2) (by norm_num) (by norm_num)
  have b₂ := hbest 3 (1 / 4) (by norm_num) (by norm_num)
  have t := C108_dense _ (lineModel fun _ : Fin 1 => 1) (some [("eps", 1)]) _ 1 3 0 0 (by norm_num) _ _ b₁ b₂ o₁ o₂ e₁ e₂
  have := C108_dense_bound (lineModel fun _ : Fin 1 => 1) (some [("eps", 1)]) .poisson (Or.inl rfl) _ 1 0 (by norm_num)
    _ (net 0) b₁ ⟨0, rfl⟩ o₁
  exact ⟨b₁, b₂, o₁, o₂, e₁, e₂, by simpa using t.1, by simpa using t.2 (by norm_num)⟩

/-- The hypotheses of `C108_stationary`: the solution `x` is stationary for every `beta`. -/
example (attention : Batch → Except PyErr Batch) : ∃ o₁ o₂,
    trainStepDense (lossOf .poisson 1 1 1) (lineModel fun _ : Fin 1 => 1) (networkAt (fun _ => Real.tanh) attention
      false 2 [⟨1, none⟩] 1 fun v => if v = .kernel 0 0 0 then 1 else 0) 1 (some [("eps", 1)]) = .ok o₁ ∧
    trainStepDense (lossOf .poisson 1 1 1) (lineModel fun _ : Fin 1 => 1) (networkAt (fun _ => Real.tanh) attention
      false 2 [⟨1, none⟩] 1 fun v => if v = .kernel 0 0 0 then 1 else 0) 10 (some [("eps", 1)]) = .ok o₂ ∧
    o₂.lossDirichlet 0 ≤ o₁.lossDirichlet 0 ∧ o₁.lossPde ≤ o₂.lossPde := by
  have hg : ∀ beta : ℝ, 0 ≤ beta → ∀ v, lossGradient (forwardDense (lossOf .poisson 1 1 1)
      (lineModel fun _ : Fin 1 => 1) (fun _ => Real.tanh) attention false 2 [⟨1, none⟩] 1 beta (some [("eps", 1)]))
      (fun v => if v = .kernel 0 0 0 then 1 else 0) v = 0 := by
    intro beta h0 v
    have := lossGradient_eq_zero (forwardDense (lossOf .poisson 1 1 1)
      (lineModel fun _ : Fin 1 => 1) (fun _ => Real.tanh) attention false 2 [⟨1, none⟩] 1 beta (some [("eps", 1)]))
      (fun θ => forwardDense_nonneg _ _ _ _ _ _ _ _ θ .poisson (Or.inl rfl) h0)
      (fun v => if v = .kernel 0 0 0 then 1 else 0) (by rw [line_total]; simp [meanSq])
    rw [this]
  exact C108_stationary (lineModel fun _ : Fin 1 => 1) _ (lineModel_shaped _) (fun _ => Real.tanh) attention "tanh"
    contDiff_tanh [2, 1] [⟨1, none⟩] (by simp) demo_layerSpecs rfl (some [("eps", 1)]) rfl .poisson (Or.inl rfl) _ _ _
    ⟨1, ⟨_, rfl, rfl⟩, rfl, rfl, rfl⟩ 1 10 (by norm_num) (by norm_num) _ _ (fun v hv => absurd rfl hv)
    (fun v _ _ => hg 1 (by norm_num) v) fun v _ _ => hg 10 (by norm_num) v

/-- The hypotheses of `C108_inverse` and `C108_inverse_domain`: networks `x + t` with parameter or coefficient one,
for which the sensor asks for `t = 1` and the boundary value for `t = 0`.  The best ones have `t = 1/2` for
`beta = 10` and `t = 1/4` for `beta = 30`. -/
example (attention : Batch → Except PyErr Batch) :
    let w : ℝ → Weights := fun t v => if v = .kernel 0 0 0 ∨ v = .inverse "eps" ∨ v = .bias 0 1 then 1 else
      if v = .bias 0 0 then t else 0
    let net : ℝ → Network 1 := fun t => networkAt (fun _ => Real.tanh) attention false 2 [⟨1, none⟩] 1 (w t)
    let net' : ℝ → Network 2 := fun t => networkAt (fun _ => Real.tanh) attention false 2 [⟨2, none⟩] 2 (w t)
    let best : ℝ → ParamDict × Network 1 → Prop := fun beta => NearlyBest
      (Set.range fun t => (inverseAt (w t) ["eps"], net t)) (fun x v => ∃ o, trainStepInverse (lossPoissonInverse 1 1 1)
      (lineModel fun _ : Fin 1 => 1) (fun _ : Fin 1 => (0, 0)) (fun _ => 1) x.1 x.2 beta none = .ok o ∧ o.loss 0 = v) 0
    let best' : ℝ → Network 2 → Prop := fun beta => NearlyBest (Set.range net') (fun x v => ∃ o,
      trainStepInverseDomain (lossCd2dInverseDomain 1 1 1) (lineModel fun _ : Fin 1 => 1) (fun _ : Fin 1 => (0, 0))
      (fun _ => 1) x beta (some [("b_x", 0), ("b_y", 0), ("c", 0)]) = .ok o ∧ o.loss 0 = v) 0
    best 10 (inverseAt (w (1 / 2)) ["eps"], net (1 / 2)) ∧ best 30 (inverseAt (w (1 / 4)) ["eps"], net (1 / 4)) ∧
      best' 10 (net' (1 / 2)) ∧ best' 30 (net' (1 / 4)) := by
  intro w net net' best best'
  have hval : ∀ beta t, 0 ≤ beta → ∃ o, trainStepInverse (lossPoissonInverse 1 1 1) (lineModel fun _ : Fin 1 => 1)
      (fun _ : Fin 1 => (0, 0)) (fun _ => 1) (inverseAt (w t) ["eps"]) (net t) beta none = .ok o ∧
      o.loss 0 = beta * t ^ 2 + 10 * (t - 1) ^ 2 := by
    intro beta t h0
    obtain ⟨J, h1, -⟩ := C106_inverse (lineModel fun _ : Fin 1 => 1) _ (lineModel_shaped _) (fun _ => Real.tanh)
      attention "tanh" contDiff_tanh [2, 1] [⟨1, none⟩] (by simp) demo_layerSpecs rfl beta none h0 rfl
      (fun _ : Fin 1 => (0, 0)) (fun _ => 1) ["eps"] (by simp)
    have htot := forwardInverse_total (lineModel fun _ : Fin 1 => 1) _ (lineModel_shaped _) (fun _ => Real.tanh)
      attention "tanh" [2, 1] [⟨1, none⟩] (by simp) demo_layerSpecs rfl beta none rfl
      (fun _ : Fin 1 => (0, 0)) (fun _ => 1) ["eps"] (by simp) (w t)
    obtain ⟨o, ho, -⟩ := h1 (w t)
    refine ⟨o, ho, ?_⟩
    unfold Forward.total forwardInverse at htot
    rw [ho] at htot
    simp only [Fin.sum_univ_one] at htot
    rw [htot, lineModel_pdeLoss]
    simp only [demo_net]
    simp [meanSq, lineModel, w]
    ring
  have hls : layerSpecs [2, 2] "tanh" = .ok [⟨2, none⟩] := rfl
  have hval' : ∀ beta t, 0 ≤ beta → ∃ o, trainStepInverseDomain (lossCd2dInverseDomain 1 1 1)
      (lineModel fun _ : Fin 1 => 1) (fun _ : Fin 1 => (0, 0)) (fun _ => 1) (net' t) beta
      (some [("b_x", 0), ("b_y", 0), ("c", 0)]) = .ok o ∧ o.loss 0 = beta * t ^ 2 + 10 * (t - 1) ^ 2 := by
    intro beta t h0
    obtain ⟨J, h1, -⟩ := C106_inverse_domain (lineModel fun _ : Fin 1 => 1) _ (lineModel_shaped _)
      (fun _ => Real.tanh) attention "tanh" contDiff_tanh [2, 2] [⟨2, none⟩] (by simp) hls rfl beta
      (some [("b_x", 0), ("b_y", 0), ("c", 0)]) h0 rfl (fun _ : Fin 1 => (0, 0)) (fun _ => 1) (0, 0) 0
      ⟨_, rfl, rfl⟩ ⟨_, rfl, rfl⟩ ⟨_, rfl, rfl⟩
    have htot := forwardInverseDomain_total (lineModel fun _ : Fin 1 => 1) _ (lineModel_shaped _)
      (fun _ => Real.tanh) attention "tanh" [2, 2] [⟨2, none⟩] (by simp) hls rfl beta
      (some [("b_x", 0), ("b_y", 0), ("c", 0)]) rfl (fun _ : Fin 1 => (0, 0)) (fun _ => 1) (0, 0) 0
      ⟨_, rfl, rfl⟩ ⟨_, rfl, rfl⟩ ⟨_, rfl, rfl⟩ (w t)
    obtain ⟨o, ho, -⟩ := h1 (w t)
    refine ⟨o, ho, ?_⟩
    unfold Forward.total forwardInverseDomain at htot
    rw [ho] at htot
    simp only [Fin.sum_univ_one] at htot
    rw [htot]
    have hnet : ∀ z, netFn (fun _ => Real.tanh) "tanh" [2, 2] [⟨2, none⟩] (w t) 0 z = z.1 * 1 + z.2 * 0 + t ∧
        netFn (fun _ => Real.tanh) "tanh" [2, 2] [⟨2, none⟩] (w t) 1 z = 1 := by
      intro z
      constructor <;>
        simp [netFn, outputValue, hiddenValues, kernels, biases, kernelAt, biasAt, layersAt, Finset.sum_range_succ, w]
    have hfun : netFn (fun _ => Real.tanh) "tanh" [2, 2] [⟨2, none⟩] (w t) 0 = fun z => z.1 * 1 + z.2 * 0 + t :=
      funext fun z => (hnet z).1
    rw [hfun]
    simp only [(hnet _).2, pdeLoss, demo_dx, demo_dy]
    simp [meanSq, testedResidual, lineModel]
    ring
  have hmin : ∀ beta t s : ℝ, 0 ≤ beta → (10 + beta) * t = 10 →
      beta * t ^ 2 + 10 * (t - 1) ^ 2 ≤ beta * s ^ 2 + 10 * (s - 1) ^ 2 + 0 := by
    intro beta t s h0 ht
    nlinarith [mul_nonneg h0 (sq_nonneg (s - t)), sq_nonneg (s - t)]
  have hbest : ∀ beta t, 0 ≤ beta → (10 + beta) * t = 10 → best beta (inverseAt (w t) ["eps"], net t) := by
    intro beta t h0 ht
    refine ⟨⟨t, rfl⟩, _, hval beta t h0, ?_⟩
    rintro _ ⟨s, rfl⟩ v ⟨o, ho, rfl⟩
    obtain ⟨o', ho', e⟩ := hval beta s h0
    obtain rfl := Except.ok.inj (ho.symm.trans ho')
    rw [e]
    exact hmin beta t s h0 ht
  have hbest' : ∀ beta t, 0 ≤ beta → (10 + beta) * t = 10 → best' beta (net' t) := by
    intro beta t h0 ht
    refine ⟨⟨t, rfl⟩, _, hval' beta t h0, ?_⟩
    rintro _ ⟨s, rfl⟩ v ⟨o, ho, rfl⟩
    obtain ⟨o', ho', e⟩ := hval' beta s h0
    obtain rfl := Except.ok.inj (ho.symm.trans ho')
    rw [e]
    exact hmin beta t s h0 ht
  exact ⟨hbest 10 _ (by norm_num) (by norm_num), hbest 30 _ (by norm_num) (by norm_num),
    hbest' 10 _ (by norm_num) (by norm_num), hbest' 30 _ (by norm_num) (by norm_num)⟩

end FastVPINNs
