import Verif.Lemmas.Underflow
import Verif.Lemmas.TapeNet
import Verif.Spec.RoundedTraining

/-! # Convergence of rounded programs and trainings -/

namespace FastVPINNs

open Filter Topology Spec

lemma flU_close (y : ℝ) {κ : ℝ} (hκ : 0 < κ) : ∃ d > 0, ∀ τ, 0 ≤ τ → τ ≤ d → ∀ y', |y' - y| ≤ d → ∀ r,
    FlU τ τ y' r → |r - y| ≤ κ := by
  have hy := abs_nonneg y
  refine ⟨min 1 (κ / (|y| + 3)), by positivity, fun τ h0 h1 y' h2 r hr => ?_⟩
  set d := min 1 (κ / (|y| + 3)) with hd
  have hd1 : d ≤ 1 := min_le_left _ _
  have hd2 : d * (|y| + 3) ≤ κ := by
    rw [← le_div_iff₀ (by positivity)]
    exact min_le_right _ _
  obtain ⟨δ, θ, hδ, hθ, rfl⟩ := hr
  have h3 : |y'| ≤ |y| + d := by
    have := abs_sub_abs_le_abs_sub y' y
    linarith
  have h4 : |y' * δ| ≤ (|y| + d) * d := by
    rw [abs_mul]
    exact mul_le_mul h3 (hδ.trans h1) (abs_nonneg _) (by positivity)
  have e : y' * (1 + δ) + θ - y = (y' - y) + y' * δ + θ := by ring
  rw [e]
  have h5 := abs_add_three (y' - y) (y' * δ) θ
  nlinarith

lemma tolerance_le {κ : ℝ} (hκ : 0 < κ) : ∀ᶠ d in 𝓝[>] (0 : ℝ), d ≤ κ := by
  filter_upwards [Ioc_mem_nhdsGT hκ] with t ht
  exact ht.2

lemma tolerance_pos : ∀ᶠ d in 𝓝[>] (0 : ℝ), 0 < d := self_mem_nhdsWithin

namespace Node
variable {ι : Type}

/-- With accuracy and inputs up to `d`, all possible values are within `κ` of the exact one. -/
def Within (κ : ℝ) (ρ : ι → ℝ) (e : Node ι) (d : ℝ) : Prop :=
  ∀ τ, 0 ≤ τ → τ ≤ d → ∀ ρ' : ι → ℝ, (∀ i, |ρ' i - ρ i| ≤ d) → ∀ r, e.RunT τ ρ' r → |r - e.value ρ| ≤ κ

theorem converge (ρ : ι → ℝ) : ∀ (e : Node ι), ContinuousNode ρ e → ∀ {κ : ℝ}, 0 < κ →
    ∀ᶠ d in 𝓝[>] (0 : ℝ), e.Within κ ρ d
  | source i, _, κ, hκ => by
    filter_upwards [tolerance_le hκ] with d hd τ _ _ ρ' hρ r hr
    rw [hr]
    exact (hρ i).trans hd
  | const x, _, κ, hκ => by
    obtain ⟨d₀, h0, H⟩ := flU_close x hκ
    filter_upwards [tolerance_le h0] with d hd τ h1 h2 ρ' hρ r hr
    exact H τ h1 (h2.trans hd) x (by simpa using h0.le) r hr
  | add a b, h, κ, hκ => by
    obtain ⟨d₀, h0, H⟩ := (ExprOf.add (.val 0 (a.value ρ)) (.val 0 (b.value ρ)) : Expr).converge hκ
    filter_upwards [tolerance_le h0, converge ρ a h.1 h0, converge ρ b h.2 h0] with d hd ha hb τ h1 h2 ρ' hρ r hr
    obtain ⟨x, y, hx, hy, hr⟩ := hr
    exact H τ τ d₀ h1 (h2.trans hd) h1 (h2.trans hd) h0.le le_rfl _
      (.add (.val (ha τ h1 h2 ρ' hρ x hx)) (.val (hb τ h1 h2 ρ' hρ y hy))) r ⟨x, y, by simp [ExprOf.RunU], by simp [ExprOf.RunU], hr⟩
  | sub a b, h, κ, hκ => by
    obtain ⟨d₀, h0, H⟩ := (ExprOf.sub (.val 0 (a.value ρ)) (.val 0 (b.value ρ)) : Expr).converge hκ
    filter_upwards [tolerance_le h0, converge ρ a h.1 h0, converge ρ b h.2 h0] with d hd ha hb τ h1 h2 ρ' hρ r hr
    obtain ⟨x, y, hx, hy, hr⟩ := hr
    exact H τ τ d₀ h1 (h2.trans hd) h1 (h2.trans hd) h0.le le_rfl _
      (.sub (.val (ha τ h1 h2 ρ' hρ x hx)) (.val (hb τ h1 h2 ρ' hρ y hy))) r ⟨x, y, by simp [ExprOf.RunU], by simp [ExprOf.RunU], hr⟩
  | mul a b, h, κ, hκ => by
    obtain ⟨d₀, h0, H⟩ := (ExprOf.mul (.val 0 (a.value ρ)) (.val 0 (b.value ρ)) : Expr).converge hκ
    filter_upwards [tolerance_le h0, converge ρ a h.1 h0, converge ρ b h.2 h0] with d hd ha hb τ h1 h2 ρ' hρ r hr
    obtain ⟨x, y, hx, hy, hr⟩ := hr
    exact H τ τ d₀ h1 (h2.trans hd) h1 (h2.trans hd) h0.le le_rfl _
      (.mul (.val (ha τ h1 h2 ρ' hρ x hx)) (.val (hb τ h1 h2 ρ' hρ y hy))) r ⟨x, y, by simp [ExprOf.RunU], by simp [ExprOf.RunU], hr⟩
  | sq a, h, κ, hκ => by
    obtain ⟨d₀, h0, H⟩ := (ExprOf.sq (.val 0 (a.value ρ)) : Expr).converge hκ
    filter_upwards [tolerance_le h0, converge ρ a h h0] with d hd ha τ h1 h2 ρ' hρ r hr
    obtain ⟨x, hx, hr⟩ := hr
    exact H τ τ d₀ h1 (h2.trans hd) h1 (h2.trans hd) h0.le le_rfl _
      (.sq (.val (ha τ h1 h2 ρ' hρ x hx))) r ⟨x, by simp [ExprOf.RunU], hr⟩
  | sum n f, h, κ, hκ => by
    obtain ⟨d₀, h0, H⟩ := (ExprOf.sum n fun i => .val 0 ((f i).value ρ) : Expr).converge hκ
    filter_upwards [tolerance_le h0, eventually_all.2 fun i => converge ρ (f i) (h i) h0] with d hd hf τ h1 h2 ρ' hρ r hr
    obtain ⟨x, hx, hr⟩ := hr
    exact H τ τ d₀ h1 (h2.trans hd) h1 (h2.trans hd) h0.le le_rfl _
      (.sum fun i => .val (hf i τ h1 h2 ρ' hρ (x i) (hx i))) r ⟨x, fun i => by simp [ExprOf.RunU], hr⟩
  | mean n f, h, κ, hκ => by
    obtain ⟨d₀, h0, H⟩ := (ExprOf.mean n fun i => .val 0 ((f i).value ρ) : Expr).converge hκ
    filter_upwards [tolerance_le h0, eventually_all.2 fun i => converge ρ (f i) (h i) h0] with d hd hf τ h1 h2 ρ' hρ r hr
    obtain ⟨x, s, δ, hx, hs, hδ, hr⟩ := hr
    exact H τ τ d₀ h1 (h2.trans hd) h1 (h2.trans hd) h0.le le_rfl _
      (.mean fun i => .val (hf i τ h1 h2 ρ' hρ (x i) (hx i))) r ⟨x, s, δ, fun i => by simp [ExprOf.RunU], hs, hδ, hr⟩
  | unary f k a, h, κ, hκ => by
    obtain ⟨d₀, h0, H⟩ := flU_close (f k (a.value ρ)) hκ
    obtain ⟨d₁, h1', H1⟩ := Metric.continuousAt_iff.1 h.2 d₀ h0
    filter_upwards [tolerance_le h0, converge ρ a h.1 (half_pos h1')] with d hd ha τ h1 h2 ρ' hρ r hr
    obtain ⟨x, hx, hr⟩ := hr
    refine H τ h1 (h2.trans hd) _ ?_ r hr
    have hx' := ha τ h1 h2 ρ' hρ x hx
    have := H1 (x := x) (by rw [Real.dist_eq]; linarith)
    rw [Real.dist_eq] at this
    exact this.le

/-- Rounding every operation with `fl` is a possible run. -/
lemma runT_inOrder {τ : ℝ} (hτ : 0 ≤ τ) {fl : ℝ → ℝ} (hfl : ∀ x, FlU τ τ x (fl x)) (ρ : ι → ℝ) : ∀ e : Node ι,
    e.RunT τ ρ (e.inOrder fl ρ)
  | source _ => rfl
  | const x => hfl x
  | add a b => ⟨_, _, runT_inOrder hτ hfl ρ a, runT_inOrder hτ hfl ρ b, hfl _⟩
  | sub a b => ⟨_, _, runT_inOrder hτ hfl ρ a, runT_inOrder hτ hfl ρ b, hfl _⟩
  | mul a b => ⟨_, _, runT_inOrder hτ hfl ρ a, runT_inOrder hτ hfl ρ b, hfl _⟩
  | sq a => ⟨_, runT_inOrder hτ hfl ρ a, hfl _⟩
  | sum _ f => ⟨_, fun i => runT_inOrder hτ hfl ρ (f i), sumRunU_inOrder hfl _⟩
  | mean _ f => ⟨_, _, 0, fun i => runT_inOrder hτ hfl ρ (f i), sumRunU_inOrder hfl _, by simpa using hτ, by
      simpa [inOrder] using hfl _⟩
  | unary f k a => ⟨_, runT_inOrder hτ hfl ρ a, hfl _⟩

end Node

/-! ## The optimizer -/

/-- Weights and moments differ by at most `κ`. -/
def CloseTriple (κ : ℝ) (a b : (Var → ℝ) × (Var → ℝ) × Weights) : Prop :=
  (∀ x, |a.1 x - b.1 x| ≤ κ) ∧ (∀ x, |a.2.1 x - b.2.1 x| ≤ κ) ∧ ∀ x, |a.2.2 x - b.2.2 x| ≤ κ

lemma abs_update_sub {f g : Var → ℝ} {x : Var} {a b κ : ℝ} (hf : ∀ y, |f y - g y| ≤ κ) (h : |a - b| ≤ κ) (y : Var) :
    |Function.update f x a y - Function.update g x b y| ≤ κ := by
  by_cases hy : y = x
  · subst hy
    simpa using h
  · simpa [hy] using hf y

lemma adamNodeM_value (g m v w alpha : ℝ) : adamNodeM.value (AdamIn.at g m v w alpha) = m + (g - m) * (1 - 9 / 10) := rfl

lemma adamNodeV_value (g m v w alpha : ℝ) : adamNodeV.value (AdamIn.at g m v w alpha) = v + (g ^ 2 - v) * (1 - 999 / 1000) := rfl

lemma adamNodeW_value (g m v w alpha : ℝ) : adamNodeW.value (AdamIn.at g m v w alpha)
    = w - m * alpha / (Real.sqrt v + 1 / 10000000) := by
  simp [adamNodeW, Node.value, AdamIn.at, invOps, sqrtOps, div_eq_mul_inv]

lemma adamIn_close {d g m v w alpha g' m' v' w' alpha' : ℝ} (h1 : |g' - g| ≤ d) (h2 : |m' - m| ≤ d) (h3 : |v' - v| ≤ d)
    (h4 : |w' - w| ≤ d) (h5 : |alpha' - alpha| ≤ d) (i : AdamIn) :
    |AdamIn.at g' m' v' w' alpha' i - AdamIn.at g m v w alpha i| ≤ d := by
  cases i <;> assumption

lemma adamVar_converge (alpha g : ℝ) (x : Var) (s : (Var → ℝ) × (Var → ℝ) × Weights) {κ : ℝ} (hκ : 0 < κ) :
    ∀ᶠ d in 𝓝[>] (0 : ℝ), ∀ τ, 0 ≤ τ → τ ≤ d → ∀ alpha' g' s' t, |alpha' - alpha| ≤ d → |g' - g| ≤ d →
      CloseTriple d s' s → AdamVarRun τ alpha' g' x s' t → CloseTriple κ t (adamUpdateVar alpha g x s) := by
  have hw : ContinuousNode (AdamIn.at g (s.1 x + (g - s.1 x) * (1 - 9 / 10)) (s.2.1 x + (g ^ 2 - s.2.1 x) * (1 - 999 / 1000))
      (s.2.2 x) alpha) adamNodeW := by
    refine ⟨trivial, ⟨trivial, trivial⟩, ⟨⟨trivial, Real.continuous_sqrt.continuousAt⟩, trivial⟩, ?_⟩
    refine (invOps_hasDerivAt 0 ?_).continuousAt
    refine ne_of_gt ?_
    simp only [Node.value, sqrtOps]
    positivity
  have hW := Node.converge _ adamNodeW hw hκ
  obtain ⟨d₀, h0, hd₀, H⟩ := (tolerance_pos.and ((tolerance_le hκ).and hW)).exists
  have hm := Node.converge (AdamIn.at g (s.1 x) (s.2.1 x) (s.2.2 x) alpha) adamNodeM
    ⟨trivial, ⟨trivial, trivial⟩, trivial⟩ h0
  have hv := Node.converge (AdamIn.at g (s.1 x) (s.2.1 x) (s.2.2 x) alpha) adamNodeV
    ⟨trivial, ⟨trivial, trivial⟩, trivial⟩ h0
  filter_upwards [hm, hv, tolerance_le h0] with d hm hv hd τ h1 h2 alpha' g' s' t ha hg hs ht
  obtain ⟨m', v', w', rm, rv, rw', rfl⟩ := ht
  obtain ⟨c1, c2, c3⟩ := hs
  have em := hm τ h1 h2 _ (adamIn_close hg (c1 x) (c2 x) (c3 x) ha) m' rm
  have ev := hv τ h1 h2 _ (adamIn_close hg (c1 x) (c2 x) (c3 x) ha) v' rv
  rw [adamNodeM_value] at em
  rw [adamNodeV_value] at ev
  have ew := H τ h1 (h2.trans hd) _ (adamIn_close (hg.trans hd) em ev ((c3 x).trans hd) (ha.trans hd)) w' rw'
  rw [adamNodeW_value] at ew
  exact ⟨abs_update_sub (fun y => (c1 y).trans (hd.trans hd₀)) (em.trans hd₀),
    abs_update_sub (fun y => (c2 y).trans (hd.trans hd₀)) (ev.trans hd₀),
    abs_update_sub (fun y => (c3 y).trans (hd.trans hd₀)) ew⟩

lemma adamFold_converge (alpha : ℝ) (g : Var → ℝ) : ∀ (vars : List Var) (s : (Var → ℝ) × (Var → ℝ) × Weights) {κ : ℝ},
    0 < κ → ∀ᶠ d in 𝓝[>] (0 : ℝ), ∀ τ, 0 ≤ τ → τ ≤ d → ∀ alpha' (g' : Var → ℝ) s' t, |alpha' - alpha| ≤ d →
      (∀ x ∈ vars, |g' x - g x| ≤ d) → CloseTriple d s' s → AdamFoldRun τ alpha' (List.zip (vars.map g') vars) s' t →
      CloseTriple κ t ((List.zip (vars.map g) vars).foldl (fun acc p => adamUpdateVar alpha p.1 p.2 acc) s)
  | [], s, κ, hκ => by
    filter_upwards [tolerance_le hκ] with d hd τ _ _ alpha' g' s' t _ _ hs ht
    cases ht
    exact ⟨fun x => (hs.1 x).trans hd, fun x => (hs.2.1 x).trans hd, fun x => (hs.2.2 x).trans hd⟩
  | x :: vars, s, κ, hκ => by
    obtain ⟨d₀, h0, H⟩ := (tolerance_pos.and
      (adamFold_converge alpha g vars (adamUpdateVar alpha (g x) x s) hκ)).exists
    filter_upwards [tolerance_le h0, adamVar_converge alpha (g x) x s h0] with d hd hx τ h1 h2 alpha' g' s' t ha hg hs ht
    obtain ⟨b, hb, ht⟩ := ht
    exact H τ h1 (h2.trans hd) alpha' g' b t (ha.trans hd) (fun y hy => (hg y (by simp [hy])).trans hd)
      (hx τ h1 h2 alpha' (g' x) s' b ha (hg x (by simp)) hs hb) ht

lemma apply_converge (lr : LearningRate) (g : Var → ℝ) (vars : List Var) (s : TrainState) {κ : ℝ} (hκ : 0 < κ) :
    ∀ᶠ d in 𝓝[>] (0 : ℝ), ∀ τ, 0 ≤ τ → τ ≤ d → ∀ (g' : Var → ℝ) s' t, (∀ x ∈ vars, |g' x - g x| ≤ d) →
      CloseState d s' s → ApplyRun τ lr (List.zip (vars.map g') vars) s' t →
      CloseState κ t (applyGradients lr (List.zip (vars.map g) vars) s) := by
  obtain ⟨d₀, h0, H⟩ := (tolerance_pos.and
    (adamFold_converge (adamAlpha lr s.adam.iterations) g vars (s.adam.m, s.adam.v, s.weights) hκ)).exists
  obtain ⟨d₁, h1', H1⟩ := flU_close (adamAlpha lr s.adam.iterations) h0
  filter_upwards [tolerance_le h0, tolerance_le h1'] with d hd hd1 τ h1 h2 g' s' t hg hs ht
  obtain ⟨alpha, r, ha, hr, rfl⟩ := ht
  rw [hs.iterations] at ha
  have hα := H1 τ h1 (h2.trans hd1) _ (by simpa using h1'.le) alpha ha
  obtain ⟨e1, e2, e3⟩ := H τ h1 (h2.trans hd) alpha g' _ r hα (fun x hx => (hg x hx).trans hd)
    ⟨fun x => (hs.m x).trans hd, fun x => (hs.v x).trans hd, fun x => (hs.weights x).trans hd⟩ hr
  exact ⟨e3, e1, e2, by simp [applyGradients, hs.iterations]⟩

/-! ## The step and the training -/

lemma source_close {n : ℕ} {d : ℝ} {X' X : Fin n → ℝ × ℝ} {θ' θ : Weights} (hX : ClosePoints d X' X)
    (hθ : ∀ v, |θ' v - θ v| ≤ d) (i : Source n) : |Source.at X' θ' i - Source.at X θ i| ≤ d := by
  cases i with
  | x r => exact (hX r).1
  | y r => exact (hX r).2
  | var v => exact hθ v

/-- The exact losses. -/
noncomputable def Recorded.values {n dout : ℕ} (R : Recorded n dout) (ρ : Source n → ℝ) : LossValues dout :=
  ⟨R.lossPde.value ρ, fun j => (R.lossDirichlet j).value ρ, fun j => (R.sensorLoss j).value ρ,
    fun j => (R.loss j).value ρ⟩

/-- The exact new state. -/
noncomputable def nextState {n dout : ℕ} (R : Recorded n dout) (X : Fin n → ℝ × ℝ) (vars : List Var) (lr : LearningRate)
    (s : TrainState) : TrainState :=
  applyGradients lr (List.zip (vars.map fun v => (outerGradient R v).value (Source.at X s.weights)) vars) s

section
variable {nIn dout : ℕ} (P : Program nIn dout) (R : Recorded nIn dout) (X : Fin nIn → ℝ × ℝ) (vars : List Var)
  (lr : LearningRate)

lemma step_converge (s : TrainState) (hc : ContinuousProgram P (Source.at X s.weights))
    (hR : Rearranges P R (Source.at X s.weights)) {κ : ℝ} (hκ : 0 < κ) :
    ∀ᶠ d in 𝓝[>] (0 : ℝ), ∀ τ, 0 ≤ τ → τ ≤ d → ∀ X' s' o t, ClosePoints d X' X → CloseState d s' s →
      StepRun τ P X' vars lr s' o t →
      CloseLosses κ o (R.values (Source.at X s.weights)) ∧ CloseState κ t (nextState R X vars lr s) := by
  obtain ⟨d₀, h0, H⟩ := (tolerance_pos.and (apply_converge lr
    (fun v => (outerGradient R v).value (Source.at X s.weights)) vars s hκ)).exists
  have hg : ∀ᶠ d in 𝓝[>] (0 : ℝ), ∀ x ∈ vars, (P.gradient x).Within d₀ (Source.at X s.weights) d := by
    have := eventually_all_finset vars.toFinset
      (p := fun x d => (P.gradient x).Within d₀ (Source.at X s.weights) d) (l := 𝓝[>] (0 : ℝ))
    simp only [List.mem_toFinset] at this
    exact this.2 fun x _ => Node.converge _ _ (hc.gradient x) h0
  filter_upwards [tolerance_le h0, hg, Node.converge _ _ hc.lossPde hκ,
    eventually_all.2 fun j => Node.converge _ _ (hc.lossDirichlet j) hκ,
    eventually_all.2 fun j => Node.converge _ _ (hc.sensorLoss j) hκ,
    eventually_all.2 fun j => Node.converge _ _ (hc.loss j) hκ]
    with d hd hg k1 k2 k3 k4 τ h1 h2 X' s' o t hX hs hrun
  obtain ⟨r1, r2, r3, r4, g, hg', happ⟩ := hrun
  have hρ := source_close hX hs.weights
  refine ⟨⟨?_, fun j => ?_, fun j => ?_, fun j => ?_⟩, H τ h1 (h2.trans hd) g s' t (fun x hx => ?_)
    ⟨fun x => (hs.weights x).trans hd, fun x => (hs.m x).trans hd, fun x => (hs.v x).trans hd, hs.iterations⟩ happ⟩
  · have := k1 τ h1 h2 _ hρ _ r1
    rwa [hR.lossPde] at this
  · have := k2 j τ h1 h2 _ hρ _ (r2 j)
    rwa [hR.lossDirichlet] at this
  · have := k3 j τ h1 h2 _ hρ _ (r3 j)
    rwa [hR.sensorLoss] at this
  · have := k4 j τ h1 h2 _ hρ _ (r4 j)
    rwa [hR.loss] at this
  · have := hg x hx τ h1 h2 _ hρ _ (hg' x hx)
    rwa [hR.gradient] at this

lemma epochs_converge : ∀ (n : ℕ) (s : TrainState),
    (∀ k < n, ContinuousProgram P (Source.at X ((nextState R X vars lr)^[k] s).weights) ∧
      Rearranges P R (Source.at X ((nextState R X vars lr)^[k] s).weights)) → ∀ {κ : ℝ}, 0 < κ →
    ∀ᶠ d in 𝓝[>] (0 : ℝ), ∀ τ, 0 ≤ τ → τ ≤ d → ∀ X' s' os t, ClosePoints d X' X → CloseState d s' s →
      EpochsRun τ P X' vars lr n s' os t →
      List.Forall₂ (CloseLosses κ) os
        ((List.range n).map fun k => R.values (Source.at X ((nextState R X vars lr)^[k] s).weights)) ∧
      CloseState κ t ((nextState R X vars lr)^[n] s)
  | 0, s, _, κ, hκ => by
    filter_upwards [tolerance_le hκ] with d hd τ _ _ X' s' os t _ hs hrun
    obtain ⟨rfl, rfl⟩ := hrun
    exact ⟨.nil, fun x => (hs.weights x).trans hd, fun x => (hs.m x).trans hd, fun x => (hs.v x).trans hd,
      hs.iterations⟩
  | n + 1, s, h, κ, hκ => by
    obtain ⟨d₀, h0, hd₀, H⟩ := (tolerance_pos.and ((tolerance_le hκ).and
      (epochs_converge n (nextState R X vars lr s) (fun k hk => h (k + 1) (by omega)) hκ))).exists
    filter_upwards [tolerance_le h0, step_converge P R X vars lr s (h 0 (by omega)).1 (h 0 (by omega)).2 h0]
      with d hd hstep τ h1 h2 X' s' os t hX hs hrun
    obtain ⟨o, s₁, rest, hst, hrest, rfl⟩ := hrun
    obtain ⟨e1, e2⟩ := hstep τ h1 h2 X' s' o s₁ hX hs hst
    obtain ⟨e3, e4⟩ := H τ h1 (h2.trans hd) X' s₁ rest t (fun r => ⟨(hX r).1.trans hd, (hX r).2.trans hd⟩) e2 hrest
    refine ⟨?_, e4⟩
    rw [List.range_succ_eq_map, List.map_cons, List.map_map]
    exact .cons ⟨e1.lossPde.trans hd₀, fun j => (e1.lossDirichlet j).trans hd₀, fun j => (e1.sensorLoss j).trans hd₀,
      fun j => (e1.loss j).trans hd₀⟩ e3

end

lemma sumInOrder_id : ∀ l : List ℝ, ExprOf.inOrder.sumInOrder id l = l.sum := by
  have h : ∀ (l : List ℝ) (a : ℝ), l.foldl (fun s y => id (s + y)) a = a + l.sum := by
    intro l
    induction l with
    | nil => intro a; simp
    | cons x l ih => intro a; rw [List.foldl_cons, ih, List.sum_cons, id]; ring
  intro l
  cases l with
  | nil => rfl
  | cons x l => rw [ExprOf.inOrder.sumInOrder, h, List.sum_cons]

/-- Without rounding the value is the exact one. -/
lemma Node.inOrder_id {ι : Type} (ρ : ι → ℝ) : ∀ e : Node ι, e.inOrder id ρ = e.value ρ
  | .source _ => rfl
  | .const _ => rfl
  | .add a b => by simp [inOrder, value, inOrder_id ρ a, inOrder_id ρ b]
  | .sub a b => by simp [inOrder, value, inOrder_id ρ a, inOrder_id ρ b]
  | .mul a b => by simp [inOrder, value, inOrder_id ρ a, inOrder_id ρ b]
  | .sq a => by simp [inOrder, value, inOrder_id ρ a]
  | .sum n f => by simp [inOrder, value, sumInOrder_id, List.sum_ofFn, inOrder_id ρ (f _)]
  | .mean n f => by simp [inOrder, value, sumInOrder_id, List.sum_ofFn, inOrder_id ρ (f _)]
  | .unary f k a => by simp [inOrder, value, inOrder_id ρ a]

end FastVPINNs
