import Verif.Spec.Underflow
import Verif.Lemmas.Underflow
import Verif.Props.Rounded

/-! # C99: the losses with underflow and inexact inputs -/

namespace FastVPINNs

open Spec

section
variable {nc nt nq nIn nBd nS : ℕ} (M : ModelData nc nt nq nIn nBd) (pt : Fin nc → Fin nq → ℝ × ℝ)
  (hM : Shaped M pt) (j : ℕ) (beta : ℝ) (p ip : ParamDict) (sp : Fin nS → ℝ × ℝ) (sv : Fin nS → ℝ)

lemma pdeExpr_close {kind : LossKind} {a : Fin nc → Fin nq → ℝ} {b : ℝ × ℝ} {r : ℝ} {ks}
    (hc : Coefficients kind p ip ks a b r) (w : ℝ × ℝ → ℝ) : ∃ e : Expr, e.eval = pdeLoss M pt w a b r ∧
      ∀ τ, 0 ≤ τ → ∀ I : LossInput nc nt nq nBd 1, CloseInputs τ I M pt w ks → ∀ es',
        I.residuals j kind p ip = .ok es' → ExprOf.CloseE τ (totalPdeE es') e := by
  obtain ⟨es, he, hes⟩ := lossE_ok j M.preMultiplierVal M.preMultiplierGradX M.preMultiplierGradY
    (fun c q => w (pt c q)) (fun c q => dx w (pt c q)) (fun c q => dy w (pt c q)) M.forceMatrix hc
  refine ⟨totalPdeE (meanSquare0E es), totalPdeE_eval hes, fun τ hτ I hI es' h' => ?_⟩
  exact .add (.val (by simpa using hτ)) <| .sum fun c => lossE_close j hτ hI.V hI.GX hI.GY hI.F hI.u hI.ux hI.uy hI.coeffs h' he c

lemma pde_converge {kind : LossKind} {a : Fin nc → Fin nq → ℝ} {b : ℝ × ℝ} {r : ℝ} {ks}
    (hc : Coefficients kind p ip ks a b r) (w : ℝ × ℝ → ℝ) {κ : ℝ} (hκ : 0 < κ) :
    ∃ d > 0, ∀ ε η τ : ℝ, 0 ≤ ε → ε ≤ d → 0 ≤ η → η ≤ d → 0 ≤ τ → τ ≤ d → ∀ I : LossInput nc nt nq nBd 1,
      CloseInputs τ I M pt w ks → ∀ es', I.residuals j kind p ip = .ok es' → ∀ s, (totalPdeE es').RunU ε η s →
        |s - pdeLoss M pt w a b r| ≤ κ := by
  obtain ⟨e, he, hclose⟩ := pdeExpr_close M pt j p ip hc w
  obtain ⟨d, hd, H⟩ := e.converge hκ
  rw [he] at H
  exact ⟨d, hd, fun ε η τ h1 h2 h3 h4 h5 h6 I hI es' hes s hs =>
    H ε η τ h1 h2 h3 h4 h5 h6 _ (hclose τ h5 I hI es' hes) s hs⟩

lemma data_converge {n : ℕ} (x y : Fin n → ℝ) {κ : ℝ} (hκ : 0 < κ) :
    ∃ d > 0, ∀ ε η τ : ℝ, 0 ≤ ε → ε ≤ d → 0 ≤ η → η ≤ d → 0 ≤ τ → τ ≤ d → ∀ (x' : Fin n → Fin 1 → ℝ) (y' : Fin n → ℝ),
      (∀ i, |x' i 0 - x i| ≤ τ) → (∀ i, |y' i - y i| ≤ τ) → ∀ s, (meanSquareErrorE j x' y' 0).RunU ε η s →
        |s - meanSq fun i => x i - y i| ≤ κ := by
  obtain ⟨d, hd, H⟩ := (meanSquareErrorE j (fun i (_ : Fin 1) => x i) y 0).converge hκ
  rw [meanSquareErrorE_eval] at H
  exact ⟨d, hd, fun ε η τ h1 h2 h3 h4 h5 h6 x' y' hx hy s hs =>
    H ε η τ h1 h2 h3 h4 h5 h6 _ (meanSquareErrorE_close j hx hy) s hs⟩

lemma total_converge (P B S : ℝ) {κ : ℝ} (hκ : 0 < κ) :
    ∃ d > 0, ∀ ε η τ : ℝ, 0 ≤ ε → ε ≤ d → 0 ≤ η → η ≤ d → 0 ≤ τ → τ ≤ d → ∀ P' B' S', |P' - P| ≤ τ → |B' - B| ≤ τ →
      |S' - S| ≤ τ →
      (∀ s, (ExprOf.add (.val 0 P') (.mul (.val j beta) (.val 0 B'))).RunU ε η s → |s - (P + beta * B)| ≤ κ) ∧
      ∀ s, (ExprOf.add (.add (.val 0 P') (.mul (.val j beta) (.val 0 B'))) (.mul (.val 0 10) (.val 0 S'))).RunU ε η s →
        |s - (P + beta * B + 10 * S)| ≤ κ := by
  obtain ⟨d1, hd1, H1⟩ := (ExprOf.add (.val 0 P) (.mul (.val j beta) (.val 0 B)) : Expr).converge hκ
  obtain ⟨d2, hd2, H2⟩ := (ExprOf.add (.add (.val 0 P) (.mul (.val j beta) (.val 0 B)))
    (.mul (.val 0 10) (.val 0 S)) : Expr).converge hκ
  refine ⟨min d1 d2, lt_min hd1 hd2, fun ε η τ h1 h2 h3 h4 h5 h6 P' B' S' hP hB hS => ⟨fun s hs => ?_, fun s hs => ?_⟩⟩
  · exact H1 ε η τ h1 (h2.trans (min_le_left _ _)) h3 (h4.trans (min_le_left _ _)) h5 (h6.trans (min_le_left _ _)) _
      (.add (.val hP) (.mul (.val (by simpa using h5)) (.val hB))) s hs
  · exact H2 ε η τ h1 (h2.trans (min_le_right _ _)) h3 (h4.trans (min_le_right _ _)) h5 (h6.trans (min_le_right _ _)) _
      (.add (.add (.val hP) (.mul (.val (by simpa using h5)) (.val hB)))
        (.mul (.val (by simpa using h5)) (.val hS))) s hs

include hM in
/-- **C99** (`DenseModel`).  With any of the forward losses and any row-wise network `u`: however close the three losses
of a training step are to be to the exact ones, there is a `d > 0` such that every evaluation is that close whose unit
roundoff, absolute loss of an operation by underflow, and errors in the tensors and in the values and derivatives of the
network are at most `d`. -/
theorem C99_dense (kind : LossKind) (hk : kind.forward) (net : Network 1) (u : Fin 1 → ℝ × ℝ → ℝ) (hu : RowWise net u)
    (out : TrainOut 1) (h : trainStepDense (lossOf kind nc nt nq) M net beta p = .ok out) (κ : ℝ) (hκ : 0 < κ) :
    ∃ d > 0, ∀ ε η τ : ℝ, 0 ≤ ε → ε ≤ d → 0 ≤ η → η ≤ d → 0 ≤ τ → τ ≤ d → ∀ I, CloseInputs τ I M pt (u 0) [] →
      ∀ out', UnderflowDense ε η j kind I p beta out' →
        |out'.lossPde - out.lossPde| ≤ κ ∧ |out'.lossDirichlet 0 - out.lossDirichlet 0| ≤ κ ∧
        |out'.loss 0 - out.loss 0| ≤ κ := by
  obtain ⟨a, b, r, hc, e1, e2, e3, -⟩ := (C47_dense M pt hM beta p kind hk net u hu).2 out h
  obtain ⟨d0, hd0, H0⟩ := total_converge j beta out.lossPde (out.lossDirichlet 0) 0 hκ
  obtain ⟨d1, hd1, H1⟩ := pde_converge M pt j p none hc (u 0) (lt_min hκ hd0)
  obtain ⟨d2, hd2, H2⟩ := data_converge j (fun i => u 0 (M.dirichletInput i)) M.dirichletActual (lt_min hκ hd0)
  rw [← e1] at H1
  rw [← e2] at H2
  refine ⟨min d0 (min d1 d2), by positivity, ?_⟩
  rintro ε η τ h1 h2 h3 h4 h5 h6 I hI out' ⟨es, hes, r1, r2, r3⟩
  simp only [le_min_iff] at h2 h4 h6
  have k1 := H1 ε η τ h1 h2.2.1 h3 h4.2.1 h5 h6.2.1 I hI es hes _ r1
  have k2 := H2 ε η τ h1 h2.2.2 h3 h4.2.2 h5 h6.2.2 _ _ hI.bdPredicted hI.bdActual _ (r2 0)
  have k3 := (H0 ε η (min κ d0) h1 h2.1 h3 h4.1 (by positivity) (min_le_right _ _) _ _ 0 k1 k2
    (by rw [sub_self, abs_zero]; positivity)).1 _ (r3 0)
  rw [e3, e1, e2] at *
  exact ⟨k1.trans (min_le_left _ _), k2.trans (min_le_left _ _), k3⟩

include hM in
/-- **C99** (`DenseModel_Hard`).  The same for the PDE loss, which is the whole loss. -/
theorem C99_hard (kind : LossKind) (hk : kind.forward) (net : Network 1) (u : Fin 1 → ℝ × ℝ → ℝ) (hu : RowWise net u)
    (out : TrainOutHard) (h : trainStepHard (lossOf kind nc nt nq) M net beta p = .ok out) (κ : ℝ) (hκ : 0 < κ) :
    ∃ d > 0, ∀ ε η τ : ℝ, 0 ≤ ε → ε ≤ d → 0 ≤ η → η ≤ d → 0 ≤ τ → τ ≤ d → ∀ I, CloseInputs τ I M pt (u 0) [] →
      ∀ out', UnderflowHard ε η j kind I p out' → |out'.loss - out.loss| ≤ κ ∧ out'.lossPde = out'.loss := by
  obtain ⟨a, b, r, hc, e1, -, e3, -⟩ := ((C47_hard M pt hM beta p kind hk net u hu).2 out h).2
  obtain ⟨d, hd, H⟩ := pde_converge M pt j p none hc (u 0) hκ
  refine ⟨d, hd, ?_⟩
  rintro ε η τ h1 h2 h3 h4 h5 h6 I hI out' ⟨es, hes, r1, r2, r3⟩
  have k1 := H ε η τ h1 h2 h3 h4 h5 h6 I hI es hes _ r1
  rw [← e1] at k1
  rw [r3, e3]
  exact ⟨k1, rfl⟩

include hM in
/-- **C99** (`DenseModel_Inverse`).  The same for the four losses of a training step with a learned constant, with sensor
predictions and sensor values that differ by at most `τ` from the exact ones. -/
theorem C99_inverse (net : Network 1) (u : Fin 1 → ℝ × ℝ → ℝ) (hu : RowWise net u) (out : TrainOutInverse 1)
    (h : trainStepInverse (lossPoissonInverse nc nt nq) M sp sv ip net beta p = .ok out) (κ : ℝ) (hκ : 0 < κ) :
    ∃ d > 0, ∀ ε η τ : ℝ, 0 ≤ ε → ε ≤ d → 0 ≤ η → η ≤ d → 0 ≤ τ → τ ≤ d → ∀ I, CloseInputs τ I M pt (u 0) [] →
      ∀ (x : Fin nS → Fin 1 → ℝ) (y : Fin nS → ℝ), (∀ i, |x i 0 - u 0 (sp i)| ≤ τ) → (∀ i, |y i - sv i| ≤ τ) →
      ∀ out', UnderflowInverse ε η j .poissonInverse I p ip x y beta out' →
        |out'.lossPde - out.lossPde| ≤ κ ∧ |out'.lossDirichlet 0 - out.lossDirichlet 0| ≤ κ ∧
        |out'.sensorLoss 0 - out.sensorLoss 0| ≤ κ ∧ |out'.loss 0 - out.loss 0| ≤ κ := by
  obtain ⟨eps, hc, e1, e2, e4, -, e3, -⟩ := (C47_inverse M pt hM beta p ip sp sv net u hu).2 out h
  obtain ⟨d0, hd0, H0⟩ := total_converge j beta out.lossPde (out.lossDirichlet 0) (out.sensorLoss 0) hκ
  obtain ⟨d1, hd1, H1⟩ := pde_converge M pt j p ip (kind := .poissonInverse) ⟨eps, hc, rfl, rfl, rfl⟩ (u 0)
    (lt_min hκ hd0)
  obtain ⟨d2, hd2, H2⟩ := data_converge j (fun i => u 0 (M.dirichletInput i)) M.dirichletActual (lt_min hκ hd0)
  obtain ⟨d3, hd3, H3⟩ := data_converge j (fun i => u 0 (sp i)) sv (lt_min hκ hd0)
  rw [← e1] at H1
  rw [← e2] at H2
  rw [← e4] at H3
  refine ⟨min d0 (min d1 (min d2 d3)), by positivity, ?_⟩
  rintro ε η τ h1 h2 h3 h4 h5 h6 I hI x y hx hy out' ⟨es, hes, r1, r2, r4, r3⟩
  simp only [le_min_iff] at h2 h4 h6
  have k1 := H1 ε η τ h1 h2.2.1 h3 h4.2.1 h5 h6.2.1 I hI es hes _ r1
  have k2 := H2 ε η τ h1 h2.2.2.1 h3 h4.2.2.1 h5 h6.2.2.1 _ _ hI.bdPredicted hI.bdActual _ (r2 0)
  have k4 := H3 ε η τ h1 h2.2.2.2 h3 h4.2.2.2 h5 h6.2.2.2 _ _ hx hy _ (r4 0)
  have k3 := (H0 ε η (min κ d0) h1 h2.1 h3 h4.1 (by positivity) (min_le_right _ _) _ _ _ k1 k2 k4).2 _ (r3 0)
  rw [e3, e1, e2, e4] at *
  exact ⟨k1.trans (min_le_left _ _), k2.trans (min_le_left _ _), k4.trans (min_le_left _ _), k3⟩

include hM in
/-- **C99** (`DenseModel_Inverse_Domain`).  The same with the second output of the network as diffusion coefficient. -/
theorem C99_inverse_domain {dout : ℕ} (net : Network (dout + 2)) (u : Fin (dout + 2) → ℝ × ℝ → ℝ) (hu : RowWise net u)
    (out : TrainOutInverse 1)
    (h : trainStepInverseDomain (lossCd2dInverseDomain nc nt nq) M sp sv net beta p = .ok out) (κ : ℝ) (hκ : 0 < κ) :
    ∃ d > 0, ∀ ε η τ : ℝ, 0 ≤ ε → ε ≤ d → 0 ≤ η → η ≤ d → 0 ≤ τ → τ ≤ d →
      ∀ I, CloseInputs τ I M pt (u 0) [fun c q => u 1 (pt c q)] →
      ∀ (x : Fin nS → Fin 1 → ℝ) (y : Fin nS → ℝ), (∀ i, |x i 0 - u 0 (sp i)| ≤ τ) → (∀ i, |y i - sv i| ≤ τ) →
      ∀ out', UnderflowInverse ε η j .cd2dInverseDomain I p none x y beta out' →
        |out'.lossPde - out.lossPde| ≤ κ ∧ |out'.lossDirichlet 0 - out.lossDirichlet 0| ≤ κ ∧
        |out'.sensorLoss 0 - out.sensorLoss 0| ≤ κ ∧ |out'.loss 0 - out.loss 0| ≤ κ := by
  obtain ⟨bx, b2, r, hx, hy, hr, e1, e2, e4, e3, -⟩ :=
    (C47_inverse_domain M pt hM beta p sp sv (by omega) net u hu).2 out h
  have z0 : (⟨0, by omega⟩ : Fin (dout + 2)) = 0 := rfl
  have z1 : (⟨1, by omega⟩ : Fin (dout + 2)) = 1 := rfl
  rw [z0, z1] at e1
  rw [z0] at e2 e4
  obtain ⟨d0, hd0, H0⟩ := total_converge j beta out.lossPde (out.lossDirichlet 0) (out.sensorLoss 0) hκ
  obtain ⟨d1, hd1, H1⟩ := pde_converge M pt j p none (b := (bx, b2)) (r := r) (kind := .cd2dInverseDomain)
    (ks := [fun c q => u 1 (pt c q)]) ⟨rfl, hx, hy, hr⟩ (u 0) (lt_min hκ hd0)
  obtain ⟨d2, hd2, H2⟩ := data_converge j (fun i => u 0 (M.dirichletInput i)) M.dirichletActual (lt_min hκ hd0)
  obtain ⟨d3, hd3, H3⟩ := data_converge j (fun i => u 0 (sp i)) sv (lt_min hκ hd0)
  rw [← e1] at H1
  rw [← e2] at H2
  rw [← e4] at H3
  refine ⟨min d0 (min d1 (min d2 d3)), by positivity, ?_⟩
  rintro ε η τ h1 h2 h3 h4 h5 h6 I hI x y hx' hy' out' ⟨es, hes, r1, r2, r4, r3⟩
  simp only [le_min_iff] at h2 h4 h6
  have k1 := H1 ε η τ h1 h2.2.1 h3 h4.2.1 h5 h6.2.1 I hI es hes _ r1
  have k2 := H2 ε η τ h1 h2.2.2.1 h3 h4.2.2.1 h5 h6.2.2.1 _ _ hI.bdPredicted hI.bdActual _ (r2 0)
  have k4 := H3 ε η τ h1 h2.2.2.2 h3 h4.2.2.2 h5 h6.2.2.2 _ _ hx' hy' _ (r4 0)
  have k3 := (H0 ε η (min κ d0) h1 h2.1 h3 h4.1 (by positivity) (min_le_right _ _) _ _ _ k1 k2 k4).2 _ (r3 0)
  rw [e3, e1, e2, e4] at *
  exact ⟨k1.trans (min_le_left _ _), k2.trans (min_le_left _ _), k4.trans (min_le_left _ _), k3⟩

end

/-! ## Arithmetics -/

lemma flU_of_nearest (p : ℕ) {η : ℝ} (hη : 0 ≤ η) (x : ℝ) : FlU ((2 : ℝ)⁻¹ ^ p) η x (nearest p x) := by
  obtain ⟨δ, hδ, e⟩ := exists_delta (by positivity) (nearest_error p) x
  exact ⟨δ, 0, hδ, by simpa using hη, by rw [e, add_zero]⟩

lemma flU_flushed (p : ℕ) (emin : ℤ) (x : ℝ) : FlU ((2 : ℝ)⁻¹ ^ p) (2 ^ emin) x (flushed p emin x) := by
  unfold flushed
  split_ifs with h
  · exact ⟨0, -x, by simp, by simpa using h.le, by ring⟩
  · exact flU_of_nearest p (by positivity) x

lemma flU_gradual (p : ℕ) (emin : ℤ) (x : ℝ) : FlU ((2 : ℝ)⁻¹ ^ p) (2 ^ (emin - p)) x (gradual p emin x) := by
  unfold gradual
  split_ifs with h
  · have hpos : (0 : ℝ) < 2 ^ (emin - p + 1) := by positivity
    refine ⟨0, round (x / 2 ^ (emin - p + 1)) * 2 ^ (emin - p + 1) - x, by simp, ?_, by ring⟩
    have e : (round (x / 2 ^ (emin - p + 1)) * 2 ^ (emin - p + 1) - x : ℝ)
        = (round (x / 2 ^ (emin - p + 1)) - x / 2 ^ (emin - p + 1)) * 2 ^ (emin - p + 1) := by
      field_simp
    have h2 := abs_sub_round (x / (2 : ℝ) ^ (emin - p + 1))
    rw [e, abs_mul, abs_of_pos hpos, abs_sub_comm]
    calc _ ≤ 1 / 2 * (2 : ℝ) ^ (emin - p + 1) := mul_le_mul_of_nonneg_right h2 hpos.le
      _ = 2 ^ (emin - p) := by rw [zpow_add₀ (by norm_num), zpow_one]; ring
  · exact flU_of_nearest p (by positivity) x

/-- **C99** (arithmetics).  Rounding to nearest with `p` significant binary digits where results below `2 ^ emin` are
replaced by zero, or by the nearest multiple of the smallest subnormal number, is covered: evaluating an expression in
program order is one of the evaluations that the other theorems are about, with unit roundoff `2⁻ᵖ` and `η = 2 ^ emin`,
or `η = 2 ^ (emin - p)`. -/
theorem C99_arithmetic (p : ℕ) (emin : ℤ) (e : Expr) :
    e.RunU ((2 : ℝ)⁻¹ ^ p) (2 ^ emin) (e.inOrder (flushed p emin)) ∧
    e.RunU ((2 : ℝ)⁻¹ ^ p) (2 ^ (emin - p)) (e.inOrder (gradual p emin)) :=
  ⟨ExprOf.runU_inOrder (by positivity) (by positivity) (flU_flushed p emin) e,
    ExprOf.runU_inOrder (by positivity) (by positivity) (flU_gradual p emin) e⟩

section
variable {nc nt nq nIn nBd nS : ℕ} (M : ModelData nc nt nq nIn nBd) (pt : Fin nc → Fin nq → ℝ × ℝ)
  (hM : Shaped M pt) (j : ℕ) (beta : ℝ) (p ip : ParamDict) (sp : Fin nS → ℝ × ℝ) (sv : Fin nS → ℝ)

lemma exists_precision {d : ℝ} (hd : 0 < d) : ∃ p₀ : ℕ, ∃ m₀ : ℤ, ∀ p ≥ p₀, ∀ emin ≤ m₀,
    (2 : ℝ)⁻¹ ^ p ≤ d ∧ (2 : ℝ) ^ emin ≤ d := by
  obtain ⟨k, hk⟩ := exists_pow_lt_of_lt_one hd (show (2 : ℝ)⁻¹ < 1 by norm_num)
  refine ⟨k, -k, fun p hp emin he => ⟨?_, ?_⟩⟩
  · exact (pow_le_pow_of_le_one (by norm_num) (by norm_num) hp).trans hk.le
  · refine (zpow_le_zpow_right₀ (by norm_num) he).trans ?_
    rw [zpow_neg, zpow_natCast, ← inv_pow]
    exact hk.le

include hM in
/-- **C99** (more precision).  With enough significant digits `p`, a small enough smallest normal number `2 ^ emin` and
inputs that are accurate enough, the PDE loss of `DenseModel` evaluated in program order, results below `2 ^ emin`
replaced by zero, is as close as required to the exact one. -/
theorem C99_precision (kind : LossKind) (hk : kind.forward) (net : Network 1) (u : Fin 1 → ℝ × ℝ → ℝ)
    (hu : RowWise net u) (out : TrainOut 1) (h : trainStepDense (lossOf kind nc nt nq) M net beta p = .ok out) (κ : ℝ)
    (hκ : 0 < κ) :
    ∃ p₀ : ℕ, ∃ m₀ : ℤ, ∃ d > 0, ∀ digits ≥ p₀, ∀ emin ≤ m₀, ∀ τ : ℝ, 0 ≤ τ → τ ≤ d →
      ∀ I, CloseInputs τ I M pt (u 0) [] → ∃ es, I.residuals j kind p none = .ok es ∧
        |(totalPdeE es).inOrder (flushed digits emin) - out.lossPde| ≤ κ := by
  obtain ⟨a, b, r, hc, e1, -⟩ := (C47_dense M pt hM beta p kind hk net u hu).2 out h
  obtain ⟨d, hd, H⟩ := pde_converge M pt j p none hc (u 0) hκ
  obtain ⟨p₀, m₀, hp⟩ := exists_precision hd
  refine ⟨p₀, m₀, d, hd, fun digits h1 emin h2 τ h5 h6 I hI => ?_⟩
  have hcI : Coefficients kind p none I.coeffs a b r := by
    have := hI.coeffs
    rw [List.forall₂_nil_right_iff] at this
    rw [this]
    exact hc
  obtain ⟨es, he, -⟩ := lossE_ok j I.V I.GX I.GY I.u I.ux I.uy I.F hcI
  refine ⟨_, he, ?_⟩
  rw [e1]
  exact H _ _ τ (by positivity) (hp digits h1 emin h2).1 (by positivity) (hp digits h1 emin h2).2 h5 h6 I hI _ he _
    (C99_arithmetic digits emin _).1

include hM in
/-- **C99** (results exist).  With inputs close to the exact ones, a training step with underflow has a result exactly
when the exact one has. -/
theorem C99_returns (ε η τ : ℝ) (hε : 0 ≤ ε) (hη : 0 ≤ η) (kind : LossKind) (hk : kind.forward) (net : Network 1)
    (u : Fin 1 → ℝ × ℝ → ℝ) (hu : RowWise net u) (I : LossInput nc nt nq nBd 1)
    (hI : CloseInputs τ I M pt (u 0) []) :
    ((∃ out', UnderflowDense ε η j kind I p beta out') ↔
      ∃ out, trainStepDense (lossOf kind nc nt nq) M net beta p = .ok out) ∧
    ((∃ out', UnderflowHard ε η j kind I p out') ↔
      ∃ out, trainStepHard (lossOf kind nc nt nq) M net beta p = .ok out) ∧
    ∀ (x : Fin nS → Fin 1 → ℝ) (y : Fin nS → ℝ),
    (∃ out', UnderflowInverse ε η j .poissonInverse I p ip x y beta out') ↔
      ∃ out, trainStepInverse (lossPoissonInverse nc nt nq) M sp sv ip net beta p = .ok out := by
  rw [(C47_dense M pt hM beta p kind hk net u hu).1, (C47_hard M pt hM beta p kind hk net u hu).1,
    (C47_inverse M pt hM beta p ip sp sv net u hu).1]
  have hcoe : I.coeffs = [] := by simpa using hI.coeffs
  have iff : ∀ (kind : LossKind) (ip : ParamDict), (∃ es, I.residuals j kind p ip = .ok es) ↔
      ∃ a b r, Coefficients (nc := nc) (nq := nq) kind p ip [] a b r := by
    intro kind ip
    unfold LossInput.residuals
    rw [hcoe]
    constructor
    · rintro ⟨es, h⟩
      exact lossE_coefficients _ _ _ _ _ _ _ _ h
    · rintro ⟨a, b, r, h⟩
      obtain ⟨es, he, -⟩ := lossE_ok j I.V I.GX I.GY I.u I.ux I.uy I.F h
      exact ⟨_, he⟩
  have ev : ∀ e : Expr, e.RunU ε η (e.inOrder id) := fun e =>
    ExprOf.runU_inOrder hε hη (fun x => ⟨0, 0, by simpa using hε, by simpa using hη, by simp⟩) e
  refine ⟨?_, ?_, fun x y => ?_⟩
  · rw [← iff kind none]
    constructor
    · rintro ⟨out', es, h, -⟩
      exact ⟨es, h⟩
    · rintro ⟨es, h⟩
      let P := (totalPdeE es).inOrder id
      let B := fun i => (meanSquareErrorE j I.bdPredicted I.bdActual i).inOrder id
      exact ⟨⟨P, B, fun i => (ExprOf.add (.val 0 P) (.mul (.val j beta) (.val 0 (B i)))).inOrder id⟩, es, h, ev _,
        fun i => ev _, fun i => ev _⟩
  · rw [← iff kind none]
    constructor
    · rintro ⟨out', es, h, -⟩
      exact ⟨es, h⟩
    · rintro ⟨es, h⟩
      exact ⟨⟨_, 0, _⟩, es, h, ev _, rfl, rfl⟩
  · have : (∃ eps, HasParam ip "eps" eps) ↔
        ∃ a b r, Coefficients (nc := nc) (nq := nq) .poissonInverse p ip [] a b r :=
      ⟨fun ⟨e, he⟩ => ⟨_, _, _, e, he, rfl, rfl, rfl⟩, fun ⟨_, _, _, e, he, _⟩ => ⟨e, he⟩⟩
    rw [this, ← iff .poissonInverse ip]
    constructor
    · rintro ⟨out', es, h, -⟩
      exact ⟨es, h⟩
    · rintro ⟨es, h⟩
      let P := (totalPdeE es).inOrder id
      let B := fun i => (meanSquareErrorE j I.bdPredicted I.bdActual i).inOrder id
      let S := fun i => (meanSquareErrorE j x y i).inOrder id
      exact ⟨⟨P, B, fun i => (ExprOf.add (.add (.val 0 P) (.mul (.val j beta) (.val 0 (B i))))
        (.mul (.val 0 10) (.val 0 (S i)))).inOrder id, ip, S⟩, es, h, ev _, fun i => ev _, fun i => ev _, fun i => ev _⟩

include hM in
/-- **C99** (results exist, `DenseModel_Inverse_Domain`). -/
theorem C99_returns_domain (ε η τ : ℝ) (hε : 0 ≤ ε) (hη : 0 ≤ η) {dout : ℕ} (net : Network (dout + 2))
    (u : Fin (dout + 2) → ℝ × ℝ → ℝ) (hu : RowWise net u) (I : LossInput nc nt nq nBd 1)
    (hI : CloseInputs τ I M pt (u 0) [fun c q => u 1 (pt c q)]) (x : Fin nS → Fin 1 → ℝ) (y : Fin nS → ℝ) :
    (∃ out', UnderflowInverse ε η j .cd2dInverseDomain I p none x y beta out') ↔
      ∃ out, trainStepInverseDomain (lossCd2dInverseDomain nc nt nq) M sp sv net beta p = .ok out := by
  rw [(C47_inverse_domain M pt hM beta p sp sv (by omega) net u hu).1]
  have ev : ∀ e : Expr, e.RunU ε η (e.inOrder id) := fun e =>
    ExprOf.runU_inOrder hε hη (fun x => ⟨0, 0, by simpa using hε, by simpa using hη, by simp⟩) e
  constructor
  · rintro ⟨out', es, hes, -⟩
    obtain ⟨a, b, r, -, hx, hy, hc⟩ := lossE_coefficients _ _ _ _ _ _ _ _ hes
    exact ⟨b.1, b.2, r, hx, hy, hc⟩
  · rintro ⟨bx, b2, r, hx, hy, hc⟩
    obtain ⟨k, hk⟩ : ∃ k, I.coeffs = [k] := by
      have := hI.coeffs
      rw [List.forall₂_cons_right_iff] at this
      obtain ⟨k, l, -, hl, e⟩ := this
      rw [List.forall₂_nil_right_iff] at hl
      exact ⟨k, by rw [e, hl]⟩
    obtain ⟨es, hes, -⟩ := lossE_ok j I.V I.GX I.GY I.u I.ux I.uy I.F (kind := .cd2dInverseDomain) (p := p) (ip := none)
      (coeffs := [k]) (b := (bx, b2)) ⟨rfl, hx, hy, hc⟩
    rw [← hk] at hes
    let P := (totalPdeE (meanSquare0E es)).inOrder id
    let B := fun i => (meanSquareErrorE j I.bdPredicted I.bdActual i).inOrder id
    let S := fun i => (meanSquareErrorE j x y i).inOrder id
    exact ⟨⟨P, B, fun i => (ExprOf.add (.add (.val 0 P) (.mul (.val j beta) (.val 0 (B i))))
      (.mul (.val 0 10) (.val 0 (S i)))).inOrder id, none, S⟩, _, hes, ev _, fun i => ev _, fun i => ev _, fun i => ev _⟩

end

lemma flushed_zero (p : ℕ) (emin : ℤ) : flushed p emin 0 = 0 := by
  unfold flushed
  rw [if_pos (by rw [abs_zero]; positivity)]

lemma sumInOrder_zero (p : ℕ) (emin : ℤ) {l : List ℝ} (h : ∀ x ∈ l, x = 0) :
    ExprOf.inOrder.sumInOrder (flushed p emin) l = 0 := by
  cases l with
  | nil => rfl
  | cons x l =>
    have key : ∀ l : List ℝ, (∀ x ∈ l, x = 0) → l.foldl (fun s y => flushed p emin (s + y)) 0 = 0 := by
      intro l
      induction l with
      | nil => exact fun _ => rfl
      | cons y l ih =>
        intro hl
        rw [List.foldl_cons, hl y (by simp), add_zero, flushed_zero]
        exact ih fun x hx => hl x (by simp [hx])
    show l.foldl (fun s y => flushed p emin (s + y)) x = 0
    rw [h x (by simp)]
    exact key l fun x hx => h x (by simp [hx])

lemma flushed_sq (p : ℕ) (emin : ℤ) {x : ℝ} (h : 4 * x ^ 2 < 2 ^ emin) : flushed p emin (flushed p emin x ^ 2) = 0 := by
  have h1 : |flushed p emin x| ≤ 2 * |x| := by
    unfold flushed
    split_ifs
    · simp
    · have := nearest_error p x
      have h2 : (2 : ℝ)⁻¹ ^ p * |x| ≤ 1 * |x| :=
        mul_le_mul_of_nonneg_right (pow_le_one₀ (by norm_num) (by norm_num)) (abs_nonneg x)
      have := abs_sub_abs_le_abs_sub (nearest p x) x
      linarith
  have h2 : |flushed p emin x ^ 2| < 2 ^ emin := by
    rw [abs_pow]
    calc |flushed p emin x| ^ 2 ≤ (2 * |x|) ^ 2 := by gcongr
      _ = 4 * x ^ 2 := by rw [mul_pow, sq_abs]; norm_num
      _ < _ := h
  unfold flushed at h2 ⊢
  rw [if_pos h2]

/-- **C99** (a loss that vanishes).  A fixed arithmetic that replaces results below `2 ^ emin` by zero cannot tell small
errors from none: if four times the square of every error at the boundary points (or at the sensors) is below `2 ^ emin`,
the computed loss is exactly zero.  The exact loss is positive as soon as one error is not zero. -/
theorem C99_vanishing (p : ℕ) (emin : ℤ) {n dout : ℕ} (x : Fin n → Fin dout → ℝ) (y : Fin n → ℝ) (i : Fin dout)
    (h : ∀ k, 4 * (x k i - y k) ^ 2 < 2 ^ emin) :
    (meanSquareErrorE 0 x y i).inOrder (flushed p emin) = 0 ∧
    ((∃ k, x k i ≠ y k) → 0 < meanSquare0 (fun k i => x k i - y k) i) := by
  constructor
  · simp only [meanSquareErrorE, meanSquare0E, ExprOf.inOrder, if_true]
    rw [sumInOrder_zero, zero_div, flushed_zero]
    intro z hz
    obtain ⟨k, rfl⟩ := List.mem_ofFn.1 hz
    exact flushed_sq p emin (h k)
  · rintro ⟨k, hk⟩
    unfold meanSquare0
    have hn : (0 : ℝ) < n := by exact_mod_cast k.pos
    have : 0 < ∑ k, (x k i - y k) ^ 2 :=
      Finset.sum_pos' (fun _ _ => sq_nonneg _) ⟨k, Finset.mem_univ k, sq_pos_of_ne_zero (sub_ne_zero.2 hk)⟩
    positivity

/-! ## The hypotheses are met -/

/-- The inputs of `thirdData` for the network `x`, stored with an error of `τ` in the force term and in the derivative. -/
noncomputable def thirdLossInput (τ : ℝ) : LossInput 1 1 1 1 1 where
  V := thirdData.preMultiplierVal
  GX := thirdData.preMultiplierGradX
  GY := thirdData.preMultiplierGradY
  F := fun t c => thirdData.forceMatrix t c - τ
  u := fun _ _ => 0
  ux := fun _ _ => 1 + τ
  uy := fun _ _ => 0
  coeffs := []
  bdPredicted := fun i _ => (thirdData.dirichletInput i).1
  bdActual := thirdData.dirichletActual

lemma thirdLossInput_close {τ : ℝ} (hτ : 0 ≤ τ) : CloseInputs τ (thirdLossInput τ) thirdData (fun _ _ => (0, 0)) (fun z => z.1) [] := by
  have e1 : dx (fun z : ℝ × ℝ => z.1) = fun _ => 1 := by
    funext z
    simp [dx]
  have e2 : dy (fun z : ℝ × ℝ => z.1) = fun _ => 0 := by
    funext z
    simp [dy]
  constructor <;> simp [thirdLossInput, e1, e2, hτ, abs_of_nonneg]

/-- The hypotheses of C99 are met, with inputs that are not exact: the exact step and the step with underflow return. -/
example (τ : ℝ) (hτ : 0 ≤ τ) :
    CloseInputs τ (thirdLossInput τ) thirdData (fun _ _ => (0, 0)) (fun z => z.1) [] ∧
    (∃ out, trainStepDense (lossOf .poisson 1 1 1) thirdData firstNet 10 (some [("eps", 1)]) = .ok out) ∧
    ∃ out', UnderflowDense ((2 : ℝ)⁻¹ ^ 24) (2 ^ (-126 : ℤ)) 1 .poisson (thirdLossInput τ) (some [("eps", 1)]) 10 out' := by
  have h0 : ∃ out, trainStepDense (lossOf .poisson 1 1 1) thirdData firstNet 10 (some [("eps", 1)]) = .ok out :=
    (C47_dense thirdData _ third_shaped 10 (some [("eps", 1)]) .poisson (Or.inl rfl) firstNet
      (fun _ z => z.1) (fun _ _ _ _ => rfl)).1.2 ⟨_, _, _, 1, ⟨_, rfl, rfl⟩, rfl, rfl, rfl⟩
  exact ⟨thirdLossInput_close hτ, h0, (C99_returns (nS := 0) thirdData _ third_shaped 1 10 (some [("eps", 1)]) none Fin.elim0
    Fin.elim0 _ _ τ (by positivity) (by positivity) .poisson (Or.inl rfl) firstNet (fun _ z => z.1) (fun _ _ _ _ => rfl)
    (thirdLossInput τ) (thirdLossInput_close hτ)).1.2 h0⟩

/-- In single precision an error of `2⁻⁶⁵` at the only boundary point gives a boundary loss of exactly zero. -/
example : (meanSquareErrorE 0 (fun (_ : Fin 1) (_ : Fin 1) => (2 : ℝ) ^ (-65 : ℤ)) (fun _ => 0) 0).inOrder
    (flushed 24 (-126)) = 0 :=
  (C99_vanishing 24 (-126) _ _ 0 fun k => by norm_num).1

end FastVPINNs
