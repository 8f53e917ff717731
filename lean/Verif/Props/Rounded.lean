import Verif.Lemmas.RoundedRuns
import Verif.Props.Train
import Verif.Props.Defect

/-! # C85: the losses in floating-point arithmetic -/

namespace FastVPINNs

open Spec

/-! ## The losses of a training step -/

section
variable {nc nt nq nIn nBd nS : ℕ} (M : ModelData nc nt nq nIn nBd) (pt : Fin nc → Fin nq → ℝ × ℝ)
  (hM : Shaped M pt) (ε : ℝ) (hε : 0 ≤ ε) (j : ℕ) (beta : ℝ) (p ip : ParamDict) (sp : Fin nS → ℝ × ℝ)
  (sv : Fin nS → ℝ)

lemma cellsResidualE_eq (hM : Shaped M pt) {net : Network 1} {u : Fin 1 → ℝ × ℝ → ℝ} (hu : RowWise net u)
    (kind : LossKind) : cellsResidualE j kind M net p ip
      = lossE j M.preMultiplierVal M.preMultiplierGradX M.preMultiplierGradY (fun c q => u 0 (pt c q))
        (fun c q => dx (u 0) (pt c q)) (fun c q => dy (u 0) (pt c q)) M.forceMatrix kind p ip [] := by
  obtain ⟨h1, h2, h3⟩ := predictions_eq M net u hu pt hM
  unfold cellsResidualE
  simp only [h1, h2, h3]

lemma lossE_pde {kind : LossKind} {a : Fin nc → Fin nq → ℝ} {b : ℝ × ℝ} {r : ℝ} {coeffs}
    (hc : Coefficients kind p ip coeffs a b r) (u : ℝ × ℝ → ℝ) (hε : 0 ≤ ε) {es : Fin nc → Expr}
    (h : lossE j M.preMultiplierVal M.preMultiplierGradX M.preMultiplierGradY (fun c q => u (pt c q))
      (fun c q => dx u (pt c q)) (fun c q => dy u (pt c q)) M.forceMatrix kind p ip coeffs = .ok es) {s : ℝ}
    (hs : (totalPdeE es).Run ε s) :
    Near ε (pdeRoundings nc nt nq j) (pdeMag M pt u a b r) s (pdeLoss M pt u a b r) ∧ (ε ≤ 1 → 0 ≤ s) := by
  obtain ⟨es', he, hes⟩ := lossE_ok j M.preMultiplierVal M.preMultiplierGradX M.preMultiplierGradY
    (fun c q => u (pt c q)) (fun c q => dx u (pt c q)) (fun c q => dy u (pt c q)) M.forceMatrix hc
  rw [he, Except.ok.injEq] at h
  subst h
  exact ⟨totalPde_near hε hes hs, fun h1 => totalPdeE_nonneg h1 _ hs⟩

include hM hε in
/-- **C85** (`DenseModel`).  With any of the forward losses and any row-wise network `u`, whatever the order
in which the sums are evaluated: the three losses computed with unit roundoff `ε` differ from the exact ones
by at most `(1 + ε) ^ k - 1` times the same expression with all numbers replaced by absolute values, where
the number `k` of roundings is linear in the numbers of cells, test functions and points.  The computed PDE
and boundary losses are not negative. -/
theorem C85_dense (kind : LossKind) (hk : kind.forward) (net : Network 1) (u : Fin 1 → ℝ × ℝ → ℝ)
    (hu : RowWise net u) (out out' : TrainOut 1)
    (h : trainStepDense (lossOf kind nc nt nq) M net beta p = .ok out)
    (h' : RoundedDense ε j kind M net beta p out') :
    (∃ a b r, Coefficients kind p none [] a b r ∧
      RoundedFrom ε (2 * nq + nt + nc + 8 * j + 12) (pdeMag M pt (u 0) a b r) out'.lossPde out.lossPde ∧
      RoundedFrom ε (nBd + 2 * j + 4) (dataMag (fun i => u 0 (M.dirichletInput i)) M.dirichletActual)
        (out'.lossDirichlet 0) (out.lossDirichlet 0) ∧
      RoundedFrom ε (2 * nq + nt + nc + nBd + 8 * j + 13) (pdeMag M pt (u 0) a b r
          + |beta| * dataMag (fun i => u 0 (M.dirichletInput i)) M.dirichletActual)
        (out'.loss 0) (out.loss 0)) ∧
    (ε ≤ 1 → 0 ≤ out'.lossPde ∧ 0 ≤ out'.lossDirichlet 0) := by
  obtain ⟨a, b, r, hc, e1, e2, e3, -⟩ := (C47_dense M pt hM beta p kind hk net u hu).2 out h
  obtain ⟨es, hes, h1, h2, h3⟩ := h'
  rw [cellsResidualE_eq M pt j p none hM hu kind] at hes
  obtain ⟨n1, pos⟩ := lossE_pde M pt ε j p none hc (u 0) hε hes h1
  have n2 := data_near hε (h2 0)
  simp only [hu _ M.dirichletInput] at n2
  have n3 := total_near hε (m := 2 * nq + nt + nc + nBd + 8 * j + 12) n1 n2 (by simp only [pdeRoundings]; omega)
    (by simp only [dataRoundings]; omega) (h3 0)
  rw [← e1] at n1
  rw [← e2] at n2
  rw [← e1, ← e2, ← e3] at n3
  exact ⟨⟨a, b, r, hc, n1.err, n2.err, n3.err⟩, fun h0 => ⟨pos h0, meanSquare0E_nonneg h0 _ _ (h2 0)⟩⟩

include hM hε in
/-- **C85** (`DenseModel_Hard`).  The same for the PDE loss, which is the whole loss. -/
theorem C85_hard (kind : LossKind) (hk : kind.forward) (net : Network 1) (u : Fin 1 → ℝ × ℝ → ℝ)
    (hu : RowWise net u) (out out' : TrainOutHard)
    (h : trainStepHard (lossOf kind nc nt nq) M net beta p = .ok out)
    (h' : RoundedHard ε j kind M net p out') :
    (∃ a b r, Coefficients kind p none [] a b r ∧
      RoundedFrom ε (2 * nq + nt + nc + 8 * j + 12) (pdeMag M pt (u 0) a b r) out'.loss out.loss) ∧
    out'.lossPde = out'.loss ∧ out'.lossDirichlet = 0 ∧ (ε ≤ 1 → 0 ≤ out'.loss) := by
  obtain ⟨a, b, r, hc, e1, -, e3, -⟩ := ((C47_hard M pt hM beta p kind hk net u hu).2 out h).2
  obtain ⟨es, hes, h1, h2, h3⟩ := h'
  rw [cellsResidualE_eq M pt j p none hM hu kind] at hes
  obtain ⟨n1, pos⟩ := lossE_pde M pt ε j p none hc (u 0) hε hes h1
  rw [← e1] at n1
  rw [h3, e3]
  exact ⟨⟨a, b, r, hc, n1.err⟩, rfl, h2, pos⟩

include hM hε in
/-- **C85** (`DenseModel_Inverse`).  The same with the sensor loss, which enters the loss ten times. -/
theorem C85_inverse (net : Network 1) (u : Fin 1 → ℝ × ℝ → ℝ) (hu : RowWise net u)
    (out out' : TrainOutInverse 1)
    (h : trainStepInverse (lossPoissonInverse nc nt nq) M sp sv ip net beta p = .ok out)
    (h' : RoundedInverse ε j .poissonInverse M sp sv ip net beta p out') :
    (∃ eps, HasParam ip "eps" eps ∧
      RoundedFrom ε (2 * nq + nt + nc + 8 * j + 12) (pdeMag M pt (u 0) (fun _ _ => eps) (0, 0) 0)
        out'.lossPde out.lossPde ∧
      RoundedFrom ε (nBd + 2 * j + 4) (dataMag (fun i => u 0 (M.dirichletInput i)) M.dirichletActual)
        (out'.lossDirichlet 0) (out.lossDirichlet 0) ∧
      RoundedFrom ε (nS + 2 * j + 4) (dataMag (fun i => u 0 (sp i)) sv) (out'.sensorLoss 0)
        (out.sensorLoss 0) ∧
      RoundedFrom ε (2 * nq + nt + nc + nBd + nS + 8 * j + 14)
        (pdeMag M pt (u 0) (fun _ _ => eps) (0, 0) 0
          + |beta| * dataMag (fun i => u 0 (M.dirichletInput i)) M.dirichletActual
          + 10 * dataMag (fun i => u 0 (sp i)) sv) (out'.loss 0) (out.loss 0)) ∧
    (ε ≤ 1 → 0 ≤ out'.lossPde ∧ 0 ≤ out'.lossDirichlet 0 ∧ 0 ≤ out'.sensorLoss 0) := by
  obtain ⟨eps, hc, e1, e2, e4, -, e3, -⟩ := (C47_inverse M pt hM beta p ip sp sv net u hu).2 out h
  obtain ⟨es, hes, h1, h2, h4, h3⟩ := h'
  rw [cellsResidualE_eq M pt j p ip hM hu _] at hes
  obtain ⟨n1, pos⟩ := lossE_pde M pt ε j p ip (kind := .poissonInverse) ⟨eps, hc, rfl, rfl, rfl⟩ (u 0) hε hes h1
  have n2 := data_near hε (h2 0)
  have n4 := data_near hε (h4 0)
  simp only [hu _ M.dirichletInput] at n2
  simp only [hu _ sp] at n4
  have n3 := total_inverse_near hε (m := 2 * nq + nt + nc + nBd + nS + 8 * j + 12) n1 n2 n4
    (by simp only [pdeRoundings]; omega) (by simp only [dataRoundings]; omega)
    (by simp only [dataRoundings]; omega) (h3 0)
  rw [← e1] at n1
  rw [← e2] at n2
  rw [← e4] at n4
  rw [← e1, ← e2, ← e4, ← e3] at n3
  exact ⟨⟨eps, hc, n1.err, n2.err, n4.err, n3.err⟩, fun h0 => ⟨pos h0, meanSquare0E_nonneg h0 _ _ (h2 0),
    meanSquare0E_nonneg h0 _ _ (h4 0)⟩⟩

include hM hε in
/-- **C85** (`DenseModel_Inverse_Domain`).  The same with the second output of the network as diffusion
coefficient. -/
theorem C85_inverse_domain {dout : ℕ} (net : Network (dout + 2)) (u : Fin (dout + 2) → ℝ × ℝ → ℝ)
    (hu : RowWise net u) (out out' : TrainOutInverse 1)
    (h : trainStepInverseDomain (lossCd2dInverseDomain nc nt nq) M sp sv net beta p = .ok out)
    (h' : RoundedInverseDomain ε j M sp sv net beta p out') :
    (∃ b r, HasParam p "b_x" b.1 ∧ HasParam p "b_y" b.2 ∧ HasParam p "c" r ∧
      RoundedFrom ε (2 * nq + nt + nc + 8 * j + 12) (pdeMag M pt (u 0) (fun c q => u 1 (pt c q)) b r)
        out'.lossPde out.lossPde ∧
      RoundedFrom ε (nBd + 2 * j + 4) (dataMag (fun i => u 0 (M.dirichletInput i)) M.dirichletActual)
        (out'.lossDirichlet 0) (out.lossDirichlet 0) ∧
      RoundedFrom ε (nS + 2 * j + 4) (dataMag (fun i => u 0 (sp i)) sv) (out'.sensorLoss 0)
        (out.sensorLoss 0) ∧
      RoundedFrom ε (2 * nq + nt + nc + nBd + nS + 8 * j + 14)
        (pdeMag M pt (u 0) (fun c q => u 1 (pt c q)) b r
          + |beta| * dataMag (fun i => u 0 (M.dirichletInput i)) M.dirichletActual
          + 10 * dataMag (fun i => u 0 (sp i)) sv) (out'.loss 0) (out.loss 0)) ∧
    (ε ≤ 1 → 0 ≤ out'.lossPde ∧ 0 ≤ out'.lossDirichlet 0 ∧ 0 ≤ out'.sensorLoss 0) := by
  obtain ⟨bx, b2, r, hx, hy, hr, e1, e2, e4, e3, -⟩ :=
    (C47_inverse_domain M pt hM beta p sp sv (by omega) net u hu).2 out h
  obtain ⟨gx, gy, v, k, es, hgx, hgy, hv, hk, hes, h1, h2, h4, h3⟩ := h'
  have hgrad : tapeGradient (ι := Fin nIn) (fun X r => net _ X r 0) M.inputTensor
      = fun r => (dx (u 0) (M.inputTensor r), dy (u 0) (M.inputTensor r)) := by
    funext r
    exact tapeGradient_rows (Equiv.refl _) _ (u 0) (fun X i => hu _ X i _) _ r
  have shaped : ∀ (w : Fin nIn → ℝ) (g : ℝ × ℝ → ℝ) (z : Fin nc → Fin nq → ℝ),
      (∀ r, w r = g (M.inputTensor r)) → reshapeCells nc nq M.nCells w = .ok z → z = fun c q => g (pt c q) := by
    intro w g z hw hz
    obtain ⟨z', hz', hzz⟩ := reshapeCells_ok (nc := nc) (nq := nq) M.nCells w hM.cells hM.rows
    rw [hz', Except.ok.injEq] at hz
    subst hz
    funext c q
    rw [hzz c q (rowIndex hM.rows c q) rfl, hw, hM.point c q (rowIndex hM.rows c q) rfl]
  have s1 := shaped _ (dx (u 0)) gx (fun r => by rw [hgrad]) hgx
  have s2 := shaped _ (dy (u 0)) gy (fun r => by rw [hgrad]) hgy
  have s3 := shaped _ (u 0) v (fun r => hu _ _ _ _) hv
  have s4 := shaped _ (u 1) k (fun r => hu _ _ _ _) hk
  subst s1 s2 s3 s4
  obtain ⟨n1, pos⟩ := lossE_pde M pt ε j p none (b := (bx, b2)) (r := r) (kind := .cd2dInverseDomain)
    ⟨rfl, hx, hy, hr⟩ (u 0) hε hes h1
  have n2 := data_near hε h2
  have n4 := data_near hε h4
  simp only [hu _ M.dirichletInput] at n2
  simp only [hu _ sp] at n4
  have n3 := total_inverse_near hε (m := 2 * nq + nt + nc + nBd + nS + 8 * j + 12) n1 n2 n4
    (by simp only [pdeRoundings]; omega) (by simp only [dataRoundings]; omega)
    (by simp only [dataRoundings]; omega) h3
  have z0 : (⟨0, by omega⟩ : Fin (dout + 2)) = 0 := rfl
  have z1 : (⟨1, by omega⟩ : Fin (dout + 2)) = 1 := rfl
  rw [z0, z1] at e1
  rw [z0] at e2 e4
  rw [← e1] at n1
  rw [← e2] at n2
  rw [← e4] at n4
  rw [← e1, ← e2, ← e4, ← e3] at n3
  exact ⟨⟨(bx, b2), r, hx, hy, hr, n1.err, n2.err, n4.err, n3.err⟩, fun h0 => ⟨pos h0,
    meanSquare0E_nonneg h0 _ _ h2, meanSquare0E_nonneg h0 _ _ h4⟩⟩

include hM in
/-- **C85** (results exist).  A rounded training step has a result exactly when the exact one has. -/
theorem C85_returns (hε : 0 ≤ ε) (kind : LossKind) (hk : kind.forward) (net : Network 1)
    (u : Fin 1 → ℝ × ℝ → ℝ) (hu : RowWise net u) :
    ((∃ out', RoundedDense ε j kind M net beta p out') ↔
      ∃ out, trainStepDense (lossOf kind nc nt nq) M net beta p = .ok out) ∧
    ((∃ out', RoundedHard ε j kind M net p out') ↔
      ∃ out, trainStepHard (lossOf kind nc nt nq) M net beta p = .ok out) ∧
    ((∃ out', RoundedInverse ε j .poissonInverse M sp sv ip net beta p out') ↔
      ∃ out, trainStepInverse (lossPoissonInverse nc nt nq) M sp sv ip net beta p = .ok out) := by
  rw [(C47_dense M pt hM beta p kind hk net u hu).1, (C47_hard M pt hM beta p kind hk net u hu).1,
    (C47_inverse M pt hM beta p ip sp sv net u hu).1]
  have iff : ∀ (kind : LossKind) (ip : ParamDict), (∃ es, cellsResidualE j kind M net p ip = .ok es) ↔
      ∃ a b r, Coefficients (nc := nc) (nq := nq) kind p ip [] a b r := by
    intro kind ip
    rw [cellsResidualE_eq M pt j p ip hM hu kind]
    constructor
    · rintro ⟨es, h⟩
      exact lossE_coefficients _ _ _ _ _ _ _ _ h
    · rintro ⟨a, b, r, h⟩
      obtain ⟨es, he, -⟩ := lossE_ok j M.preMultiplierVal M.preMultiplierGradX M.preMultiplierGradY
        (fun c q => u 0 (pt c q)) (fun c q => dx (u 0) (pt c q)) (fun c q => dy (u 0) (pt c q)) M.forceMatrix h
      exact ⟨_, he⟩
  refine ⟨?_, ?_, ?_⟩
  · rw [← iff kind none]
    constructor
    · rintro ⟨out', es, h, -⟩
      exact ⟨es, h⟩
    · rintro ⟨es, h⟩
      let P := (totalPdeE es).eval
      let B := fun i => (meanSquareErrorE j (net _ M.dirichletInput) M.dirichletActual i).eval
      exact ⟨⟨P, B, fun i => P + beta * B i⟩, es, h, ExprOf.run_eval hε _, fun i => ExprOf.run_eval hε _,
        fun i => ExprOf.run_eval hε (.add (.val 0 P) (.mul (.val j beta) (.val 0 (B i))))⟩
  · rw [← iff kind none]
    constructor
    · rintro ⟨out', es, h, -⟩
      exact ⟨es, h⟩
    · rintro ⟨es, h⟩
      exact ⟨⟨_, 0, _⟩, es, h, ExprOf.run_eval hε _, rfl, rfl⟩
  · have : (∃ eps, HasParam ip "eps" eps) ↔
        ∃ a b r, Coefficients (nc := nc) (nq := nq) .poissonInverse p ip [] a b r :=
      ⟨fun ⟨e, he⟩ => ⟨_, _, _, e, he, rfl, rfl, rfl⟩, fun ⟨_, _, _, e, he, _⟩ => ⟨e, he⟩⟩
    rw [this, ← iff .poissonInverse ip]
    constructor
    · rintro ⟨out', es, h, -⟩
      exact ⟨es, h⟩
    · rintro ⟨es, h⟩
      let P := (totalPdeE es).eval
      let B := fun i => (meanSquareErrorE j (net _ M.dirichletInput) M.dirichletActual i).eval
      let S := fun i => (meanSquareErrorE j (net _ sp) sv i).eval
      exact ⟨⟨P, B, fun i => P + beta * B i + 10 * S i, ip, S⟩, es, h, ExprOf.run_eval hε _,
        fun i => ExprOf.run_eval hε _, fun i => ExprOf.run_eval hε _, fun i => ExprOf.run_eval hε
          (.add (.add (.val 0 P) (.mul (.val j beta) (.val 0 (B i)))) (.mul (.val 0 10) (.val 0 (S i))))⟩

include hM hε in
/-- **C85** (results exist, `DenseModel_Inverse_Domain`). -/
theorem C85_returns_domain {dout : ℕ} (net : Network (dout + 2)) (u : Fin (dout + 2) → ℝ × ℝ → ℝ)
    (hu : RowWise net u) :
    (∃ out', RoundedInverseDomain ε j M sp sv net beta p out') ↔
      ∃ out, trainStepInverseDomain (lossCd2dInverseDomain nc nt nq) M sp sv net beta p = .ok out := by
  rw [(C47_inverse_domain M pt hM beta p sp sv (by omega) net u hu).1]
  constructor
  · rintro ⟨out', gx, gy, v, k, es, -, -, -, -, hes, -⟩
    obtain ⟨a, b, r, -, hx, hy, hc⟩ := lossE_coefficients _ _ _ _ _ _ _ _ hes
    exact ⟨b.1, b.2, r, hx, hy, hc⟩
  · rintro ⟨bx, b2, r, hx, hy, hc⟩
    have shaped : ∀ w : Fin nIn → ℝ, ∃ z, reshapeCells nc nq M.nCells w = .ok z := fun w => by
      obtain ⟨z, hz, -⟩ := reshapeCells_ok (nc := nc) (nq := nq) M.nCells w hM.cells hM.rows
      exact ⟨z, hz⟩
    obtain ⟨gx, hgx⟩ := shaped fun r => (tapeGradient (ι := Fin nIn) (fun X r => net _ X r 0) M.inputTensor r).1
    obtain ⟨gy, hgy⟩ := shaped fun r => (tapeGradient (ι := Fin nIn) (fun X r => net _ X r 0) M.inputTensor r).2
    obtain ⟨v, hv⟩ := shaped fun r => net _ M.inputTensor r 0
    obtain ⟨k, hk⟩ := shaped fun r => net _ M.inputTensor r 1
    obtain ⟨es, hes, -⟩ := lossE_ok j M.preMultiplierVal M.preMultiplierGradX M.preMultiplierGradY v gx gy
      M.forceMatrix (kind := .cd2dInverseDomain) (p := p) (ip := none) (coeffs := [k]) (b := (bx, b2))
      ⟨rfl, hx, hy, hc⟩
    let P := (totalPdeE (meanSquare0E es)).eval
    let B := (meanSquareErrorE j (fun r (_ : Fin 1) => net _ M.dirichletInput r 0) M.dirichletActual 0).eval
    let S := (meanSquareErrorE j (fun r (_ : Fin 1) => net _ sp r 0) sv 0).eval
    exact ⟨⟨P, fun _ => B, fun _ => P + beta * B + 10 * S, none, fun _ => S⟩, gx, gy, v, k, _, hgx, hgy, hv, hk,
      hes, ExprOf.run_eval hε _, ExprOf.run_eval hε _, ExprOf.run_eval hε _, ExprOf.run_eval hε
        (.add (.add (.val 0 P) (.mul (.val j beta) (.val 0 B))) (.mul (.val 0 10) (.val 0 S)))⟩

include hM hε in
/-- **C85** (order of evaluation).  Two evaluations of the same training step, on different devices or with
different numbers of threads, give losses that differ by at most twice the bound. -/
theorem C85_order (kind : LossKind) (hk : kind.forward) (net : Network 1) (u : Fin 1 → ℝ × ℝ → ℝ)
    (hu : RowWise net u) (out₁ out₂ : TrainOut 1) (h₁ : RoundedDense ε j kind M net beta p out₁)
    (h₂ : RoundedDense ε j kind M net beta p out₂) :
    ∃ a b r, Coefficients kind p none [] a b r ∧
      |out₁.loss 0 - out₂.loss 0| ≤ 2 * (((1 + ε) ^ (2 * nq + nt + nc + nBd + 8 * j + 13) - 1)
        * (pdeMag M pt (u 0) a b r
          + |beta| * dataMag (fun i => u 0 (M.dirichletInput i)) M.dirichletActual)) := by
  obtain ⟨out, h⟩ := (C85_returns (nS := 0) M pt hM ε j beta p none Fin.elim0 Fin.elim0 hε kind hk net u hu).1.1 ⟨_, h₁⟩
  obtain ⟨a, b, r, hc, e1, e2, e3, -⟩ := (C47_dense M pt hM beta p kind hk net u hu).2 out h
  have main : ∀ out', RoundedDense ε j kind M net beta p out' →
      RoundedFrom ε (2 * nq + nt + nc + nBd + 8 * j + 13) (pdeMag M pt (u 0) a b r
        + |beta| * dataMag (fun i => u 0 (M.dirichletInput i)) M.dirichletActual) (out'.loss 0) (out.loss 0) := by
    rintro out' ⟨es, hes, h1, h2, h3⟩
    rw [cellsResidualE_eq M pt j p none hM hu kind] at hes
    obtain ⟨n1, pos⟩ := lossE_pde M pt ε j p none hc (u 0) hε hes h1
    have n2 := data_near hε (h2 0)
    simp only [hu _ M.dirichletInput] at n2
    have n3 := total_near hε (m := 2 * nq + nt + nc + nBd + 8 * j + 12) n1 n2
      (by simp only [pdeRoundings]; omega) (by simp only [dataRoundings]; omega) (h3 0)
    rw [← e1, ← e2, ← e3] at n3
    exact n3.err
  refine ⟨a, b, r, hc, ?_⟩
  have h1 := main _ h₁
  have h2 := main _ h₂
  unfold RoundedFrom at h1 h2
  rw [abs_le] at h1 h2 ⊢
  constructor <;> linarith [h1.1, h1.2, h2.1, h2.2]

end

/-- **C85** (the bound in the usual form).  As long as `k ε < 1`, the factor `(1 + ε) ^ k - 1` is at most
`k ε / (1 - k ε)`. -/
theorem C85_factor (ε : ℝ) (hε : 0 ≤ ε) (k : ℕ) (hk : k * ε < 1) (m r r' : ℝ) (hm : 0 ≤ m)
    (h : RoundedFrom ε k m r' r) : |r' - r| ≤ k * ε / (1 - k * ε) * m := by
  refine h.trans (mul_le_mul_of_nonneg_right ?_ hm)
  have h0 : 0 < 1 - k * ε := by linarith
  have key : (1 + ε) ^ k * (1 - k * ε) ≤ 1 := by
    clear h hm h0 hk
    induction k with
    | zero => simp
    | succ k ih =>
      have h1 := one_le_pow_u hε k
      have e : (1 + ε) ^ (k + 1) * (1 - (k + 1 : ℕ) * ε)
          = (1 + ε) ^ k * (1 - k * ε) - (1 + ε) ^ k * ((k + 1) * ε ^ 2) := by
        push_cast
        ring
      rw [e]
      have : 0 ≤ (1 + ε) ^ k * ((k + 1) * ε ^ 2) := by positivity
      linarith
  rw [sub_le_iff_le_add, div_add_one h0.ne', le_div_iff₀ h0]
  linarith

/-! ## Rounding to nearest -/

lemma nearest_error (p : ℕ) (x : ℝ) : |nearest p x - x| ≤ (2 : ℝ)⁻¹ ^ p * |x| := by
  rcases eq_or_ne x 0 with rfl | hx
  · simp [nearest]
  set e := Int.log 2 |x| with he
  have hpos : (0 : ℝ) < 2 ^ (e - p + 1) := by positivity
  have h1 : nearest p x - x = (round (x / 2 ^ (e - p + 1)) - x / 2 ^ (e - p + 1)) * (2 : ℝ) ^ (e - p + 1) := by
    rw [sub_mul, div_mul_cancel₀ _ hpos.ne']
    rfl
  have h2 := abs_sub_round (x / (2 : ℝ) ^ (e - p + 1))
  have h3 : (2 : ℝ) ^ e ≤ |x| := by
    have := Int.zpow_log_le_self (b := 2) (by norm_num) (abs_pos.2 hx)
    simpa [he] using this
  have h4 : (2 : ℝ) ^ (e - p + 1) = 2 * ((2 : ℝ)⁻¹ ^ p * 2 ^ e) := by
    rw [zpow_add₀ (by norm_num), zpow_sub₀ (by norm_num)]
    simp
    ring
  rw [h1, abs_mul, abs_of_pos hpos, abs_sub_comm]
  calc _ ≤ 1 / 2 * (2 : ℝ) ^ (e - p + 1) := mul_le_mul_of_nonneg_right h2 hpos.le
    _ = (2 : ℝ)⁻¹ ^ p * 2 ^ e := by rw [h4]; ring
    _ ≤ _ := mul_le_mul_of_nonneg_left h3 (by positivity)

lemma exists_delta {u : ℝ} (hu : 0 ≤ u) {fl : ℝ → ℝ} (h : ∀ x, |fl x - x| ≤ u * |x|) (x : ℝ) :
    ∃ δ, |δ| ≤ u ∧ fl x = x * (1 + δ) := by
  rcases eq_or_ne x 0 with rfl | hx
  · refine ⟨0, by simpa using hu, ?_⟩
    have := h 0
    simp at this
    simp [this]
  · refine ⟨(fl x - x) / x, ?_, by field_simp; ring⟩
    rw [abs_div, div_le_iff₀ (abs_pos.2 hx)]
    exact h x

lemma sumInOrder_run {u : ℝ} (hu : 0 ≤ u) {fl : ℝ → ℝ} (h : ∀ x, |fl x - x| ≤ u * |x|) (l : List ℝ) :
    SumRun u l (ExprOf.inOrder.sumInOrder fl l) := by
  cases l with
  | nil => exact .nil
  | cons x l =>
    have key : ∀ (l m : List ℝ) (s : ℝ), m ≠ [] → SumRun u m s →
        SumRun u (m ++ l) (l.foldl (fun s y => fl (s + y)) s) := by
      intro l
      induction l with
      | nil => exact fun m s _ hs => by simpa using hs
      | cons y l ih =>
        intro m s hm hs
        obtain ⟨δ, hδ, e⟩ := exists_delta hu h (s + y)
        have h1 := SumRun.add hm (List.cons_ne_nil y []) hs (.one y) hδ
        rw [← e] at h1
        have := ih (m ++ [y]) _ (by simp) h1
        simpa using this
    exact key l [x] x (by simp) (.one x)

/-- Every evaluation in program order with a rounding function is a possible evaluation. -/
lemma inOrder_run {u : ℝ} (hu : 0 ≤ u) {fl : ℝ → ℝ} (h : ∀ x, |fl x - x| ≤ u * |x|) :
    ∀ e : Expr, e.Run u (e.inOrder fl)
  | .val j x => by
    simp only [ExprOf.Run, ExprOf.inOrder]
    have h1 := one_le_pow_u hu j
    split_ifs with hj
    · simp [hj]
    · refine (h x).trans (mul_le_mul_of_nonneg_right ?_ (abs_nonneg x))
      have : (1 + u) ^ 1 ≤ (1 + u) ^ j := pow_le_pow_right₀ (by linarith) (by omega)
      linarith
  | .add a b => by
    obtain ⟨δ, hδ, e⟩ := exists_delta hu h (a.inOrder fl + b.inOrder fl)
    exact ⟨_, _, δ, inOrder_run hu h a, inOrder_run hu h b, hδ, e⟩
  | .sub a b => by
    obtain ⟨δ, hδ, e⟩ := exists_delta hu h (a.inOrder fl - b.inOrder fl)
    exact ⟨_, _, δ, inOrder_run hu h a, inOrder_run hu h b, hδ, e⟩
  | .mul a b => by
    obtain ⟨δ, hδ, e⟩ := exists_delta hu h (a.inOrder fl * b.inOrder fl)
    exact ⟨_, _, δ, inOrder_run hu h a, inOrder_run hu h b, hδ, e⟩
  | .sq a => by
    obtain ⟨δ, hδ, e⟩ := exists_delta hu h (a.inOrder fl ^ 2)
    exact ⟨_, δ, inOrder_run hu h a, hδ, e⟩
  | .abs a => ⟨_, inOrder_run hu h a, rfl⟩
  | .sum n f => ⟨_, fun i => inOrder_run hu h (f i), sumInOrder_run hu h _⟩
  | .mean n f => by
    obtain ⟨δ, hδ, e⟩ := exists_delta hu h
      (ExprOf.inOrder.sumInOrder fl (List.ofFn fun i => (f i).inOrder fl) / n)
    exact ⟨_, _, δ, 0, fun i => inOrder_run hu h (f i), sumInOrder_run hu h _, hδ, by simpa using hu,
      by rw [add_zero, mul_one]; exact e⟩

/-- **C85** (rounding to nearest).  Rounding to the nearest number with `p` significant binary digits has
relative error at most `2⁻ᵖ`, and evaluating an expression in program order with this rounding is one of the
evaluations that the other theorems are about. -/
theorem C85_nearest (p : ℕ) :
    (∀ x, |nearest p x - x| ≤ (2 : ℝ)⁻¹ ^ p * |x|) ∧
    ∀ e : Expr, e.Run ((2 : ℝ)⁻¹ ^ p) (e.inOrder (nearest p)) :=
  ⟨nearest_error p, inOrder_run (by positivity) (nearest_error p)⟩

/-! ## What a computed loss says about the differential equation -/

lemma Spec.DefectBound.mono {cells : List Quad} {ty : String} {N : ℕ} {ρ : ℝ → ℝ → ℝ} {L L' : ℝ} {δ : ℕ → ℕ → ℝ}
    (h : DefectBound cells ty N ρ L δ) (hL : L ≤ L') : DefectBound cells ty N ρ L' δ := by
  intro k c hk P hP coef hcoef
  refine (h k c hk P hP coef hcoef).trans ?_
  have := Real.sqrt_le_sqrt hL
  gcongr

/-- **C85** (defect).  Whatever the order of evaluation, the PDE loss that `DenseModel` or `DenseModel_Hard`
computes with rounding, increased by the rounding bound, bounds the defect of the differential equation on
every cell as in C84. -/
theorem C85_defect {V : Type} {cells : List Quad} {s : FESettings} {ψ : ℕ → ℕ → ℝ × ℝ → ℝ} {f : ℝ → ℝ → ℝ}
    (hV : VariationalSetup cells s.feType s.feOrder.toNat ψ f) {nq : ℕ}
    {S : Fespace2D (ℝ → ℝ → ℝ) V (s.feOrder.toNat ^ 2) nq} {D : DataHandler2D (s.feOrder.toNat ^ 2) nq}
    (hR : Discretised cells f s S D) (hty : s.feType ≠ "jacobi_plain") (bdv : List (ℝ × ℝ) × List ℝ)
    (kind : LossKind) (hk : kind.forward) (p : ParamDict) (e : ℝ) (b : ℝ × ℝ) (r : ℝ)
    (hco : ConstantCoefficients kind p e b r) (u : ℝ × ℝ → ℝ) (ρ : ℝ → ℝ → ℝ)
    (hρ : ∀ c ∈ cells, IsDefect (cellSet c) (fun _ => e) u b r f ρ) (δ : ℕ → ℕ → ℝ)
    (hδ : IntegrandsNear (ruleDegree s.quadType s.quadOrder) cells s.feOrder.toNat ψ (fun _ => e) u b r f δ)
    (net : Network 1) (hnet : RowWise net (fun _ => u)) (beta ε : ℝ) (hε : 0 ≤ ε) (j : ℕ) :
    ∃ pt, Shaped (modelDataOf D bdv S.nCells) pt ∧
      (∀ out', RoundedDense ε j kind (modelDataOf D bdv S.nCells) net beta p out' →
        DefectBound cells s.feType s.feOrder.toNat ρ (out'.lossPde
          + ((1 + ε) ^ (2 * nq + s.feOrder.toNat ^ 2 + D.nCells + 8 * j + 12) - 1)
            * pdeMag (modelDataOf D bdv S.nCells) pt u (fun _ _ => e) b r) δ) ∧
      ∀ out', RoundedHard ε j kind (modelDataOf D bdv S.nCells) net p out' →
        DefectBound cells s.feType s.feOrder.toNat ρ (out'.loss
          + ((1 + ε) ^ (2 * nq + s.feOrder.toNat ^ 2 + D.nCells + 8 * j + 12) - 1)
            * pdeMag (modelDataOf D bdv S.nCells) pt u (fun _ _ => e) b r) δ := by
  obtain ⟨pt, -, hsh, -, -⟩ := pdeLoss_close hV hR bdv (fun _ _ => continuousOn_const)
    (fun c hc => (hρ c hc).solves.smooth) hδ
  obtain ⟨out, outH, ho, hoH, hb, hbH⟩ := C84_train_step hV hR hty bdv kind hk p e b r hco u ρ hρ δ hδ net hnet
    beta
  have hco' := constantCoefficients_iff hk hco D.nCells nq
  refine ⟨pt, hsh, fun out' h' => Spec.DefectBound.mono hb ?_, fun out' h' => Spec.DefectBound.mono hbH ?_⟩
  · obtain ⟨⟨a, b', r', hc, h1, -⟩, -⟩ := C85_dense _ pt hsh ε hε j beta p kind hk net (fun _ => u) hnet out out'
      ho h'
    obtain ⟨rfl, rfl, rfl⟩ := coefficients_unique hc hco'
    have := (abs_le.1 h1).1
    linarith
  · obtain ⟨⟨a, b', r', hc, h1⟩, -⟩ := C85_hard _ pt hsh ε hε j beta p kind hk net (fun _ => u) hnet outH out'
      hoH h'
    obtain ⟨rfl, rfl, rfl⟩ := coefficients_unique hc hco'
    have := (abs_le.1 h1).1
    linarith

/-! ### Examples -/

/-- One cell with one point and one test function: `GX = 1/3`, `u_x = 1`, everything else zero. -/
noncomputable def thirdData : ModelData 1 1 1 1 1 where
  preMultiplierVal := fun _ _ _ => 0
  preMultiplierGradX := fun _ _ _ => 1 / 3
  preMultiplierGradY := fun _ _ _ => 0
  forceMatrix := fun _ _ => 0
  inputTensor := fun _ => (0, 0)
  dirichletInput := fun _ => (1, 0)
  dirichletActual := fun _ => 2
  nCells := 1

lemma third_shaped : Shaped thirdData fun _ _ => (0, 0) := ⟨rfl, rfl, fun _ _ _ _ => rfl⟩

/-- The network that is `x`. -/
def firstNet : Network 1 := fun _ X i _ => (X i).1

/-- The hypotheses of C85 are met: the exact step returns and, with the roundoff of `float32` and all numbers
rounded once, so does the rounded step; the size of the terms is positive. -/
example : (∃ out, trainStepDense (lossOf .poisson 1 1 1) thirdData firstNet 10 (some [("eps", 1)]) = .ok out) ∧
    (∃ out', RoundedDense ((2 : ℝ)⁻¹ ^ 24) 1 .poisson thirdData firstNet 10 (some [("eps", 1)]) out') ∧
    pdeMag thirdData (fun _ _ => (0, 0)) (fun z => z.1) (fun _ _ => 1) (0, 0) 0 = 1 / 9 := by
  have h := C85_returns (nS := 0) thirdData _ third_shaped ((2 : ℝ)⁻¹ ^ 24) 1 10 (some [("eps", 1)]) none
    Fin.elim0 Fin.elim0 (by positivity) .poisson (Or.inl rfl) firstNet (fun _ z => z.1) (fun _ _ _ _ => rfl)
  have h0 : ∃ out, trainStepDense (lossOf .poisson 1 1 1) thirdData firstNet 10 (some [("eps", 1)]) = .ok out :=
    (C47_dense thirdData _ third_shaped 10 (some [("eps", 1)]) .poisson (Or.inl rfl) firstNet
      (fun _ z => z.1) (fun _ _ _ _ => rfl)).1.2 ⟨_, _, _, 1, ⟨_, rfl, rfl⟩, rfl, rfl, rfl⟩
  refine ⟨h0, h.1.2 h0, ?_⟩
  have e1 : dx (fun z : ℝ × ℝ => z.1) = fun _ => 1 := by
    funext z
    simp [dx]
  have e2 : dy (fun z : ℝ × ℝ => z.1) = fun _ => 0 := by
    funext z
    simp [dy]
  simp [pdeMag, meanSq, residualMag, thirdData, e1, e2]
  norm_num

/-- Rounding happens: `1/3` is not a number with 24 binary digits. -/
example : nearest 24 (1 / 3) ≠ 1 / 3 := by
  have hlog : Int.log 2 |(1 / 3 : ℝ)| = -2 := by
    rw [abs_of_pos (by norm_num)]
    refine le_antisymm ?_ ?_
    · rw [← Int.lt_add_one_iff, ← Int.lt_zpow_iff_log_lt (by norm_num) (by norm_num)]
      norm_num
    · rw [← Int.zpow_le_iff_le_log (by norm_num) (by norm_num)]
      norm_num
  unfold nearest
  rw [hlog]
  intro h
  have h2 : (3 : ℝ) * round ((1 / 3 : ℝ) / 2 ^ ((-2 : ℤ) - (24 : ℕ) + 1)) = 2 ^ 25 := by
    have e : (2 : ℝ) ^ ((-2 : ℤ) - (24 : ℕ) + 1) = (2 ^ 25)⁻¹ := by norm_num
    rw [e] at h ⊢
    field_simp at h
    linarith
  have h3 : (3 : ℤ) * round ((1 / 3 : ℝ) / 2 ^ ((-2 : ℤ) - (24 : ℕ) + 1)) = 2 ^ 25 := by exact_mod_cast h2
  omega

/-- The hypotheses of `C85_defect`: on `demoCells`, for `-Δu = 0` and the network `x²` with defect `-2`. -/
example (beta : ℝ) (bdv : List (ℝ × ℝ) × List ℝ) :
    ∃ nq, ∃ S : Fespace2D (ℝ → ℝ → ℝ) ℝ (defectSettings.feOrder.toNat ^ 2) nq, ∃ D, ∃ out' : TrainOut 1,
      Discretised demoCells (fun _ _ => 0) defectSettings S D ∧
      RoundedDense ((2 : ℝ)⁻¹ ^ 24) 1 .poisson (modelDataOf D bdv S.nCells) squareNet beta (some [("eps", 1)])
        out' ∧
      ∃ pt, DefectBound demoCells "jacobi" 5 (fun _ _ => -2) (out'.lossPde
          + ((1 + (2 : ℝ)⁻¹ ^ 24) ^ (2 * nq + 5 ^ 2 + D.nCells + 8 * 1 + 12) - 1)
            * pdeMag (modelDataOf D bdv S.nCells) pt (fun z => z.1 ^ 2) (fun _ _ => 1) (0, 0) 0)
        fun _ _ => 0 := by
  obtain ⟨nq, S, D, hS⟩ := defect_space fun _ _ => 0
  have hcells : ∀ c ∈ demoCells, ConvexCCW c := fun c hc => (demo_cells_ok c hc).1
  obtain ⟨ψ, hψ⟩ := testFunctions_exist demoCells hcells defectSettings.feType defectSettings.feOrder.toNat
  have ha : IsPolynomial (fun i j => i + j ≤ 0) fun _ : ℝ × ℝ => (1 : ℝ) := const_polynomial 0 1
  have hρ : ∀ c ∈ demoCells, IsDefect (cellSet c) (fun _ => 1) (fun z => z.1 ^ 2) (0, 0) 0 (fun _ _ => 0)
      fun _ _ => -2 := fun c _ => by
    have := polynomial_defect (f := fun _ _ => 0) ha square_polynomial (const_polynomial _ 0) (0, 0) 0 (cellSet c)
    have e : strongDefect (fun _ => 1) (fun z => z.1 ^ 2) (0, 0) 0 (fun _ _ => (0 : ℝ)) = fun _ _ => -2 := by
      funext x y
      rw [square_defect]
      norm_num
    rwa [e] at this
  have hnear := integrandsNear_polynomial (f := fun _ _ => 0) ha square_polynomial (const_polynomial _ 0) (0, 0) 0 hcells hψ
    (d := ruleDegree defectSettings.quadType defectSettings.quadOrder) (by decide)
  have hV : VariationalSetup demoCells defectSettings.feType defectSettings.feOrder.toNat ψ fun _ _ => 0 :=
    ⟨hcells, hψ, fun _ _ => continuousOn_const⟩
  have hco : ConstantCoefficients .poisson (some [("eps", 1)]) 1 (0, 0) 0 := ⟨1, ⟨_, rfl, rfl⟩, rfl, rfl, rfl⟩
  obtain ⟨pt, hsh, hd, -⟩ := C85_defect hV hS (by decide) bdv .poisson (Or.inl rfl) (some [("eps", 1)]) 1 (0, 0) 0
    hco (fun z => z.1 ^ 2) (fun _ _ => -2) hρ (fun _ _ => 0) hnear squareNet (fun _ _ _ _ => rfl) beta
    ((2 : ℝ)⁻¹ ^ 24) (by positivity) 1
  obtain ⟨out, -, ho, -⟩ := C84_train_step hV hS (by decide) bdv .poisson (Or.inl rfl) (some [("eps", 1)]) 1 (0, 0) 0
    hco (fun z => z.1 ^ 2) (fun _ _ => -2) hρ (fun _ _ => 0) hnear squareNet (fun _ _ _ _ => rfl) beta
  obtain ⟨out', h'⟩ := (C85_returns (nS := 0) _ pt hsh ((2 : ℝ)⁻¹ ^ 24) 1 beta (some [("eps", 1)]) none
    Fin.elim0 Fin.elim0 (by positivity) .poisson (Or.inl rfl) squareNet (fun _ z => z.1 ^ 2)
    (fun _ _ _ _ => rfl)).1.2 ⟨out, ho⟩
  exact ⟨nq, S, D, out', hS, h', pt, hd out' h'⟩

end FastVPINNs
