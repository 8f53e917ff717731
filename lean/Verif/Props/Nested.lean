import Verif.Lemmas.Nested
import Verif.Spec.Nested
import Verif.Props.Expressive
import Verif.Props.DataHandler

/-! # C109: a larger `fe_order` keeps every test of a smaller one -/

namespace FastVPINNs

open Spec

lemma coefficients_constant {kind : LossKind} (hk : kind.forward) {nc nq : ℕ} {p : ParamDict}
    {a : Fin nc → Fin nq → ℝ} {b : ℝ × ℝ} {r : ℝ} (h : Coefficients kind p none [] a b r) :
    ∃ e, a = (fun _ _ => e) ∧ ∀ nc' nq', Coefficients (nc := nc') (nq := nq') kind p none [] (fun _ _ => e) b r := by
  rcases hk with rfl | rfl | rfl
  · obtain ⟨e, he, ha, h2⟩ := h
    exact ⟨e, ha, fun _ _ => ⟨e, he, rfl, h2⟩⟩
  · obtain ⟨e, he, ha, h2⟩ := h
    exact ⟨e, ha, fun _ _ => ⟨e, he, rfl, h2⟩⟩
  · obtain ⟨e, k, he, hk, ha, h2⟩ := h
    exact ⟨-e, ha, fun _ _ => ⟨e, k, he, hk, rfl, h2⟩⟩

lemma controls_of {n m : ℕ} (hn : 0 < n) (hm : n ≤ m) {L₁ L₂ P₁ P₂ Q : ℝ} (e₁ : L₁ = P₁ + Q) (e₂ : L₂ = P₂ + Q)
    (hP : (n : ℝ) ^ 2 * P₁ ≤ (m : ℝ) ^ 2 * P₂) (h₁ : 0 ≤ P₁) (h₂ : 0 ≤ P₂) (hQ : 0 ≤ Q) : Controls n m L₁ L₂ := by
  have hn' : (0 : ℝ) < n := by exact_mod_cast hn
  have hmn : (n : ℝ) ≤ m := by exact_mod_cast hm
  have hsq : (n : ℝ) ^ 2 ≤ (m : ℝ) ^ 2 := by gcongr
  refine ⟨?_, fun h0 => ?_⟩
  · rw [e₁, e₂]
    nlinarith [mul_le_mul_of_nonneg_right hsq hQ]
  · have hP2 : P₂ = 0 := by linarith
    have hQ0 : Q = 0 := by linarith
    rw [hP2, mul_zero] at hP
    have : P₁ ≤ 0 := by
      by_contra hc
      have := mul_pos (pow_pos hn' 2) (not_le.1 hc)
      linarith
    rw [e₁, hQ0]
    linarith

lemma pdeLoss_nonneg' {nc nt nq nIn nBd : ℕ} (M : ModelData nc nt nq nIn nBd) (pt : Fin nc → Fin nq → ℝ × ℝ)
    (u : ℝ × ℝ → ℝ) (a : Fin nc → Fin nq → ℝ) (b : ℝ × ℝ) (r : ℝ) : 0 ≤ pdeLoss M pt u a b r :=
  Finset.sum_nonneg fun _ _ => meanSq_nonneg _

section

variable {ext : QuadRoutines} {mp : List (ℝ × ℝ)} {cells : List Quad} {bd : BdDict} {s : FESettings} {m : ℤ}
  {dict : List (ℤ × (ℝ → ℝ → ℝ))} {f : ℝ → ℝ → ℝ} {plot : Bool} {nq nq' : ℕ}
  {S₁ S₁' : Fespace2D (ℝ → ℝ → ℝ) ℝ (s.feOrder.toNat ^ 2) nq} {S₂ S₂' : Fespace2D (ℝ → ℝ → ℝ) ℝ (m.toNat ^ 2) nq'}
  {D₁ : DataHandler2D (s.feOrder.toNat ^ 2) nq} {D₂ : DataHandler2D (m.toNat ^ 2) nq'} (hm : s.feOrder ≤ m)
  (h₁ : fespace2D ext mp cells bd s dict f plot = .ok ⟨nq, S₁⟩)
  (h₂ : fespace2D ext mp cells bd { s with feOrder := m } dict f plot = .ok ⟨nq', S₂⟩)
  (hD₁ : dataHandler2D S₁ true = .ok (D₁, S₁')) (hD₂ : dataHandler2D S₂ true = .ok (D₂, S₂'))

include hm h₁ h₂ hD₁ hD₂

/-- **C109** (tests).  Two spaces with the same arguments except for `fe_order`, `n ≤ m`: the boundary data, the
number of cells and the number of quadrature points are the same, and the residual of any function tested with the
product of the test functions `i, j < n` in a cell is the same number for both spaces. -/
theorem C109_residuals : getDirichletInput S₁ = getDirichletInput S₂ ∧ D₁.nCells = D₂.nCells ∧ nq = nq' ∧
    ∃ pt₁ pt₂, (∀ bdv, Shaped (modelDataOf D₁ bdv S₁.nCells) pt₁ ∧ Shaped (modelDataOf D₂ bdv S₂.nCells) pt₂) ∧
    ∀ (a u : ℝ × ℝ → ℝ) (b : ℝ × ℝ) (r : ℝ) (c : Fin D₁.nCells) (c' : Fin D₂.nCells), c.val = c'.val →
      ∀ i < s.feOrder.toNat, ∀ j < s.feOrder.toNat, ∀ (t : Fin (s.feOrder.toNat ^ 2)) (t' : Fin (m.toNat ^ 2)),
      t.val = s.feOrder.toNat * i + j → t'.val = m.toNat * i + j →
      testedResidual D₁.shapeValMat D₁.gradXMat D₁.gradYMat (fun k q => u (pt₁ k q)) (fun k q => dx u (pt₁ k q))
          (fun k q => dy u (pt₁ k q)) D₁.forcing (fun k q => a (pt₁ k q)) b r c t
        = testedResidual D₂.shapeValMat D₂.gradXMat D₂.gradYMat (fun k q => u (pt₂ k q))
          (fun k q => dx u (pt₂ k q)) (fun k q => dy u (pt₂ k q)) D₂.forcing (fun k q => a (pt₂ k q)) b r c' t' := by
  have hm' : s.feOrder.toNat ≤ m.toNat := by omega
  obtain ⟨rfl, hT⟩ := nested_tables hm' h₁ h₂ hD₁ hD₂
  obtain ⟨pt₁, k₁⟩ := shaped_modelData h₁ hD₁ ([], [])
  obtain ⟨pt₂, k₂⟩ := shaped_modelData h₂ hD₂ ([], [])
  refine ⟨?_, hT.count, rfl, pt₁, pt₂, fun bdv => ⟨⟨k₁.cells, k₁.rows, k₁.point⟩, ⟨k₂.cells, k₂.rows, k₂.point⟩⟩, ?_⟩
  · unfold getDirichletInput
    have e1 := fespace_ok h₁
    have e2 := fespace_ok h₂
    rw [e1.2.2.2.2.2.1, e1.2.2.2.2.2.2.1, e2.2.2.2.2.2.1, e2.2.2.2.2.2.2.1]
  · intro a u b r c c' hc i hi j hj t t' ht ht'
    have hn : 0 < s.feOrder.toNat := by omega
    rw [nested_residual hT k₁ k₂ a u b r c c' hc t]
    congr 1
    apply Fin.ext
    rw [ht']
    show m.toNat * (t.val / s.feOrder.toNat) + t.val % s.feOrder.toNat = _
    have q1 : t.val / s.feOrder.toNat = i := by
      rw [ht, Nat.mul_add_div hn, Nat.div_eq_of_lt hj, Nat.add_zero]
    have q2 : t.val % s.feOrder.toNat = j := by
      rw [ht, Nat.mul_add_mod, Nat.mod_eq_of_lt hj]
    rw [q1, q2]

/-- The PDE losses of the two spaces. -/
lemma nested_losses (bdv : List (ℝ × ℝ) × List ℝ) : 0 < s.feOrder.toNat ∧ s.feOrder.toNat ≤ m.toNat ∧
    ∃ pt₁ pt₂, Shaped (modelDataOf D₁ bdv S₁.nCells) pt₁ ∧ Shaped (modelDataOf D₂ bdv S₂.nCells) pt₂ ∧
    ∀ (a u : ℝ × ℝ → ℝ) (b : ℝ × ℝ) (r : ℝ),
      (s.feOrder.toNat : ℝ) ^ 2 * pdeLoss (modelDataOf D₁ bdv S₁.nCells) pt₁ u (fun k q => a (pt₁ k q)) b r
        ≤ (m.toNat : ℝ) ^ 2 * pdeLoss (modelDataOf D₂ bdv S₂.nCells) pt₂ u (fun k q => a (pt₂ k q)) b r := by
  have hm' : s.feOrder.toNat ≤ m.toNat := by omega
  obtain ⟨B, -, -, -, hB, -⟩ := (fespace_ok h₁).2.2.2.2.2.2.2.2.2.2.2.2
  have hn := ((C12_basis_accepted s.feOrder s.feType).1.1 ⟨B, hB⟩).1
  obtain ⟨rfl, hT⟩ := nested_tables hm' h₁ h₂ hD₁ hD₂
  obtain ⟨pt₁, k₁⟩ := shaped_modelData h₁ hD₁ bdv
  obtain ⟨pt₂, k₂⟩ := shaped_modelData h₂ hD₂ bdv
  exact ⟨by omega, hm', pt₁, pt₂, k₁, k₂, nested_pdeLoss hT k₁ k₂⟩

/-- **C109** (`DenseModel`).  Training steps of the same network on the two spaces, with the same boundary data: one
succeeds exactly if the other does, the boundary losses are equal, and the larger space controls the PDE loss and (for
`beta ≥ 0`) the total loss of the smaller one: `n² · loss ≤ m² · loss`, and zero loss stays zero. -/
theorem C109_dense (bdv : List (ℝ × ℝ) × List ℝ) (kind : LossKind) (hk : kind.forward) (p : ParamDict) (net : Network 1)
    (u : ℝ × ℝ → ℝ) (hnet : RowWise net (fun _ => u)) (beta : ℝ) :
    ((∃ o, trainStepDense (lossOf kind _ _ _) (modelDataOf D₁ bdv S₁.nCells) net beta p = .ok o) ↔
      ∃ o, trainStepDense (lossOf kind _ _ _) (modelDataOf D₂ bdv S₂.nCells) net beta p = .ok o) ∧
    ∀ o₁ o₂, trainStepDense (lossOf kind _ _ _) (modelDataOf D₁ bdv S₁.nCells) net beta p = .ok o₁ →
      trainStepDense (lossOf kind _ _ _) (modelDataOf D₂ bdv S₂.nCells) net beta p = .ok o₂ →
      o₁.lossDirichlet 0 = o₂.lossDirichlet 0 ∧ Controls s.feOrder.toNat m.toNat o₁.lossPde o₂.lossPde ∧
      (0 ≤ beta → Controls s.feOrder.toNat m.toNat (o₁.loss 0) (o₂.loss 0)) := by
  obtain ⟨hn, hm', pt₁, pt₂, k₁, k₂, hle⟩ := nested_losses hm h₁ h₂ hD₁ hD₂ bdv
  obtain ⟨i₁, c₁⟩ := C47_dense _ pt₁ k₁ beta p kind hk net (fun _ => u) hnet
  obtain ⟨i₂, c₂⟩ := C47_dense _ pt₂ k₂ beta p kind hk net (fun _ => u) hnet
  constructor
  · rw [i₁, i₂]
    constructor
    · rintro ⟨a, b, r, h⟩
      obtain ⟨e, -, he⟩ := coefficients_constant hk h
      exact ⟨_, b, r, he _ _⟩
    · rintro ⟨a, b, r, h⟩
      obtain ⟨e, -, he⟩ := coefficients_constant hk h
      exact ⟨_, b, r, he _ _⟩
  · intro o₁ o₂ ho₁ ho₂
    obtain ⟨a, b, r, hc, e1, e2, e3, -⟩ := c₁ o₁ ho₁
    obtain ⟨a', b', r', hc', e1', e2', e3', -⟩ := c₂ o₂ ho₂
    obtain ⟨e, rfl, he⟩ := coefficients_constant hk hc
    obtain ⟨rfl, rfl, rfl⟩ := coefficients_unique hc' (he _ _)
    have hb : o₁.lossDirichlet 0 = o₂.lossDirichlet 0 := e2.trans e2'.symm
    have hP := hle (fun _ => e) u b' r'
    rw [← e1, ← e1'] at hP
    have p1 : 0 ≤ o₁.lossPde := by rw [e1]; exact pdeLoss_nonneg' _ _ _ _ _ _
    have p2 : 0 ≤ o₂.lossPde := by rw [e1']; exact pdeLoss_nonneg' _ _ _ _ _ _
    refine ⟨hb, controls_of hn hm' (add_zero _).symm (add_zero _).symm hP p1 p2 le_rfl, fun hβ => ?_⟩
    exact controls_of hn hm' e3 (by rw [e3', hb]) hP p1 p2 (by rw [e2]; exact mul_nonneg hβ (meanSq_nonneg _))

/-- **C109** (`DenseModel_Hard`). -/
theorem C109_hard (bdv : List (ℝ × ℝ) × List ℝ) (kind : LossKind) (hk : kind.forward) (p : ParamDict) (net : Network 1)
    (u : ℝ × ℝ → ℝ) (hnet : RowWise net (fun _ => u)) (beta : ℝ) :
    ((∃ o, trainStepHard (lossOf kind _ _ _) (modelDataOf D₁ bdv S₁.nCells) net beta p = .ok o) ↔
      ∃ o, trainStepHard (lossOf kind _ _ _) (modelDataOf D₂ bdv S₂.nCells) net beta p = .ok o) ∧
    ∀ o₁ o₂, trainStepHard (lossOf kind _ _ _) (modelDataOf D₁ bdv S₁.nCells) net beta p = .ok o₁ →
      trainStepHard (lossOf kind _ _ _) (modelDataOf D₂ bdv S₂.nCells) net beta p = .ok o₂ →
      Controls s.feOrder.toNat m.toNat o₁.loss o₂.loss := by
  obtain ⟨hn, hm', pt₁, pt₂, k₁, k₂, hle⟩ := nested_losses hm h₁ h₂ hD₁ hD₂ bdv
  obtain ⟨i₁, c₁⟩ := C47_hard _ pt₁ k₁ beta p kind hk net (fun _ => u) hnet
  obtain ⟨i₂, c₂⟩ := C47_hard _ pt₂ k₂ beta p kind hk net (fun _ => u) hnet
  constructor
  · rw [i₁, i₂]
    constructor
    · rintro ⟨a, b, r, h⟩
      obtain ⟨e, -, he⟩ := coefficients_constant hk h
      exact ⟨_, b, r, he _ _⟩
    · rintro ⟨a, b, r, h⟩
      obtain ⟨e, -, he⟩ := coefficients_constant hk h
      exact ⟨_, b, r, he _ _⟩
  · intro o₁ o₂ ho₁ ho₂
    obtain ⟨-, a, b, r, hc, e1, -, e3, -⟩ := c₁ o₁ ho₁
    obtain ⟨-, a', b', r', hc', e1', -, e3', -⟩ := c₂ o₂ ho₂
    obtain ⟨e, rfl, he⟩ := coefficients_constant hk hc
    obtain ⟨rfl, rfl, rfl⟩ := coefficients_unique hc' (he _ _)
    have hP := hle (fun _ => e) u b' r'
    rw [← e1, ← e1'] at hP
    have p1 : 0 ≤ o₁.lossPde := by rw [e1]; exact pdeLoss_nonneg' _ _ _ _ _ _
    have p2 : 0 ≤ o₂.lossPde := by rw [e1']; exact pdeLoss_nonneg' _ _ _ _ _ _
    exact controls_of hn hm' (e3.trans (add_zero _).symm) (e3'.trans (add_zero _).symm) hP p1 p2 le_rfl

/-- **C109** (`DenseModel_Inverse`), for the same sensor data and the same value of the unknown coefficient. -/
theorem C109_inverse (bdv : List (ℝ × ℝ) × List ℝ) {nS : ℕ} (sp : Fin nS → ℝ × ℝ) (sv : Fin nS → ℝ) (p ip : ParamDict)
    (net : Network 1) (u : ℝ × ℝ → ℝ) (hnet : RowWise net (fun _ => u)) (beta : ℝ) :
    ((∃ o, trainStepInverse (lossPoissonInverse _ _ _) (modelDataOf D₁ bdv S₁.nCells) sp sv ip net beta p = .ok o) ↔
      ∃ o, trainStepInverse (lossPoissonInverse _ _ _) (modelDataOf D₂ bdv S₂.nCells) sp sv ip net beta p = .ok o) ∧
    ∀ o₁ o₂,
      trainStepInverse (lossPoissonInverse _ _ _) (modelDataOf D₁ bdv S₁.nCells) sp sv ip net beta p = .ok o₁ →
      trainStepInverse (lossPoissonInverse _ _ _) (modelDataOf D₂ bdv S₂.nCells) sp sv ip net beta p = .ok o₂ →
      o₁.lossDirichlet 0 = o₂.lossDirichlet 0 ∧ o₁.sensorLoss 0 = o₂.sensorLoss 0 ∧
      Controls s.feOrder.toNat m.toNat o₁.lossPde o₂.lossPde ∧
      (0 ≤ beta → Controls s.feOrder.toNat m.toNat (o₁.loss 0) (o₂.loss 0)) := by
  obtain ⟨hn, hm', pt₁, pt₂, k₁, k₂, hle⟩ := nested_losses hm h₁ h₂ hD₁ hD₂ bdv
  obtain ⟨i₁, c₁⟩ := C47_inverse _ pt₁ k₁ beta p ip sp sv net (fun _ => u) hnet
  obtain ⟨i₂, c₂⟩ := C47_inverse _ pt₂ k₂ beta p ip sp sv net (fun _ => u) hnet
  refine ⟨i₁.trans i₂.symm, fun o₁ o₂ ho₁ ho₂ => ?_⟩
  obtain ⟨e, he, e1, e2, e3, -, e4, -⟩ := c₁ o₁ ho₁
  obtain ⟨e', he', e1', e2', e3', -, e4', -⟩ := c₂ o₂ ho₂
  obtain rfl := hasParam_unique he he'
  have hb : o₁.lossDirichlet 0 = o₂.lossDirichlet 0 := e2.trans e2'.symm
  have hs : o₁.sensorLoss 0 = o₂.sensorLoss 0 := e3.trans e3'.symm
  have hP := hle (fun _ => e) u (0, 0) 0
  rw [← e1, ← e1'] at hP
  have p1 : 0 ≤ o₁.lossPde := by rw [e1]; exact pdeLoss_nonneg' _ _ _ _ _ _
  have p2 : 0 ≤ o₂.lossPde := by rw [e1']; exact pdeLoss_nonneg' _ _ _ _ _ _
  refine ⟨hb, hs, controls_of hn hm' (add_zero _).symm (add_zero _).symm hP p1 p2 le_rfl, fun hβ => ?_⟩
  refine controls_of hn hm' (e4.trans (add_assoc _ _ _)) (by rw [e4', hb, hs, add_assoc]) hP p1 p2 ?_
  rw [e2, e3]
  have := mul_nonneg hβ (meanSq_nonneg fun i => u ((modelDataOf D₁ bdv S₁.nCells).dirichletInput i)
    - (modelDataOf D₁ bdv S₁.nCells).dirichletActual i)
  have := meanSq_nonneg fun i => u (sp i) - sv i
  linarith

/-- **C109** (`DenseModel_Inverse_Domain`), for the same sensor data. -/
theorem C109_inverse_domain (bdv : List (ℝ × ℝ) × List ℝ) {nS : ℕ} (sp : Fin nS → ℝ × ℝ) (sv : Fin nS → ℝ)
    (p : ParamDict) {dout : ℕ} (hd : 2 ≤ dout) (net : Network dout) (u : Fin dout → ℝ × ℝ → ℝ) (hnet : RowWise net u)
    (beta : ℝ) :
    ((∃ o, trainStepInverseDomain (lossCd2dInverseDomain _ _ _) (modelDataOf D₁ bdv S₁.nCells) sp sv net beta p
        = .ok o) ↔
      ∃ o, trainStepInverseDomain (lossCd2dInverseDomain _ _ _) (modelDataOf D₂ bdv S₂.nCells) sp sv net beta p
        = .ok o) ∧
    ∀ o₁ o₂,
      trainStepInverseDomain (lossCd2dInverseDomain _ _ _) (modelDataOf D₁ bdv S₁.nCells) sp sv net beta p = .ok o₁ →
      trainStepInverseDomain (lossCd2dInverseDomain _ _ _) (modelDataOf D₂ bdv S₂.nCells) sp sv net beta p = .ok o₂ →
      o₁.lossDirichlet 0 = o₂.lossDirichlet 0 ∧ o₁.sensorLoss 0 = o₂.sensorLoss 0 ∧
      Controls s.feOrder.toNat m.toNat o₁.lossPde o₂.lossPde ∧
      (0 ≤ beta → Controls s.feOrder.toNat m.toNat (o₁.loss 0) (o₂.loss 0)) := by
  obtain ⟨hn, hm', pt₁, pt₂, k₁, k₂, hle⟩ := nested_losses hm h₁ h₂ hD₁ hD₂ bdv
  obtain ⟨i₁, c₁⟩ := C47_inverse_domain _ pt₁ k₁ beta p sp sv hd net u hnet
  obtain ⟨i₂, c₂⟩ := C47_inverse_domain _ pt₂ k₂ beta p sp sv hd net u hnet
  refine ⟨i₁.trans i₂.symm, fun o₁ o₂ ho₁ ho₂ => ?_⟩
  obtain ⟨x, y, r, q1, q2, q3, e1, e2, e3, e4, -⟩ := c₁ o₁ ho₁
  obtain ⟨x', y', r', q1', q2', q3', e1', e2', e3', e4', -⟩ := c₂ o₂ ho₂
  obtain rfl := hasParam_unique q1 q1'
  obtain rfl := hasParam_unique q2 q2'
  obtain rfl := hasParam_unique q3 q3'
  have hb : o₁.lossDirichlet 0 = o₂.lossDirichlet 0 := e2.trans e2'.symm
  have hs : o₁.sensorLoss 0 = o₂.sensorLoss 0 := e3.trans e3'.symm
  have hP := hle (u ⟨1, by omega⟩) (u ⟨0, by omega⟩) (x, y) r
  rw [← e1, ← e1'] at hP
  have p1 : 0 ≤ o₁.lossPde := by rw [e1]; exact pdeLoss_nonneg' _ _ _ _ _ _
  have p2 : 0 ≤ o₂.lossPde := by rw [e1']; exact pdeLoss_nonneg' _ _ _ _ _ _
  refine ⟨hb, hs, controls_of hn hm' (add_zero _).symm (add_zero _).symm hP p1 p2 le_rfl, fun hβ => ?_⟩
  refine controls_of hn hm' (e4.trans (add_assoc _ _ _)) (by rw [e4', hb, hs, add_assoc]) hP p1 p2 ?_
  rw [e2, e3]
  have g1 := mul_nonneg hβ (meanSq_nonneg fun i => u ⟨0, by omega⟩ ((modelDataOf D₁ bdv S₁.nCells).dirichletInput i)
    - (modelDataOf D₁ bdv S₁.nCells).dirichletActual i)
  have g2 := meanSq_nonneg fun i => u ⟨0, by omega⟩ (sp i) - sv i
  linarith

end

/-- The demo space for every accepted order. -/
lemma demo_order (m : ℤ) (h2 : 2 ≤ m) (h3 : m < 1000) (ext : QuadRoutines) (f : ℝ → ℝ → ℝ) :
    ∃ nq, ∃ S : Fespace2D (ℝ → ℝ → ℝ) ℝ (m.toNat ^ 2) nq,
      fespace2D ext [(0, 0), (1, 1)] demoCells demoBoundary { demoSettings "bilinear" with feOrder := m } demoDict f
        false = .ok ⟨nq, S⟩ :=
  (C63_constructor ext [(0, 0), (1, 1)] demoCells demoBoundary { demoSettings "bilinear" with feOrder := m } demoDict
    f).2 ⟨rfl, by simp [demoCells], ⟨h2, h3⟩, by simp [demoSettings, supportedFeType], by simp [demoSettings], Or.inl rfl,
      Or.inl rfl, by
        intro e he _
        simp only [demoBoundary, List.mem_cons, List.not_mem_nil, or_false] at he
        rcases he with rfl | rfl
        · exact ⟨fun x y => x * y, rfl⟩
        · exact ⟨fun x _ => x, rfl⟩⟩

/-- The hypotheses are met by the demo mesh with orders 3 and 7, for the network `(x, y) ↦ x² y` and the Poisson loss:
both training steps succeed. -/
example (ext : QuadRoutines) : ∃ nq, ∃ S₁ : Fespace2D (ℝ → ℝ → ℝ) ℝ ((3 : ℤ).toNat ^ 2) nq,
    ∃ D₁ : DataHandler2D ((3 : ℤ).toNat ^ 2) nq, ∃ nq',
    ∃ S₂ : Fespace2D (ℝ → ℝ → ℝ) ℝ ((7 : ℤ).toNat ^ 2) nq',
    ∃ D₂ : DataHandler2D ((7 : ℤ).toNat ^ 2) nq', ∃ o₁ o₂,
    trainStepDense (lossOf .poisson _ _ _) (modelDataOf D₁ ([(0, 0)], [1]) S₁.nCells)
        (fun _ X r (_ : Fin 1) => (X r).1 ^ 2 * (X r).2) 10 (some [("eps", 1)]) = .ok o₁ ∧
    trainStepDense (lossOf .poisson _ _ _) (modelDataOf D₂ ([(0, 0)], [1]) S₂.nCells)
        (fun _ X r (_ : Fin 1) => (X r).1 ^ 2 * (X r).2) 10 (some [("eps", 1)]) = .ok o₂ ∧
    9 * o₁.loss 0 ≤ 49 * o₂.loss 0 := by
  obtain ⟨nq, S₁, h₁⟩ := demo_order 3 (by norm_num) (by norm_num) ext fun x _ => x
  obtain ⟨nq', S₂, h₂⟩ := demo_order 7 (by norm_num) (by norm_num) ext fun x _ => x
  obtain ⟨-, D₁, S₁', hD₁, -⟩ := C41_layout ext _ _ _ (demoSettings "bilinear") _ _ _ S₁ h₁
  obtain ⟨-, D₂, S₂', hD₂, -⟩ := C41_layout ext _ _ _ { demoSettings "bilinear" with feOrder := 7 } _ _ _ S₂ h₂
  obtain ⟨hi, h⟩ := C109_dense (s := demoSettings "bilinear") (m := 7) (by norm_num [demoSettings]) h₁ h₂ hD₁ hD₂
    ([(0, 0)], [1]) .poisson (Or.inl rfl) (some [("eps", 1)])
    (fun _ X r (_ : Fin 1) => (X r).1 ^ 2 * (X r).2) (fun z => z.1 ^ 2 * z.2) (fun _ _ _ _ => rfl) 10
  obtain ⟨pt, hsh⟩ := shaped_modelData (s := demoSettings "bilinear") h₁ hD₁ ([(0, 0)], [1])
  obtain ⟨o₁, ho₁⟩ := (C47_dense _ pt hsh 10 (some [("eps", 1)]) .poisson (Or.inl rfl)
    (fun _ X r (_ : Fin 1) => (X r).1 ^ 2 * (X r).2) (fun _ z => z.1 ^ 2 * z.2) (fun _ _ _ _ => rfl)).1.2
      ⟨_, _, _, 1, ⟨_, rfl, rfl⟩, rfl, rfl, rfl⟩
  obtain ⟨o₂, ho₂⟩ := hi.1 ⟨o₁, ho₁⟩
  refine ⟨nq, S₁, D₁, nq', S₂, D₂, o₁, o₂, ho₁, ho₂, ?_⟩
  have := ((h o₁ o₂ ho₁ ho₂).2.2 (by norm_num)).1
  have e3 : (((3 : ℤ).toNat : ℕ) : ℝ) = 3 := by norm_num [show (3 : ℤ).toNat = 3 from rfl]
  have e7 : (((7 : ℤ).toNat : ℕ) : ℝ) = 7 := by norm_num [show (7 : ℤ).toNat = 7 from rfl]
  have k : (((3 : ℤ).toNat : ℕ) : ℝ) ^ 2 * o₁.loss 0 ≤ (((7 : ℤ).toNat : ℕ) : ℝ) ^ 2 * o₂.loss 0 := this
  rw [e3, e7] at k
  norm_num at k
  exact k

end FastVPINNs
