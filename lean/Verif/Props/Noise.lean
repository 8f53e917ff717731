import Verif.Lemmas.Noise

/-! # C110: errors in the data -/

namespace FastVPINNs

open Spec

section

variable {ext : QuadRoutines} {mp : List (ℝ × ℝ)} {cells : List Quad} {bd : BdDict} {s : FESettings}
  {dict dict' : List (ℤ × (ℝ → ℝ → ℝ))} {f f' : ℝ → ℝ → ℝ} {plot : Bool} {nq nq' : ℕ}
  {S₁ S₁' : Fespace2D (ℝ → ℝ → ℝ) ℝ (s.feOrder.toNat ^ 2) nq}
  {S₂ S₂' : Fespace2D (ℝ → ℝ → ℝ) ℝ (s.feOrder.toNat ^ 2) nq'}
  {D₁ : DataHandler2D (s.feOrder.toNat ^ 2) nq} {D₂ : DataHandler2D (s.feOrder.toNat ^ 2) nq'}
  {bdv₁ bdv₂ : List (ℝ × ℝ) × List ℝ}
  (h₁ : fespace2D ext mp cells bd s dict f plot = .ok ⟨nq, S₁⟩)
  (h₂ : fespace2D ext mp cells bd s dict' f' plot = .ok ⟨nq', S₂⟩)
  (hD₁ : dataHandler2D S₁ true = .ok (D₁, S₁')) (hD₂ : dataHandler2D S₂ true = .ok (D₂, S₂'))
  (hb₁ : getDirichletInput S₁ = .ok bdv₁) (hb₂ : getDirichletInput S₂ = .ok bdv₂)
  {K ε δ : ℝ} (hε : 0 ≤ ε) (hK : ∀ c t, ∑ q, |D₁.shapeValMat c t q| ≤ K)
  (hf : ∀ r, |f (D₁.xPde r).1 (D₁.xPde r).2 - f' (D₁.xPde r).1 (D₁.xPde r).2| ≤ ε)
  (hg : ∀ e ∈ taggedPoints bd, ∀ g g', dict.lookup e.1 = some g → dict'.lookup e.1 = some g' →
    |g e.2.1 e.2.2 - g' e.2.1 e.2.2| ≤ δ)

include h₁ h₂ hD₁ hD₂ hb₁ hb₂ hε hK hf hg

/-- What the two models are given. -/
lemma noise_data : D₁.nCells = cells.length ∧ ∃ e : nq = nq', ∃ F' vals, (e ▸ D₂) = { D₁ with forcing := F' } ∧
    bdv₂ = (bdv₁.1, vals) ∧ S₂.nCells = S₁.nCells ∧ (∀ t c, |D₁.forcing t c - F' t c| ≤ K * ε) ∧
    ∀ i : Fin bdv₁.1.length, |bdv₁.2.getD i.val 0 - vals.getD i.val 0| ≤ δ := by
  have e1 := fespace_ok h₁
  have e2 := fespace_ok h₂
  obtain ⟨-, E₁, T₁, hE₁, hn₁, -⟩ := C41_layout ext mp cells bd s dict f plot S₁ h₁
  obtain ⟨rfl, -⟩ := Prod.mk.inj (Except.ok.inj (hD₁.symm.trans hE₁))
  obtain ⟨rfl, F', hF'⟩ := noise_tables h₁ h₂ hD₁ hD₂
  simp only at hF'
  subst hF'
  obtain ⟨row₁, hr₁, hs₁⟩ := forcing_sum h₁ hD₁
  obtain ⟨row₂, hr₂, hs₂⟩ := forcing_sum h₂ hD₂
  simp only at row₂ hr₂ hs₂
  have hrow : row₂ = row₁ := funext fun c => funext fun q => Fin.ext ((hr₂ c q).trans (hr₁ c q).symm)
  have hgen : ∀ {S : Fespace2D (ℝ → ℝ → ℝ) ℝ (s.feOrder.toNat ^ 2) nq} {dict : List (ℤ × (ℝ → ℝ → ℝ))} {f bdv},
      fespace2D ext mp cells bd s dict f plot = .ok ⟨nq, S⟩ → getDirichletInput S = .ok bdv →
      bdv.1 = (taggedPoints bd).map Prod.snd ∧
      List.Forall₂ (fun (r : ℤ × (ℝ × ℝ)) v => ∃ g, dict.lookup r.1 = some g ∧ v = g r.2.1 r.2.2)
          (taggedPoints bd) bdv.2 := by
    intro S dict f bdv h hb
    have e := fespace_ok h
    unfold getDirichletInput at hb
    rw [e.2.2.2.2.2.1, e.2.2.2.2.2.2.1] at hb
    obtain ⟨p1, p2, -⟩ := C37_dirichlet_data ext mp cells bd s dict f plot
    by_cases hall : ∀ e ∈ bd, e.2 ≠ [] → ∃ g, dict.lookup e.1 = some g
    · obtain ⟨x, y, hxy, hx, hy⟩ := p1 hall
      rw [hxy] at hb
      obtain rfl := Except.ok.inj hb
      exact ⟨hx, hy⟩
    · rw [p2 hall] at hb
      cases hb
  obtain ⟨x1, y1⟩ := hgen h₁ hb₁
  obtain ⟨x2, y2⟩ := hgen h₂ hb₂
  refine ⟨hn₁, rfl, F', bdv₂.2, rfl, Prod.ext (x2.trans x1.symm) rfl, e2.2.2.2.2.1.trans e1.2.2.2.2.1.symm,
    fun t c => ?_, fun i => ?_⟩
  · rw [hs₁, show F' t c = _ from hs₂ t c, hrow, ← Finset.sum_sub_distrib]
    refine (Finset.abs_sum_le_sum_abs _ _).trans ?_
    calc _ ≤ ∑ q, |D₁.shapeValMat c t q| * ε := Finset.sum_le_sum fun q _ => by
          rw [← mul_sub, abs_mul]
          exact mul_le_mul_of_nonneg_left (hf _) (abs_nonneg _)
      _ = (∑ q, |D₁.shapeValMat c t q|) * ε := (Finset.sum_mul _ _ _).symm
      _ ≤ K * ε := mul_le_mul_of_nonneg_right (hK c t) hε
  · have hi : i.val < (taggedPoints bd).length :=
      lt_of_lt_of_eq i.isLt ((congrArg List.length x1).trans (List.length_map _))
    have i1 : i.val < bdv₁.2.length := by rw [← y1.length_eq]; exact hi
    have i2 : i.val < bdv₂.2.length := by rw [← y2.length_eq]; exact hi
    obtain ⟨g, hg1, v1⟩ := (List.forall₂_iff_get.1 y1).2 i.val hi i1
    obtain ⟨g', hg2, v2⟩ := (List.forall₂_iff_get.1 y2).2 i.val hi i2
    rw [List.getD_eq_getElem _ _ i1, List.getD_eq_getElem _ _ i2]
    simp only [List.get_eq_getElem] at v1 v2 hg1 hg2
    rw [v1, v2]
    exact hg _ (List.getElem_mem hi) _ _ hg1 hg2

/-- **C110** (`DenseModel`).  Two trainings whose data differ: forcing functions by at most `ε` at the quadrature
points, boundary values by at most `δ`.  Every network gets a loss in both or in neither, and the square roots of the two
losses differ by at most `√(N (K ε)² + β δ²)`, where `N` is the number of cells and `K` bounds the sums of the absolute
values of the premultiplied test functions. -/
theorem C110_dense (kind : LossKind) (hk : kind.forward) (p : ParamDict) (beta : ℝ) (hβ : 0 ≤ beta) :
    RootsWithin {net : Network 1 | ∃ u, RowWise net fun _ => u}
      (fun net v => ∃ o, trainStepDense (lossOf kind _ _ _) (modelDataOf D₁ bdv₁ S₁.nCells) net beta p = .ok o ∧
        o.loss 0 = v)
      (fun net v => ∃ o, trainStepDense (lossOf kind _ _ _) (modelDataOf D₂ bdv₂ S₂.nCells) net beta p = .ok o ∧
        o.loss 0 = v)
      √(cells.length * (K * ε) ^ 2 + beta * δ ^ 2) := by
  rintro net ⟨u, hu⟩
  obtain ⟨pt, hsh⟩ := shaped_modelData h₁ hD₁ bdv₁
  obtain ⟨hn, rfl, F', vals, hD, rfl, hS, hF, hv⟩ := noise_data h₁ h₂ hD₁ hD₂ hb₁ hb₂ hε hK hf hg
  simp only at hD
  subst hD
  rw [hS]
  set M := modelDataOf D₁ bdv₁ S₁.nCells with hM
  have hM' : modelDataOf { D₁ with forcing := F' } (bdv₁.1, vals) S₁.nCells
    = { M with forceMatrix := F', dirichletActual := fun i => vals.getD i.val 0 } := rfl
  have hsh' : Shaped { M with forceMatrix := F', dirichletActual := fun i => vals.getD i.val 0 } pt :=
    ⟨hsh.cells, hsh.rows, hsh.point⟩
  obtain ⟨i₁, c₁⟩ := C47_dense M pt hsh beta p kind hk net (fun _ => u) hu
  obtain ⟨i₂, c₂⟩ := C47_dense _ pt hsh' beta p kind hk net (fun _ => u) hu
  rw [← hn]
  constructor
  · constructor
    · rintro ⟨v, o, ho, -⟩
      obtain ⟨o', ho'⟩ := i₂.2 (i₁.1 ⟨o, ho⟩)
      exact ⟨_, o', ho', rfl⟩
    · rintro ⟨v, o, ho, -⟩
      obtain ⟨o', ho'⟩ := i₁.2 (i₂.1 ⟨o, ho⟩)
      exact ⟨_, o', ho', rfl⟩
  · rintro _ _ ⟨o, ho, rfl⟩ ⟨o', ho', rfl⟩
    obtain ⟨a, b, r, hc, e1, e2, e3, -⟩ := c₁ o ho
    obtain ⟨a', b', r', hc', e1', e2', e3', -⟩ := c₂ o' ho'
    obtain ⟨rfl, rfl, rfl⟩ := coefficients_unique hc' hc
    rw [e3, e3', e1, e1', e2, e2']
    exact ((rootNear_pdeLoss M F' _ pt u _ _ _ hF).add ((rootNear_boundary M _ u hv).smul hβ)).close

/-- **C110** (`DenseModel_Hard`): there is no boundary loss. -/
theorem C110_hard (kind : LossKind) (hk : kind.forward) (p : ParamDict) (beta : ℝ) :
    RootsWithin {net : Network 1 | ∃ u, RowWise net fun _ => u}
      (fun net v => ∃ o, trainStepHard (lossOf kind _ _ _) (modelDataOf D₁ bdv₁ S₁.nCells) net beta p = .ok o ∧
        o.loss = v)
      (fun net v => ∃ o, trainStepHard (lossOf kind _ _ _) (modelDataOf D₂ bdv₂ S₂.nCells) net beta p = .ok o ∧
        o.loss = v)
      √(cells.length * (K * ε) ^ 2) := by
  rintro net ⟨u, hu⟩
  obtain ⟨pt, hsh⟩ := shaped_modelData h₁ hD₁ bdv₁
  obtain ⟨hn, rfl, F', vals, hD, rfl, hS, hF, -⟩ := noise_data h₁ h₂ hD₁ hD₂ hb₁ hb₂ hε hK hf hg
  simp only at hD
  subst hD
  rw [hS]
  set M := modelDataOf D₁ bdv₁ S₁.nCells with hM
  have hM' : modelDataOf { D₁ with forcing := F' } (bdv₁.1, vals) S₁.nCells
    = { M with forceMatrix := F', dirichletActual := fun i => vals.getD i.val 0 } := rfl
  have hsh' : Shaped { M with forceMatrix := F', dirichletActual := fun i => vals.getD i.val 0 } pt :=
    ⟨hsh.cells, hsh.rows, hsh.point⟩
  obtain ⟨i₁, c₁⟩ := C47_hard M pt hsh beta p kind hk net (fun _ => u) hu
  obtain ⟨i₂, c₂⟩ := C47_hard _ pt hsh' beta p kind hk net (fun _ => u) hu
  rw [← hn]
  constructor
  · constructor
    · rintro ⟨v, o, ho, -⟩
      obtain ⟨o', ho'⟩ := i₂.2 (i₁.1 ⟨o, ho⟩)
      exact ⟨_, o', ho', rfl⟩
    · rintro ⟨v, o, ho, -⟩
      obtain ⟨o', ho'⟩ := i₁.2 (i₂.1 ⟨o, ho⟩)
      exact ⟨_, o', ho', rfl⟩
  · rintro _ _ ⟨o, ho, rfl⟩ ⟨o', ho', rfl⟩
    obtain ⟨-, a, b, r, hc, e1, -, e3, -⟩ := c₁ o ho
    obtain ⟨-, a', b', r', hc', e1', -, e3', -⟩ := c₂ o' ho'
    obtain ⟨rfl, rfl, rfl⟩ := coefficients_unique hc' hc
    rw [e3, e3', e1, e1']
    exact (rootNear_pdeLoss M F' _ pt u _ _ _ hF).close

/-- **C110** (`DenseModel_Inverse`).  The sensor values may differ too, by at most `η`; the candidates are networks
together with values of the unknown parameters. -/
theorem C110_inverse {nS : ℕ} (sp : Fin nS → ℝ × ℝ) (sv sv' : Fin nS → ℝ) {η : ℝ} (hη : ∀ i, |sv i - sv' i| ≤ η)
    (p : ParamDict) (beta : ℝ) (hβ : 0 ≤ beta) :
    RootsWithin {x : Network 1 × ParamDict | ∃ u, RowWise x.1 fun _ => u}
      (fun x v => ∃ o, trainStepInverse (lossPoissonInverse _ _ _) (modelDataOf D₁ bdv₁ S₁.nCells) sp sv x.2 x.1 beta p
        = .ok o ∧ o.loss 0 = v)
      (fun x v => ∃ o, trainStepInverse (lossPoissonInverse _ _ _) (modelDataOf D₂ bdv₂ S₂.nCells) sp sv' x.2 x.1 beta p
        = .ok o ∧ o.loss 0 = v)
      √(cells.length * (K * ε) ^ 2 + beta * δ ^ 2 + 10 * η ^ 2) := by
  rintro ⟨net, ip⟩ ⟨u, hu⟩
  simp only at hu ⊢
  obtain ⟨pt, hsh⟩ := shaped_modelData h₁ hD₁ bdv₁
  obtain ⟨hn, rfl, F', vals, hD, rfl, hS, hF, hv⟩ := noise_data h₁ h₂ hD₁ hD₂ hb₁ hb₂ hε hK hf hg
  simp only at hD
  subst hD
  rw [hS]
  set M := modelDataOf D₁ bdv₁ S₁.nCells with hM
  have hM' : modelDataOf { D₁ with forcing := F' } (bdv₁.1, vals) S₁.nCells
    = { M with forceMatrix := F', dirichletActual := fun i => vals.getD i.val 0 } := rfl
  have hsh' : Shaped { M with forceMatrix := F', dirichletActual := fun i => vals.getD i.val 0 } pt :=
    ⟨hsh.cells, hsh.rows, hsh.point⟩
  obtain ⟨i₁, c₁⟩ := C47_inverse M pt hsh beta p ip sp sv net (fun _ => u) hu
  obtain ⟨i₂, c₂⟩ := C47_inverse _ pt hsh' beta p ip sp sv' net (fun _ => u) hu
  rw [← hn]
  constructor
  · constructor
    · rintro ⟨v, o, ho, -⟩
      obtain ⟨o', ho'⟩ := i₂.2 (i₁.1 ⟨o, ho⟩)
      exact ⟨_, o', ho', rfl⟩
    · rintro ⟨v, o, ho, -⟩
      obtain ⟨o', ho'⟩ := i₁.2 (i₂.1 ⟨o, ho⟩)
      exact ⟨_, o', ho', rfl⟩
  · rintro _ _ ⟨o, ho, rfl⟩ ⟨o', ho', rfl⟩
    obtain ⟨e, he, e1, e2, e3, -, e4, -⟩ := c₁ o ho
    obtain ⟨e', he', e1', e2', e3', -, e4', -⟩ := c₂ o' ho'
    obtain rfl := hasParam_unique he' he
    rw [e4, e4', e1, e1', e2, e2', e3, e3']
    exact (((rootNear_pdeLoss M F' _ pt u _ _ _ hF).add ((rootNear_boundary M _ u hv).smul hβ)).add
      ((rootNear_sensor sp sv sv' u hη).smul (by norm_num))).close

/-- **C110** (`DenseModel_Inverse_Domain`). -/
theorem C110_inverse_domain {nS : ℕ} (sp : Fin nS → ℝ × ℝ) (sv sv' : Fin nS → ℝ) {η : ℝ}
    (hη : ∀ i, |sv i - sv' i| ≤ η) (p : ParamDict) {dout : ℕ} (hd : 2 ≤ dout) (beta : ℝ) (hβ : 0 ≤ beta) :
    RootsWithin {net : Network dout | ∃ u, RowWise net u}
      (fun net v => ∃ o, trainStepInverseDomain (lossCd2dInverseDomain _ _ _) (modelDataOf D₁ bdv₁ S₁.nCells) sp sv net
        beta p = .ok o ∧ o.loss 0 = v)
      (fun net v => ∃ o, trainStepInverseDomain (lossCd2dInverseDomain _ _ _) (modelDataOf D₂ bdv₂ S₂.nCells) sp sv' net
        beta p = .ok o ∧ o.loss 0 = v)
      √(cells.length * (K * ε) ^ 2 + beta * δ ^ 2 + 10 * η ^ 2) := by
  rintro net ⟨u, hu⟩
  obtain ⟨pt, hsh⟩ := shaped_modelData h₁ hD₁ bdv₁
  obtain ⟨hn, rfl, F', vals, hD, rfl, hS, hF, hv⟩ := noise_data h₁ h₂ hD₁ hD₂ hb₁ hb₂ hε hK hf hg
  simp only at hD
  subst hD
  rw [hS]
  set M := modelDataOf D₁ bdv₁ S₁.nCells with hM
  have hM' : modelDataOf { D₁ with forcing := F' } (bdv₁.1, vals) S₁.nCells
    = { M with forceMatrix := F', dirichletActual := fun i => vals.getD i.val 0 } := rfl
  have hsh' : Shaped { M with forceMatrix := F', dirichletActual := fun i => vals.getD i.val 0 } pt :=
    ⟨hsh.cells, hsh.rows, hsh.point⟩
  obtain ⟨i₁, c₁⟩ := C47_inverse_domain M pt hsh beta p sp sv hd net u hu
  obtain ⟨i₂, c₂⟩ := C47_inverse_domain _ pt hsh' beta p sp sv' hd net u hu
  rw [← hn]
  constructor
  · constructor
    · rintro ⟨v, o, ho, -⟩
      obtain ⟨o', ho'⟩ := i₂.2 (i₁.1 ⟨o, ho⟩)
      exact ⟨_, o', ho', rfl⟩
    · rintro ⟨v, o, ho, -⟩
      obtain ⟨o', ho'⟩ := i₁.2 (i₂.1 ⟨o, ho⟩)
      exact ⟨_, o', ho', rfl⟩
  · rintro _ _ ⟨o, ho, rfl⟩ ⟨o', ho', rfl⟩
    obtain ⟨x, y, r, q1, q2, q3, e1, e2, e3, e4, -⟩ := c₁ o ho
    obtain ⟨x', y', r', q1', q2', q3', e1', e2', e3', e4', -⟩ := c₂ o' ho'
    obtain rfl := hasParam_unique q1' q1
    obtain rfl := hasParam_unique q2' q2
    obtain rfl := hasParam_unique q3' q3
    rw [e4, e4', e1, e1', e2, e2', e3, e3']
    exact (((rootNear_pdeLoss M F' _ pt _ _ _ _ hF).add ((rootNear_boundary M _ _ hv).smul hβ)).add
      ((rootNear_sensor sp sv sv' _ hη).smul (by norm_num))).close

end

lemma sqrt_add_le (a : ℝ) {b : ℝ} (hb : 0 ≤ b) : √(a + b) ≤ √a + √b := by
  rw [Real.sqrt_le_left (by positivity)]
  have h1 : a ≤ √a ^ 2 := by
    rcases le_total 0 a with h | h
    · rw [Real.sq_sqrt h]
    · exact h.trans (sq_nonneg _)
  have h2 := Real.sq_sqrt hb
  nlinarith [mul_nonneg (Real.sqrt_nonneg a) (Real.sqrt_nonneg b)]

/-- **C110** (consequences).  If the square roots of the losses for two sets of data differ by at most `E`, then a
candidate with loss zero for one set of data has a loss of at most `E²` for the other, and a candidate that is best (up to
`τ`) for the second set of data has, for the first, a loss whose square root exceeds that of any other candidate by at
most `2 E + √τ`. -/
theorem C110_best {ι : Type*} (S : Set ι) (runs runs' : ι → ℝ → Prop) (E : ℝ) (h : RootsWithin S runs runs' E) :
    (∀ x ∈ S, runs x 0 → ∀ v', 0 ≤ v' → runs' x v' → v' ≤ E ^ 2) ∧
    ∀ T ⊆ S, ∀ τ x, 0 ≤ τ → NearlyBest T runs' τ x → ∀ v, runs x v → ∀ y ∈ T, ∀ w, runs y w →
      √v ≤ √w + 2 * E + √τ := by
  constructor
  · intro x hx h0 v' hv' hr
    have := (h x hx).2 0 v' h0 hr
    rw [Real.sqrt_zero, zero_sub, abs_neg, abs_of_nonneg (Real.sqrt_nonneg _)] at this
    calc v' = √v' ^ 2 := (Real.sq_sqrt hv').symm
      _ ≤ E ^ 2 := pow_le_pow_left₀ (Real.sqrt_nonneg _) this 2
  · rintro T hT τ x hτ ⟨hxT, v₂, hv₂, hbest⟩ v hv y hy w hw
    obtain ⟨w₂, hw₂⟩ := ((h y (hT hy)).1).1 ⟨w, hw⟩
    have b1 := abs_le.1 ((h x (hT hxT)).2 v v₂ hv hv₂)
    have b2 := abs_le.1 ((h y (hT hy)).2 w w₂ hw hw₂)
    have b3 : √v₂ ≤ √w₂ + √τ := (Real.sqrt_le_sqrt (hbest y hy w₂ hw₂)).trans (sqrt_add_le w₂ hτ)
    linarith [b1.2, b2.1]

/-- The demo mesh, the forcing function `x` with an error of at most `1/100`, and the boundary functions with an error
of `1/10`. -/
example (ext : QuadRoutines) : ∃ K E : ℝ, ∃ nq, ∃ S₁ : Fespace2D (ℝ → ℝ → ℝ) ℝ ((3 : ℤ).toNat ^ 2) nq,
    ∃ D₁ : DataHandler2D ((3 : ℤ).toNat ^ 2) nq, ∃ nq', ∃ S₂ : Fespace2D (ℝ → ℝ → ℝ) ℝ ((3 : ℤ).toNat ^ 2) nq',
    ∃ D₂ : DataHandler2D ((3 : ℤ).toNat ^ 2) nq', ∃ bdv₁ bdv₂, getDirichletInput S₁ = .ok bdv₁ ∧
    getDirichletInput S₂ = .ok bdv₂ ∧ E = (2 : ℕ) * (K * 0.01) ^ 2 + 10 * 0.1 ^ 2 ∧
    RootsWithin {net : Network 1 | ∃ u, RowWise net fun _ => u}
      (fun net v => ∃ o, trainStepDense (lossOf .poisson _ _ _) (modelDataOf D₁ bdv₁ S₁.nCells) net 10
        (some [("eps", 1)]) = .ok o ∧ o.loss 0 = v)
      (fun net v => ∃ o, trainStepDense (lossOf .poisson _ _ _) (modelDataOf D₂ bdv₂ S₂.nCells) net 10
        (some [("eps", 1)]) = .ok o ∧ o.loss 0 = v) √E := by
  let dict' : List (ℤ × (ℝ → ℝ → ℝ)) := [(1001, fun x _ => x + 0.1), (1000, fun x y => x * y + 0.1)]
  obtain ⟨nq, S₁, h₁⟩ := demo_fespace ext (fun x _ : ℝ => x) "bilinear" (Or.inl rfl)
  have hex : ∃ nq S, fespace2D ext [(0, 0), (1, 1)] demoCells demoBoundary (demoSettings "bilinear") dict'
      (fun x y : ℝ => x + 0.01 * Real.sin y) false = .ok ⟨nq, S⟩ := by
    refine (C63_constructor ext _ demoCells demoBoundary (demoSettings "bilinear") dict' _).2
      ⟨rfl, by simp [demoCells], by simp [demoSettings], by simp [demoSettings, supportedFeType],
        by simp [demoSettings], Or.inl rfl, Or.inl rfl, ?_⟩
    intro e he _
    simp only [demoBoundary, List.mem_cons, List.not_mem_nil, or_false] at he
    rcases he with rfl | rfl
    · exact ⟨fun x y => x * y + 0.1, rfl⟩
    · exact ⟨fun x _ => x + 0.1, rfl⟩
  obtain ⟨nq', S₂, h₂⟩ := hex
  obtain ⟨-, D₁, S₁', hD₁, -⟩ := C41_layout ext _ _ _ (demoSettings "bilinear") _ _ _ S₁ h₁
  obtain ⟨-, D₂, S₂', hD₂, -⟩ := C41_layout ext _ _ _ (demoSettings "bilinear") _ _ _ S₂ h₂
  have b₁ : getDirichletInput S₁ = .ok S₁.dirichletBoundaryData := by
    unfold getDirichletInput
    rw [(fespace_ok h₁).2.2.2.2.2.1, (fespace_ok h₁).2.2.2.2.2.2.1]
    exact (fespace_ok h₁).2.2.2.2.2.2.2.1
  have b₂ : getDirichletInput S₂ = .ok S₂.dirichletBoundaryData := by
    unfold getDirichletInput
    rw [(fespace_ok h₂).2.2.2.2.2.1, (fespace_ok h₂).2.2.2.2.2.2.1]
    exact (fespace_ok h₂).2.2.2.2.2.2.2.1
  refine ⟨∑ c, ∑ t, ∑ q, |D₁.shapeValMat c t q|, _, nq, S₁, D₁, nq', S₂, D₂, _, _, b₁, b₂, rfl, ?_⟩
  have := C110_dense (s := demoSettings "bilinear") h₁ h₂ hD₁ hD₂ b₁ b₂
    (K := ∑ c, ∑ t, ∑ q, |D₁.shapeValMat c t q|) (ε := 0.01) (δ := 0.1) (by norm_num)
    (fun c t => (Finset.single_le_sum (f := fun t => ∑ q, |D₁.shapeValMat c t q|)
        (fun t _ => Finset.sum_nonneg fun q _ => abs_nonneg _) (Finset.mem_univ t)).trans
      (Finset.single_le_sum (f := fun c => ∑ t, ∑ q, |D₁.shapeValMat c t q|)
        (fun c _ => Finset.sum_nonneg fun t _ => Finset.sum_nonneg fun q _ => abs_nonneg _) (Finset.mem_univ c)))
    (fun r => by
      rw [sub_add_cancel_left, abs_neg, abs_mul, abs_of_pos (by norm_num : (0 : ℝ) < 0.01)]
      nlinarith [Real.abs_sin_le_one (D₁.xPde r).2])
    (by
      intro e he g g' hg hg'
      simp only [taggedPoints, demoBoundary, List.flatMap_cons, List.map_cons, List.map_nil, List.flatMap_nil,
        List.append_nil, List.cons_append, List.nil_append, List.mem_cons, List.not_mem_nil, or_false] at he
      rcases he with rfl | rfl | rfl
      · obtain rfl : (fun x y => x * y) = g := Option.some.inj hg
        obtain rfl : (fun x y => x * y + 0.1) = g' := Option.some.inj hg'
        norm_num [abs_le]
      · obtain rfl : (fun x y => x * y) = g := Option.some.inj hg
        obtain rfl : (fun x y => x * y + 0.1) = g' := Option.some.inj hg'
        norm_num [abs_le]
      · obtain rfl : (fun x _ => x) = g := Option.some.inj hg
        obtain rfl : (fun x _ => x + 0.1) = g' := Option.some.inj hg'
        norm_num [abs_le])
    .poisson (Or.inl rfl) (some [("eps", 1)]) 10 (by norm_num)
  exact this

end FastVPINNs
