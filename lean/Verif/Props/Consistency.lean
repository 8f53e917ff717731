import Verif.Props.Convergence
import Mathlib.MeasureTheory.Integral.DivergenceTheorem

/-! # C70: consistency for smooth solutions -/

namespace FastVPINNs

open Spec MeasureTheory Polynomial Topology

lemma bmap_interior {c : Quad} (hc : ConvexCCW c) {p : ℝ × ℝ} (hp : p ∈ openSquare) :
    bmap c p ∈ interior (cellSet c) := by
  have hp' := openSquare_subset hp
  have hmap := (bmap_hasStrictFDerivAt c p (bilinDet_pos hc hp').ne').map_nhds_eq_of_equiv
  rw [mem_interior_iff_mem_nhds, ← hmap, Filter.mem_map]
  have hopen : IsOpen openSquare := isOpen_Ioo.prod isOpen_Ioo
  exact Filter.mem_of_superset (hopen.mem_nhds hp) fun q hq => bmap_mem hc (openSquare_subset hq)

lemma refTest_edges {ty : String} (hty : ty ≠ "jacobi_plain") (i j : ℕ) (s : ℝ) :
    refTest ty i j (1, s) = 0 ∧ refTest ty i j (-1, s) = 0 ∧ refTest ty i j (s, 1) = 0 ∧
      refTest ty i j (s, -1) = 0 := by
  obtain ⟨a1, a2, -⟩ := testFamily_facts hty i
  obtain ⟨b1, b2, -⟩ := testFamily_facts hty j
  simp [refTest, a1, a2, b1, b2]

/-- `u` is a classical solution on the cell: continuously differentiable up to the edges, with a flux that
is differentiable in the interior, where the equation holds. -/
structure Spec.ClassicalSolution (K : Set (ℝ × ℝ)) (a u : ℝ × ℝ → ℝ) (b : ℝ × ℝ) (r : ℝ)
    (f : ℝ → ℝ → ℝ) : Prop where
  smooth : SmoothOn K u
  coefficient : ContinuousOn a K
  fluxX : ∀ z ∈ interior K, DifferentiableAt ℝ (fun z => a z * dx u z) z
  fluxY : ∀ z ∈ interior K, DifferentiableAt ℝ (fun z => a z * dy u z) z
  solves : SolvesOn (interior K) a u b r f

/-- The weak form of a classical solution is zero for test functions that vanish on the edges. -/
lemma weakIntegral_zero {c : Quad} (hc : ConvexCCW c) {ty : String} (hty : ty ≠ "jacobi_plain") {N t : ℕ}
    {ψ : ℝ × ℝ → ℝ} (hψ : IsTestFunction ty N c t ψ) {a u : ℝ × ℝ → ℝ} {b : ℝ × ℝ} {r : ℝ}
    {f : ℝ → ℝ → ℝ} (hf : ContinuousOn (fun z : ℝ × ℝ => f z.1 z.2) (cellSet c))
    (hu : ClassicalSolution (cellSet c) a u b r f) : weakIntegral (cellSet c) a u b r f ψ = 0 := by
  rw [weakIntegral_eq hc hψ]
  generalize t / N = i
  generalize t % N = j
  set F₁ : ℝ × ℝ → ℝ := fun z => a z * dx u z with hF₁
  set F₂ : ℝ × ℝ → ℝ := fun z => a z * dy u z with hF₂
  let G₁ : ℝ × ℝ → ℝ := fun p => flux₁ c F₁ F₂ p.1 p.2
  let G₂ : ℝ × ℝ → ℝ := fun p => flux₂ c F₁ F₂ p.1 p.2
  let R := refTest ty i j
  have hm : Set.MapsTo (bmap c) refSquare (cellSet c) := fun p hp => bmap_mem hc hp
  have hb := (bmap_continuous c).continuousOn (s := refSquare)
  have hF₁c : ContinuousOn (fun p => F₁ (bmap c p)) refSquare :=
    (hu.coefficient.mul hu.smooth.dx).comp hb hm
  have hF₂c : ContinuousOn (fun p => F₂ (bmap c p)) refSquare :=
    (hu.coefficient.mul hu.smooth.dy).comp hb hm
  have hRc : Continuous R := refTest_continuous ty i j
  have hG₁c : ContinuousOn (fun p => G₁ p * R p) refSquare := by
    have h1 : Continuous fun p : ℝ × ℝ => QuadBilinear.yc2 c + QuadBilinear.yc3 c * p.1 := by fun_prop
    have h2 : Continuous fun p : ℝ × ℝ => QuadBilinear.xc2 c + QuadBilinear.xc3 c * p.1 := by fun_prop
    exact ((h1.continuousOn.mul hF₁c).sub (h2.continuousOn.mul hF₂c)).mul hRc.continuousOn
  have hG₂c : ContinuousOn (fun p => G₂ p * R p) refSquare := by
    have h1 : Continuous fun p : ℝ × ℝ => -(QuadBilinear.yc1 c + QuadBilinear.yc3 c * p.2) := by fun_prop
    have h2 : Continuous fun p : ℝ × ℝ => QuadBilinear.xc1 c + QuadBilinear.xc3 c * p.2 := by fun_prop
    exact ((h1.continuousOn.mul hF₁c).add (h2.continuousOn.mul hF₂c)).mul hRc.continuousOn
  have hbd : ∀ p, DifferentiableAt ℝ (bmap c) p := fun p =>
    ((component_hasStrictFDerivAt _ _ _ _ p).prodMk
      (component_hasStrictFDerivAt _ _ _ _ p)).hasFDerivAt.differentiableAt
  have hd : ∀ p ∈ openSquare, DifferentiableAt ℝ G₁ p ∧ DifferentiableAt ℝ G₂ p := by
    intro p hp
    have h1 : DifferentiableAt ℝ (fun p => F₁ (bmap c p)) p :=
      (hu.fluxX _ (bmap_interior hc hp)).comp p (hbd p)
    have h2 : DifferentiableAt ℝ (fun p => F₂ (bmap c p)) p :=
      (hu.fluxY _ (bmap_interior hc hp)).comp p (hbd p)
    have e1 : DifferentiableAt ℝ (fun p : ℝ × ℝ => QuadBilinear.yc2 c + QuadBilinear.yc3 c * p.1) p := by
      fun_prop
    have e2 : DifferentiableAt ℝ (fun p : ℝ × ℝ => QuadBilinear.xc2 c + QuadBilinear.xc3 c * p.1) p := by
      fun_prop
    have e3 : DifferentiableAt ℝ (fun p : ℝ × ℝ => -(QuadBilinear.yc1 c + QuadBilinear.yc3 c * p.2)) p := by
      fun_prop
    have e4 : DifferentiableAt ℝ (fun p : ℝ × ℝ => QuadBilinear.xc1 c + QuadBilinear.xc3 c * p.2) p := by
      fun_prop
    exact ⟨(e1.fun_mul h1).fun_sub (e2.fun_mul h2), (e3.fun_mul h1).fun_add (e4.fun_mul h2)⟩
  have hRd : Differentiable ℝ R := refTest_differentiable ty i j
  have hint : ∀ p ∈ openSquare, fderiv ℝ (fun p => G₁ p * R p) p (1, 0)
      + fderiv ℝ (fun p => G₂ p * R p) p (0, 1) = refIntegrand c ty i j a u b r f p := by
    intro p hp
    obtain ⟨h1, h2⟩ := hd p hp
    rw [← dx_eq_fderiv (h1.fun_mul (hRd p)), ← dy_eq_fderiv (h2.fun_mul (hRd p))]
    have d1 := ((hasDerivAt_dx h1).fun_mul (hasDerivAt_dx (hRd p))).deriv
    have d2 := ((hasDerivAt_dy h2).fun_mul (hasDerivAt_dy (hRd p))).deriv
    have hpiola := flux_divergence_at c F₁ F₂ p.1 p.2 (hu.fluxX _ (bmap_interior hc hp))
      (hu.fluxY _ (bmap_interior hc hp))
    have hsol := hu.solves _ (bmap_interior hc hp)
    change deriv (fun s => G₁ (s, p.2) * R (s, p.2)) p.1 + deriv (fun s => G₂ (p.1, s) * R (p.1, s)) p.2 = _
    rw [d1, d2]
    change (dx G₁ p + dy G₂ p = bilinDet c p.1 p.2 * (dx F₁ (bmap c p) + dy F₂ (bmap c p))) at hpiola
    change -(dx F₁ (bmap c p) + dy F₂ (bmap c p)) + _ + _ = _ at hsol
    have g1 : G₁ p = (QuadBilinear.yc2 c + QuadBilinear.yc3 c * p.1) * F₁ (bmap c p)
      - (QuadBilinear.xc2 c + QuadBilinear.xc3 c * p.1) * F₂ (bmap c p) := rfl
    have g2 : G₂ p = -(QuadBilinear.yc1 c + QuadBilinear.yc3 c * p.2) * F₁ (bmap c p)
      + (QuadBilinear.xc1 c + QuadBilinear.xc3 c * p.2) * F₂ (bmap c p) := rfl
    have f1 : F₁ (bmap c p) = a (bmap c p) * dx u (bmap c p) := rfl
    have f2 : F₂ (bmap c p) = a (bmap c p) * dy u (bmap c p) := rfl
    simp only [Prod.mk.eta]
    unfold refIntegrand refGradX refGradY
    rw [g1, g2, f1, f2]
    linear_combination R p * hpiola - bilinDet c p.1 p.2 * R p * hsol
  have hIcc : Set.Icc ((-1, -1) : ℝ × ℝ) (1, 1) = refSquare := by
    rw [refSquare_eq, Set.Icc_prod_Icc]
  have hae : (fun p => fderiv ℝ (fun p => G₁ p * R p) p (1, 0) + fderiv ℝ (fun p => G₂ p * R p) p (0, 1))
      =ᵐ[volume.restrict refSquare] refIntegrand c ty i j a u b r f := by
    rw [← Measure.restrict_congr_set openSquare_ae]
    exact (ae_restrict_iff' (measurableSet_Ioo.prod measurableSet_Ioo)).2
      (Filter.Eventually.of_forall fun p hp => hint p hp)
  have hIi : IntegrableOn (refIntegrand c ty i j a u b r f) refSquare :=
    (refIntegrand_continuous hc ty i j b r hu.coefficient hu.smooth hf).integrableOn_compact
      refSquare_compact
  have hdiv := integral_divergence_prod_Icc_of_hasFDerivAt_of_le (fun p => G₁ p * R p)
    (fun p => G₂ p * R p) (fun p => fderiv ℝ (fun p => G₁ p * R p) p)
    (fun p => fderiv ℝ (fun p => G₂ p * R p) p) (-1, -1) (1, 1)
    ⟨by norm_num, by norm_num⟩ (by rw [hIcc]; exact hG₁c) (by rw [hIcc]; exact hG₂c)
    (fun p hp => ((hd p hp).1.fun_mul (hRd p)).hasFDerivAt)
    (fun p hp => ((hd p hp).2.fun_mul (hRd p)).hasFDerivAt)
    (by rw [hIcc]; exact hIi.congr hae.symm)
  rw [hIcc, integral_congr_ae hae] at hdiv
  rw [hdiv]
  have hedge := refTest_edges hty i j
  simp only [R, (hedge _).1, (hedge _).2.1, (hedge _).2.2.1, (hedge _).2.2.2, mul_zero,
    intervalIntegral.integral_zero]
  norm_num

/-- Test functions exist on strictly convex cells. -/
lemma testFunctions_exist (cells : List Quad) (hcells : ∀ c ∈ cells, ConvexCCW c) (ty : String) (N : ℕ) :
    ∃ ψ : ℕ → ℕ → ℝ × ℝ → ℝ, ∀ k c, cells[k]? = some c → ∀ t < N ^ 2, IsTestFunction ty N c t (ψ k t) := by
  have key : ∀ k t : ℕ, ∃ φ : ℝ × ℝ → ℝ, ∀ c, cells[k]? = some c → IsTestFunction ty N c t φ := by
    intro k t
    cases hk : cells[k]? with
    | none => exact ⟨0, fun c hc => by cases hc⟩
    | some c =>
      obtain ⟨φ, hφ, -⟩ := transport_exists (hcells c (List.mem_of_getElem? hk)) _
        (refTest_differentiable ty (t / N) (t % N))
      refine ⟨φ, fun c' hc' p hp => ?_⟩
      cases hc'
      rw [← bmap_eq, hφ p hp, refTest]
  choose ψ hψ using key
  exact ⟨ψ, fun k c hk t _ => hψ k t c hk⟩

lemma meanSq_le {n : ℕ} {x : Fin n → ℝ} {m : ℝ} (h : ∀ i, |x i| ≤ m) : meanSq x ≤ m ^ 2 := by
  unfold meanSq
  rcases Nat.eq_zero_or_pos n with rfl | hn
  · simpa using sq_nonneg m
  · rw [div_le_iff₀ (by exact_mod_cast hn)]
    calc ∑ i, x i * x i ≤ ∑ _i : Fin n, m ^ 2 := Finset.sum_le_sum fun i _ => by
          rw [← sq, ← sq_abs]
          exact pow_le_pow_left₀ (abs_nonneg _) (h i) 2
      _ = m ^ 2 * n := by simp [mul_comm]

/-- Residuals near the weak form of a classical solution are small. -/
lemma loss_small {cells : List Quad} {ty : String} {N : ℕ} {ψ : ℕ → ℕ → ℝ × ℝ → ℝ} {f : ℝ → ℝ → ℝ}
    (hV : VariationalSetup cells ty N ψ f) (hty : ty ≠ "jacobi_plain") {a u : ℝ × ℝ → ℝ} {b : ℝ × ℝ} {r : ℝ}
    (hu : ∀ c ∈ cells, ClassicalSolution (cellSet c) a u b r f) {δ : ℝ}
    {R : Fin cells.length → Fin (N ^ 2) → ℝ} (hR : ResidualsNear cells N ψ a u b r f (fun _ _ => δ) R) :
    0 ≤ ∑ k, meanSq (R k) ∧ ∑ k, meanSq (R k) ≤ cells.length * (8 * δ) ^ 2 := by
  refine ⟨Finset.sum_nonneg fun _ _ => meanSq_nonneg _, ?_⟩
  calc ∑ k, meanSq (R k) ≤ ∑ _k : Fin cells.length, (8 * δ) ^ 2 := Finset.sum_le_sum fun k _ =>
        meanSq_le fun t => by
          have hc := List.getElem_mem k.2
          have := hR k t
          rwa [show weakIntegral (cellSet cells[k]) a u b r f (ψ k.val t.val) = 0 from
            weakIntegral_zero (hV.convex _ hc) hty (hV.test k.val _ (by simp) t.val t.2) (hV.forcing _ hc)
              (hu _ hc), sub_zero] at this
    _ = cells.length * (8 * δ) ^ 2 := by simp

/-- **C70** (continuous problem).  The weak form of a classical solution is zero for every test function of
a space that vanishes on the edges. -/
theorem C70_weak_form (c : Quad) (hc : ConvexCCW c) (ty : String) (hty : ty ≠ "jacobi_plain") (N t : ℕ)
    (ψ : ℝ × ℝ → ℝ) (hψ : IsTestFunction ty N c t ψ) (a u : ℝ × ℝ → ℝ) (b : ℝ × ℝ) (r : ℝ)
    (f : ℝ → ℝ → ℝ) (hf : ContinuousOn (fun z : ℝ × ℝ => f z.1 z.2) (cellSet c))
    (hu : ClassicalSolution (cellSet c) a u b r f) : weakIntegral (cellSet c) a u b r f ψ = 0 :=
  weakIntegral_zero hc hty hψ hf hu

section Loss

variable {V : Type} {cells : List Quad} {s : FESettings} {ψ : ℕ → ℕ → ℝ × ℝ → ℝ} {f : ℝ → ℝ → ℝ}
  (hV : VariationalSetup cells s.feType s.feOrder.toNat ψ f) {nq : ℕ}
  {S : Fespace2D (ℝ → ℝ → ℝ) V (s.feOrder.toNat ^ 2) nq} {D : DataHandler2D (s.feOrder.toNat ^ 2) nq}
  (hR : Discretised cells f s S D) (hty : s.feType ≠ "jacobi_plain") (bdv : List (ℝ × ℝ) × List ℝ)

include hV hR hty

/-- **C70.**  Let `u` be a classical solution on all cells (not necessarily a polynomial), and let the
integrands of the weak forms be within `δ` of the polynomials that the rule integrates exactly.  Then
`DenseModel` and `DenseModel_Hard` report for a network that is `u` a PDE loss between 0 and `64 δ²` per
cell; if the boundary data agree with `u`, so is the total loss, for every `beta`. -/
theorem C70_smooth_solution (kind : LossKind) (hk : kind.forward) (p : ParamDict) (e : ℝ)
    (b : ℝ × ℝ) (r : ℝ) (hco : ConstantCoefficients kind p e b r) (u : ℝ × ℝ → ℝ)
    (hu : ∀ c ∈ cells, ClassicalSolution (cellSet c) (fun _ => e) u b r f) (δ : ℝ)
    (hδ : IntegrandsNear (ruleDegree s.quadType s.quadOrder) cells s.feOrder.toNat ψ (fun _ => e) u b r f
      fun _ _ => δ) (net : Network 1) (hnet : RowWise net (fun _ => u)) (beta : ℝ) :
    ∃ out outH, trainStepDense (lossOf kind _ _ _) (modelDataOf D bdv S.nCells) net beta p = .ok out ∧
      trainStepHard (lossOf kind _ _ _) (modelDataOf D bdv S.nCells) net beta p = .ok outH ∧
      0 ≤ out.lossPde ∧ out.lossPde ≤ cells.length * (8 * δ) ^ 2 ∧
      0 ≤ outH.loss ∧ outH.loss ≤ cells.length * (8 * δ) ^ 2 ∧
      ((∀ i : Fin bdv.1.length, u (bdv.1.get i) = bdv.2.getD i.val 0) →
        0 ≤ out.loss 0 ∧ out.loss 0 ≤ cells.length * (8 * δ) ^ 2) := by
  obtain ⟨pt, R, hsh, hRn, hle⟩ := pdeLoss_close hV hR bdv (fun _ _ => continuousOn_const)
    (fun c hc => (hu c hc).smooth) hδ
  obtain ⟨n1, n2⟩ := loss_small hV hty hu hRn
  have hco := constantCoefficients_iff hk hco D.nCells nq
  obtain ⟨h1, h2⟩ := C47_dense _ pt hsh beta p kind hk net (fun _ => u) hnet
  obtain ⟨h3, h4⟩ := C47_hard _ pt hsh beta p kind hk net (fun _ => u) hnet
  obtain ⟨out, ho⟩ := h1.2 ⟨_, _, _, hco⟩
  obtain ⟨outH, hoH⟩ := h3.2 ⟨_, _, _, hco⟩
  obtain ⟨a₁, b₁, r₁, hc₁, e1, e2, e3, -⟩ := h2 out ho
  obtain ⟨-, a₂, b₂, r₂, hc₂, e4, -, e5, -⟩ := h4 outH hoH
  obtain ⟨rfl, rfl, rfl⟩ := coefficients_unique hc₁ hco
  obtain ⟨rfl, rfl, rfl⟩ := coefficients_unique hc₂ hc₁
  rw [hle] at e1 e4
  refine ⟨out, outH, ho, hoH, by rw [e1]; exact n1, by rw [e1]; exact n2, by rw [e5, e4]; exact n1,
    by rw [e5, e4]; exact n2, fun hbd => ?_⟩
  have d1 : out.lossDirichlet 0 = 0 := e2.trans (meanSq_sub_eq_zero hbd)
  rw [e3, e1, d1, mul_zero, add_zero]
  exact ⟨n1, n2⟩

/-- **C70** (inverse problems, constant coefficient).  The same for `DenseModel_Inverse` with the exact
parameter, with boundary and sensor data that agree with the solution. -/
theorem C70_inverse (e : ℝ) (u : ℝ × ℝ → ℝ)
    (hu : ∀ c ∈ cells, ClassicalSolution (cellSet c) (fun _ => e) u (0, 0) 0 f) (δ : ℝ)
    (hδ : IntegrandsNear (ruleDegree s.quadType s.quadOrder) cells s.feOrder.toNat ψ (fun _ => e) u (0, 0) 0
      f fun _ _ => δ) {nS : ℕ} (sp : Fin nS → ℝ × ℝ) (sv : Fin nS → ℝ) (net : Network 1)
    (hnet : RowWise net (fun _ => u)) (beta : ℝ) (p ip : ParamDict) (he : HasParam ip "eps" e) :
    ∃ out, trainStepInverse (lossPoissonInverse _ _ _) (modelDataOf D bdv S.nCells) sp sv ip net beta p
        = .ok out ∧ 0 ≤ out.lossPde ∧ out.lossPde ≤ cells.length * (8 * δ) ^ 2 ∧
      ((∀ i : Fin bdv.1.length, u (bdv.1.get i) = bdv.2.getD i.val 0) → (∀ i, u (sp i) = sv i) →
        0 ≤ out.loss 0 ∧ out.loss 0 ≤ cells.length * (8 * δ) ^ 2) := by
  obtain ⟨pt, R, hsh, hRn, hle⟩ := pdeLoss_close hV hR bdv (fun _ _ => continuousOn_const)
    (fun c hc => (hu c hc).smooth) hδ
  obtain ⟨n1, n2⟩ := loss_small hV hty hu hRn
  obtain ⟨h1, h2⟩ := C47_inverse _ pt hsh beta p ip sp sv net (fun _ => u) hnet
  obtain ⟨out, ho⟩ := h1.2 ⟨e, he⟩
  obtain ⟨e', he', e1, e2, e3, -, e4, -⟩ := h2 out ho
  obtain rfl := hasParam_unique he he'
  rw [hle] at e1
  refine ⟨out, ho, by rw [e1]; exact n1, by rw [e1]; exact n2, fun hbd hs => ?_⟩
  have d1 : out.lossDirichlet 0 = 0 := e2.trans (meanSq_sub_eq_zero hbd)
  have d2 : out.sensorLoss 0 = 0 := e3.trans (meanSq_sub_eq_zero hs)
  rw [e4, e1, d1, d2, mul_zero, mul_zero, add_zero, add_zero]
  exact ⟨n1, n2⟩

/-- **C70** (inverse problems, coefficient field).  The same for `DenseModel_Inverse_Domain` with the exact
solution and the exact diffusion coefficient as outputs. -/
theorem C70_inverse_domain (a u : ℝ × ℝ → ℝ) (b : ℝ × ℝ) (r : ℝ)
    (hu : ∀ c ∈ cells, ClassicalSolution (cellSet c) a u b r f) (δ : ℝ)
    (hδ : IntegrandsNear (ruleDegree s.quadType s.quadOrder) cells s.feOrder.toNat ψ a u b r f fun _ _ => δ)
    {nS : ℕ} (sp : Fin nS → ℝ × ℝ) (sv : Fin nS → ℝ) (net : Network 2) (hnet : RowWise net ![u, a])
    (beta : ℝ) (p : ParamDict) (hb1 : HasParam p "b_x" b.1) (hb2 : HasParam p "b_y" b.2)
    (hr' : HasParam p "c" r) :
    ∃ out, trainStepInverseDomain (lossCd2dInverseDomain _ _ _) (modelDataOf D bdv S.nCells) sp sv net
        beta p = .ok out ∧ 0 ≤ out.lossPde ∧ out.lossPde ≤ cells.length * (8 * δ) ^ 2 ∧
      ((∀ i : Fin bdv.1.length, u (bdv.1.get i) = bdv.2.getD i.val 0) → (∀ i, u (sp i) = sv i) →
        0 ≤ out.loss 0 ∧ out.loss 0 ≤ cells.length * (8 * δ) ^ 2) := by
  obtain ⟨pt, R, hsh, hRn, hle⟩ := pdeLoss_close hV hR bdv (fun c hc => (hu c hc).coefficient)
    (fun c hc => (hu c hc).smooth) hδ
  obtain ⟨n1, n2⟩ := loss_small hV hty hu hRn
  obtain ⟨h1, h2⟩ := C47_inverse_domain _ pt hsh beta p sp sv le_rfl net ![u, a] hnet
  obtain ⟨out, ho⟩ := h1.2 ⟨b.1, b.2, r, hb1, hb2, hr'⟩
  obtain ⟨b1, b2, r', hb1', hb2', hr'', e1, e2, e3, e4, -⟩ := h2 out ho
  obtain rfl := hasParam_unique hb1 hb1'
  obtain rfl := hasParam_unique hb2 hb2'
  obtain rfl := hasParam_unique hr' hr''
  have e1' := e1.trans hle
  rw [← e1'] at n1 n2
  refine ⟨out, ho, n1, n2, fun hbd hs => ?_⟩
  have d1 : out.lossDirichlet 0 = 0 := e2.trans (meanSq_sub_eq_zero hbd)
  have d2 : out.sensorLoss 0 = 0 := e3.trans (meanSq_sub_eq_zero hs)
  rw [e4, d1, d2, mul_zero, mul_zero, add_zero, add_zero]
  exact ⟨n1, n2⟩

end Loss

end FastVPINNs
