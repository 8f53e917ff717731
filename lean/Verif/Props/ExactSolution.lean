import Verif.Lemmas.Patch
import Verif.Props.WeakForm

/-! # C46: the exact solution has zero loss -/

namespace FastVPINNs

open Spec Polynomial

/-- The degree up to which the 1D rule with `q` points is exact. -/
def Spec.ruleDegree (quadType : String) (q : ℤ) : ℕ :=
  if quadType = "gauss-legendre" then 2 * q.toNat - 1 else 2 * q.toNat - 3

/-- `-∇·(a ∇u) + b·∇u + r u = f` at all points of `K`. -/
def Spec.SolvesOn (K : Set (ℝ × ℝ)) (a u : ℝ × ℝ → ℝ) (b : ℝ × ℝ) (r : ℝ) (f : ℝ → ℝ → ℝ) : Prop :=
  ∀ z ∈ K, -(dx (fun z => a z * dx u z) z + dy (fun z => a z * dy u z) z)
    + (b.1 * dx u z + b.2 * dy u z) + r * u z = f z.1 z.2

/-- The flux `(F₁, F₂)` is polynomial of a degree that the rule handles on the cell `c` with `N` test
functions per direction: total degree `m` with `m + 1 + N` at most the degree of the rule; on
parallelograms `m + N` suffices; on rectangles only the degree of each component in its own variable
counts. -/
def Spec.FluxHandled (degree N : ℕ) (c : Fin 4 → ℝ × ℝ) (F₁ F₂ : ℝ × ℝ → ℝ) : Prop :=
  (∃ m, IsPolynomial (fun i j => i + j ≤ m) F₁ ∧ IsPolynomial (fun i j => i + j ≤ m) F₂ ∧
    m + 1 + N ≤ degree) ∨
  (IsParallelogram c ∧ ∃ m, IsPolynomial (fun i j => i + j ≤ m) F₁ ∧
    IsPolynomial (fun i j => i + j ≤ m) F₂ ∧ m + N ≤ degree) ∨
  ((∃ a b p q, c = rectangle a b p q) ∧ ∃ m, IsPolynomial (fun i _ => i ≤ m) F₁ ∧
    IsPolynomial (fun _ j => j ≤ m) F₂ ∧ m + N ≤ degree)

lemma fluxHandled_facts {degree N : ℕ} {c : Quad} {F₁ F₂ : ℝ × ℝ → ℝ} (h : FluxHandled degree N c F₁ F₂) :
    Differentiable ℝ F₁ ∧ Differentiable ℝ F₂ ∧
      ∃ m, SliceX m (flux₁ c F₁ F₂) ∧ SliceY m (flux₂ c F₁ F₂) ∧ m + N ≤ degree := by
  rcases h with ⟨m, h1, h2, hm⟩ | ⟨hc, m, h1, h2, hm⟩ | ⟨⟨a, b, p, q, rfl⟩, m, h1, h2, hm⟩
  · exact ⟨h1.differentiable, h2.differentiable, m + 1, (flux_slices c h1 h2).1, (flux_slices c h1 h2).2, hm⟩
  · exact ⟨h1.differentiable, h2.differentiable, m, (flux_slices_parallelogram c hc h1 h2).1,
      (flux_slices_parallelogram c hc h1 h2).2, hm⟩
  · exact ⟨h1.differentiable, h2.differentiable, m, (flux_slices_rectangle a b p q h1 h2).1,
      (flux_slices_rectangle a b p q h1 h2).2, hm⟩

lemma testFamily_facts {ty : String} (h : ty ≠ "jacobi_plain") (i : ℕ) :
    (testFamily ty i).eval 1 = 0 ∧ (testFamily ty i).eval (-1) = 0 ∧ (testFamily ty i).natDegree ≤ i + 2 := by
  unfold testFamily
  split_ifs
  · exact ⟨chebyshevBubble_one i, chebyshevBubble_neg_one i,
      natDegree_le_of_degree_le (degree_chebyshevBubble i).le⟩
  · exact ⟨legendreBubble_one i, legendreBubble_neg_one i,
      natDegree_le_of_degree_le (degree_legendreBubble i).le⟩

lemma hasParam_unique {d : ParamDict} {key : String} {v v' : ℝ} (h : HasParam d key v)
    (h' : HasParam d key v') : v = v' := by
  obtain ⟨l, rfl, e⟩ := h
  obtain ⟨l', e', e''⟩ := h'
  cases e'
  rw [e] at e''
  exact Option.some.inj e''

lemma coefficients_unique {kind : LossKind} {nc nq : ℕ} {p ip : ParamDict}
    {cf : List (Fin nc → Fin nq → ℝ)} {a a' : Fin nc → Fin nq → ℝ} {b b' : ℝ × ℝ} {r r' : ℝ}
    (h : Coefficients kind p ip cf a b r) (h' : Coefficients kind p ip cf a' b' r') :
    a = a' ∧ b = b' ∧ r = r' := by
  cases kind with
  | poisson | poissonInverse =>
    obtain ⟨e, he, rfl, rfl, rfl⟩ := h
    obtain ⟨e', he', rfl, rfl, rfl⟩ := h'
    rw [hasParam_unique he he']
    exact ⟨rfl, rfl, rfl⟩
  | cd2d | cd2dInverse =>
    obtain ⟨e, he, rfl, h1, h2, h3⟩ := h
    obtain ⟨e', he', rfl, h1', h2', h3'⟩ := h'
    rw [hasParam_unique he he']
    exact ⟨rfl, Prod.ext (hasParam_unique h1 h1') (hasParam_unique h2 h2'), hasParam_unique h3 h3'⟩
  | cd2dInverseDomain =>
    obtain ⟨he, h1, h2, h3⟩ := h
    obtain ⟨he', h1', h2', h3'⟩ := h'
    exact ⟨Option.some.inj (he.symm.trans he'),
      Prod.ext (hasParam_unique h1 h1') (hasParam_unique h2 h2'), hasParam_unique h3 h3'⟩
  | helmholtz =>
    obtain ⟨e, k, he, hk, rfl, rfl, rfl⟩ := h
    obtain ⟨e', k', he', hk', rfl, rfl, rfl⟩ := h'
    rw [hasParam_unique he he', hasParam_unique hk hk']
    exact ⟨rfl, rfl, rfl⟩

section
variable {V : Type} (ext : QuadRoutines) (mp : List (ℝ × ℝ)) (cells : List Quad) (bd : BdDict)
  (s : FESettings) (dict : List (ℤ × (ℝ → ℝ → V))) (f : ℝ → ℝ → ℝ) (plot : Bool) {nq : ℕ}
  (S S' : Fespace2D (ℝ → ℝ → ℝ) V (s.feOrder.toNat ^ 2) nq)
  (D : DataHandler2D (s.feOrder.toNat ^ 2) nq)

/-- **C46** (discrete divergence theorem).  For test functions that vanish on the edges, the arrays
reported for a strictly convex cell satisfy the divergence theorem exactly for all fluxes that the rule
handles. -/
theorem C46_divergence (h : fespace2D ext mp cells bd s dict f plot = .ok ⟨nq, S⟩)
    (hr : RoutinesOK ext s.quadOrder s.quadType) (hty : s.feType ≠ "jacobi_plain")
    (k : ℕ) (c : Quad) (hk : cells[k]? = some c) (hc : ConvexCCW c)
    (hpar : s.feTransformationType = "affine" → IsParallelogram c) (F₁ F₂ : ℝ × ℝ → ℝ)
    (hF : FluxHandled (ruleDegree s.quadType s.quadOrder) s.feOrder.toNat c F₁ F₂) :
    ∃ x v gx gy, S.getQuadratureActualCoordinates k = .ok x ∧
      S.getShapeFunctionVal k = .ok v ∧ S.getShapeFunctionGradX k = .ok gx ∧
      S.getShapeFunctionGradY k = .ok gy ∧
      ∀ t, ∑ q, (F₁ (x q) * gx t q + F₂ (x q) * gy t q + (dx F₁ (x q) + dy F₂ (x q)) * v t q) = 0 := by
  obtain ⟨hlen, B, wt, xi, eta, hB, hR, hcell⟩ := fespace_cell h
  obtain ⟨T, fc, hT, hfc, -, facts⟩ := hcell k c hk
  have hfc := (cellAt_nat S k fc).2 hfc
  obtain ⟨n, x, w, hQ, hn, hten, hex, hex', hpos, hx⟩ := rule_facts hR hr
  have hB' := C13_basis_rows _ _ B hB
  obtain ⟨hd1, hd2, m, hs1, hs2, hm⟩ := fluxHandled_facts hF
  have hexact : ExactUpTo ⟨n, x, w⟩ (ruleDegree s.quadType s.quadOrder) := by
    unfold ruleDegree
    rw [hQ, Int.toNat_natCast]
    split_ifs with hq
    · exact hex' hq
    · exact hex
  have hTb : (∀ a b, T.originalFromRef a b = QuadBilinear.getOriginalFromRef c a b ∧
      T.jacobian a b = |bilinDet c a b|) ∧
      ∀ {nt q : ℕ} (gx gy : Fin nt → Fin q → ℝ) (xi eta : Fin q → ℝ),
        T.origFromRefDerivative gx gy xi eta = QuadBilinear.getOrigFromRefDerivative c gx gy xi eta := by
    obtain ⟨ht, -⟩ | ⟨-, rfl⟩ := assignFe_ok hT
    · rw [ht] at hT
      exact (C29_affine_vs_bilinear c T (quadBilinear c) hT (by simp [assignFeTransformation])).1 (hpar ht)
    · exact ⟨fun _ _ => ⟨rfl, rfl⟩, fun _ _ _ _ => rfl⟩
  refine ⟨fc.quadActualCoordinates, fc.basisAtQuad, fc.basisGradxAtQuad, fc.basisGradyAtQuad,
    by simp [Fespace2D.getQuadratureActualCoordinates, hfc], by simp [Fespace2D.getShapeFunctionVal, hfc],
    by simp [Fespace2D.getShapeFunctionGradX, hfc], by simp [Fespace2D.getShapeFunctionGradY, hfc],
    fun t => ?_⟩
  obtain ⟨hi, hj, ht⟩ := index_split t
  obtain ⟨a1, a2, a3⟩ := testFamily_facts hty (t.val / s.feOrder.toNat)
  obtain ⟨b1, b2, b3⟩ := testFamily_facts hty (t.val % s.feOrder.toNat)
  have key := ref_divergence hten hexact (N := s.feOrder.toNat) _ _ (by omega) (by omega) a1 a2 b1 b2
    (flux₁ c F₁ F₂) (flux₂ c F₁ F₂) hs1 hs2 hm
  rw [← key]
  refine Finset.sum_congr rfl fun q _ => ?_
  have hdet := bilinDet_pos hc (rule_mem hten hx q)
  simp only at hdet
  rw [flux_divergence c F₁ F₂ hd1 hd2, facts.val, facts.gradx, facts.grady, facts.point, hTb.2,
    (hTb.1 _ _).1, (hTb.1 _ _).2, abs_of_pos hdet, hB'.value xi eta q _ _ t hi hj ht]
  simp only [QuadBilinear.getOrigFromRefDerivative]
  rw [hB'.gradx xi eta q _ _ t hi hj ht, hB'.grady xi eta q _ _ t hi hj ht]
  unfold flux₁ flux₂
  have hne : bilinDet c (xi q) (eta q) ≠ 0 := hdet.ne'
  change _ = wt q * _
  rw [show (QuadBilinear.xc1 c + QuadBilinear.xc3 c * eta q) * (QuadBilinear.yc2 c + QuadBilinear.yc3 c * xi q)
      - (QuadBilinear.xc2 c + QuadBilinear.xc3 c * xi q) * (QuadBilinear.yc1 c + QuadBilinear.yc3 c * eta q)
      = bilinDet c (xi q) (eta q) from rfl]
  generalize bilinDet c (xi q) (eta q) = J at hne
  field_simp
  ring

/-- **C46** (residuals).  Let the cells be strictly convex (parallelograms for the affine transformation)
and the test functions vanish on the edges.  If `u` solves `-∇·(a∇u) + b·∇u + r u = f` on the cells and
the rule handles its flux `a∇u`, every tested residual of `u` computed from the data handler's tensors is
zero. -/
theorem C46_residuals (bdv : List (ℝ × ℝ) × List ℝ)
    (h : fespace2D ext mp cells bd s dict f plot = .ok ⟨nq, S⟩)
    (hD : dataHandler2D S true = .ok (D, S')) (hr : RoutinesOK ext s.quadOrder s.quadType)
    (hty : s.feType ≠ "jacobi_plain")
    (hcells : ∀ c ∈ cells, ConvexCCW c ∧ (s.feTransformationType = "affine" → IsParallelogram c))
    (a u : ℝ × ℝ → ℝ) (b : ℝ × ℝ) (r : ℝ)
    (hflux : ∀ c ∈ cells, FluxHandled (ruleDegree s.quadType s.quadOrder) s.feOrder.toNat c
      (fun z => a z * dx u z) (fun z => a z * dy u z))
    (hsol : ∀ c ∈ cells, SolvesOn (convexHull ℝ (Set.range c)) a u b r f) :
    ∃ pt, (∀ k : Fin D.nCells, S.getQuadratureActualCoordinates k = .ok (pt k)) ∧
      Shaped (modelDataOf D bdv S.nCells) pt ∧
      AllResidualsZero (modelDataOf D bdv S.nCells) pt u (fun k q => a (pt k q)) b r := by
  obtain ⟨pt, w, ψ, hdis, hsh, -, -⟩ :=
    C42_weak_form ext mp cells bd s dict f plot S S' D bdv h hD hr hcells
  refine ⟨pt, hdis.points, hsh, fun k t => ?_⟩
  obtain ⟨-, D₁, S₁, hD₁, hn, -, hlay⟩ := C41_layout ext mp cells bd s dict f plot S h
  rw [hD] at hD₁
  cases hD₁
  have hcell : cells[k.val]? = some (cells[k.val]'(by rw [← hn]; exact k.isLt)) :=
    List.getElem?_eq_getElem _
  set c := cells[k.val]'(by rw [← hn]; exact k.isLt)
  have hmem : c ∈ cells := List.mem_of_getElem? hcell
  obtain ⟨x, v, gx, gy, ex, ev, egx, egy, hdiv⟩ := C46_divergence ext mp cells bd s dict f plot S h hr hty
    k.val c hcell (hcells c hmem).1 (hcells c hmem).2 _ _ (hflux c hmem)
  obtain ⟨x', ex', hhull⟩ := C32_points ext mp cells bd s dict f plot S h hr k.val c hcell (hcells c hmem).2
  have hx : pt k = x := by
    have := hdis.points k; rw [ex] at this; exact (Except.ok.inj this).symm
  have hx' : x' = x := by rw [ex] at ex'; exact (Except.ok.inj ex').symm
  have hv : D.shapeValMat k = v := by have := (hlay k).1; rw [ev] at this; exact (Except.ok.inj this).symm
  have hgx : D.gradXMat k = gx := by
    have := (hlay k).2.1; rw [egx] at this; exact (Except.ok.inj this).symm
  have hgy : D.gradYMat k = gy := by
    have := (hlay k).2.2.1; rw [egy] at this; exact (Except.ok.inj this).symm
  have hforce : D.forcing t k = ∑ q, v t q * f (x q).1 (x q).2 := by
    obtain ⟨col, S₂, hcol, hc⟩ := (hlay k).2.2.2.2
    rw [hc]
    obtain ⟨fc, hfc, -, hsum⟩ := getForcing_ok hcol
    obtain ⟨-, B, wt, xi, eta, -, -, hcellf⟩ := fespace_cell h
    obtain ⟨T, fc', hT, hfc', hok, facts⟩ := hcellf k.val _ hcell
    have hfc'' := (cellAt_nat S k fc').2 hfc'
    rw [hfc] at hfc''
    cases hfc''
    have e1 := ev
    have e2 := ex
    simp only [Fespace2D.getShapeFunctionVal, hfc, Except.ok.injEq] at e1
    simp only [Fespace2D.getQuadratureActualCoordinates, hfc, Except.ok.injEq] at e2
    rw [hsum, e1, e2, facts.forcing]
  show testedResidual D.shapeValMat D.gradXMat D.gradYMat _ _ _ D.forcing _ b r k t = 0
  unfold testedResidual
  rw [hforce, hv, hgx, hgy, ← Finset.sum_sub_distrib]
  refine Eq.trans (Finset.sum_congr rfl fun q _ => ?_) (hdiv t)
  simp only [hx]
  rw [← hsol c hmem (x q) (by rw [← hx']; exact hhull q)]
  ring

/-- **C46.**  Under the same conditions on cells, test functions and rule, if the network is the exact
solution `u` for the constant coefficients that the loss reads from its parameters, `DenseModel` and
`DenseModel_Hard` report a PDE loss of exactly zero; if the boundary data agree with `u` as well, the
whole loss is zero for every `beta`. -/
theorem C46_exact_solution (bdv : List (ℝ × ℝ) × List ℝ)
    (h : fespace2D ext mp cells bd s dict f plot = .ok ⟨nq, S⟩)
    (hD : dataHandler2D S true = .ok (D, S')) (hr : RoutinesOK ext s.quadOrder s.quadType)
    (hty : s.feType ≠ "jacobi_plain")
    (hcells : ∀ c ∈ cells, ConvexCCW c ∧ (s.feTransformationType = "affine" → IsParallelogram c))
    (kind : LossKind) (hk : kind.forward) (p : ParamDict) (e : ℝ) (u : ℝ × ℝ → ℝ) (b : ℝ × ℝ) (r : ℝ)
    (hco : Coefficients (nc := D.nCells) (nq := nq) kind p none [] (fun _ _ => e) b r)
    (hflux : ∀ c ∈ cells, FluxHandled (ruleDegree s.quadType s.quadOrder) s.feOrder.toNat c
      (fun z => e * dx u z) (fun z => e * dy u z))
    (hsol : ∀ c ∈ cells, SolvesOn (convexHull ℝ (Set.range c)) (fun _ => e) u b r f)
    (net : Network 1) (hu : RowWise net fun _ => u) (beta : ℝ) :
    ∃ out outH, trainStepDense (lossOf kind _ _ _) (modelDataOf D bdv S.nCells) net beta p = .ok out ∧
      trainStepHard (lossOf kind _ _ _) (modelDataOf D bdv S.nCells) net beta p = .ok outH ∧
      out.lossPde = 0 ∧ outH.loss = 0 ∧
      ((∀ i : Fin bdv.1.length, u (bdv.1.get i) = bdv.2.getD i.val 0) → out.loss 0 = 0) := by
  obtain ⟨pt, -, hsh, hzero⟩ := C46_residuals ext mp cells bd s dict f plot S S' D bdv h hD hr hty hcells
    (fun _ => e) u b r hflux hsol
  have hnt : s.feOrder.toNat ^ 2 ≠ 0 := by
    have := (fespace_conditions ext mp cells bd s dict f h).2.2.1.1
    exact pow_ne_zero 2 (by omega)
  obtain ⟨h1, h2⟩ := C47_dense _ pt hsh beta p kind hk net (fun _ => u) hu
  obtain ⟨h3, h4⟩ := C47_hard _ pt hsh beta p kind hk net (fun _ => u) hu
  obtain ⟨out, ho⟩ := h1.2 ⟨_, _, _, hco⟩
  obtain ⟨outH, hoH⟩ := h3.2 ⟨_, _, _, hco⟩
  obtain ⟨a₁, b₁, r₁, hc₁, e1, e2, e3, -⟩ := h2 out ho
  obtain ⟨-, a₂, b₂, r₂, hc₂, e4, -, e5, -⟩ := h4 outH hoH
  obtain ⟨rfl, rfl, rfl⟩ := coefficients_unique hc₁ hco
  obtain ⟨rfl, rfl, rfl⟩ := coefficients_unique hc₂ hc₁
  have hp := (pdeLoss_eq_zero _ pt hnt u (fun _ _ => e) b₂ r₂).2 hzero
  refine ⟨out, outH, ho, hoH, e1.trans hp, e5.trans (e4.trans hp), fun hbd => ?_⟩
  rw [e3, e1, hp, e2]
  have : (fun i => u ((modelDataOf D bdv S.nCells).dirichletInput i)
      - (modelDataOf D bdv S.nCells).dirichletActual i) = fun _ => 0 := by
    funext i
    exact sub_eq_zero.2 (hbd i)
  rw [this]
  simp [meanSq]

lemma meanSq_sub_eq_zero {n : ℕ} {x y : Fin n → ℝ} (h : ∀ i, x i = y i) :
    meanSq (fun i => x i - y i) = 0 := by
  have : (fun i => x i - y i) = fun _ => 0 := funext fun i => sub_eq_zero.2 (h i)
  rw [this]
  simp [meanSq]

/-- **C46** (inverse problems).  If the network is the exact solution and the parameter is the exact one
(`DenseModel_Inverse`), or the two network outputs are the exact solution and the exact diffusion
coefficient (`DenseModel_Inverse_Domain`), the PDE loss is exactly zero; with boundary and sensor data
that agree with the solution the whole loss is zero. -/
theorem C46_inverse (bdv : List (ℝ × ℝ) × List ℝ)
    (h : fespace2D ext mp cells bd s dict f plot = .ok ⟨nq, S⟩)
    (hD : dataHandler2D S true = .ok (D, S')) (hr : RoutinesOK ext s.quadOrder s.quadType)
    (hty : s.feType ≠ "jacobi_plain")
    (hcells : ∀ c ∈ cells, ConvexCCW c ∧ (s.feTransformationType = "affine" → IsParallelogram c))
    {nS : ℕ} (sp : Fin nS → ℝ × ℝ) (sv : Fin nS → ℝ) (p ip : ParamDict) (beta : ℝ) (u : ℝ × ℝ → ℝ) :
    (∀ (e : ℝ) (net : Network 1), HasParam ip "eps" e → RowWise net (fun _ => u) →
      (∀ c ∈ cells, FluxHandled (ruleDegree s.quadType s.quadOrder) s.feOrder.toNat c
        (fun z => e * dx u z) (fun z => e * dy u z)) →
      (∀ c ∈ cells, SolvesOn (convexHull ℝ (Set.range c)) (fun _ => e) u (0, 0) 0 f) →
      ∃ out, trainStepInverse (lossPoissonInverse _ _ _) (modelDataOf D bdv S.nCells) sp sv ip net beta p
          = .ok out ∧ out.lossPde = 0 ∧
        ((∀ i : Fin bdv.1.length, u (bdv.1.get i) = bdv.2.getD i.val 0) → (∀ i, u (sp i) = sv i) →
          out.loss 0 = 0)) ∧
    (∀ (a : ℝ × ℝ → ℝ) (b : ℝ × ℝ) (r : ℝ) (net : Network 2), HasParam p "b_x" b.1 →
      HasParam p "b_y" b.2 → HasParam p "c" r → RowWise net ![u, a] →
      (∀ c ∈ cells, FluxHandled (ruleDegree s.quadType s.quadOrder) s.feOrder.toNat c
        (fun z => a z * dx u z) (fun z => a z * dy u z)) →
      (∀ c ∈ cells, SolvesOn (convexHull ℝ (Set.range c)) a u b r f) →
      ∃ out, trainStepInverseDomain (lossCd2dInverseDomain _ _ _) (modelDataOf D bdv S.nCells) sp sv net
          beta p = .ok out ∧ out.lossPde = 0 ∧
        ((∀ i : Fin bdv.1.length, u (bdv.1.get i) = bdv.2.getD i.val 0) → (∀ i, u (sp i) = sv i) →
          out.loss 0 = 0)) := by
  have hnt : s.feOrder.toNat ^ 2 ≠ 0 := by
    have := (fespace_conditions ext mp cells bd s dict f h).2.2.1.1
    exact pow_ne_zero 2 (by omega)
  constructor
  · intro e net he hu hflux hsol
    obtain ⟨pt, -, hsh, hzero⟩ := C46_residuals ext mp cells bd s dict f plot S S' D bdv h hD hr hty hcells
      (fun _ => e) u (0, 0) 0 hflux hsol
    obtain ⟨h1, h2⟩ := C47_inverse _ pt hsh beta p ip sp sv net (fun _ => u) hu
    obtain ⟨out, ho⟩ := h1.2 ⟨e, he⟩
    obtain ⟨e', he', e1, e2, e3, -, e4, -⟩ := h2 out ho
    obtain rfl := hasParam_unique he he'
    have hp := (pdeLoss_eq_zero _ pt hnt u (fun _ _ => e) (0, 0) 0).2 hzero
    refine ⟨out, ho, e1.trans hp, fun hbd hs => ?_⟩
    have d1 : out.lossDirichlet 0 = 0 := e2.trans (meanSq_sub_eq_zero hbd)
    have d2 : out.sensorLoss 0 = 0 := e3.trans (meanSq_sub_eq_zero hs)
    rw [e4, e1, hp, d1, d2]
    ring
  · intro a b r net hb1 hb2 hr' hu hflux hsol
    obtain ⟨pt, -, hsh, hzero⟩ := C46_residuals ext mp cells bd s dict f plot S S' D bdv h hD hr hty hcells
      a u b r hflux hsol
    obtain ⟨h1, h2⟩ := C47_inverse_domain _ pt hsh beta p sp sv le_rfl net ![u, a] hu
    obtain ⟨out, ho⟩ := h1.2 ⟨b.1, b.2, r, hb1, hb2, hr'⟩
    obtain ⟨b1, b2, r', hb1', hb2', hr'', e1, e2, e3, e4, -⟩ := h2 out ho
    obtain rfl := hasParam_unique hb1 hb1'
    obtain rfl := hasParam_unique hb2 hb2'
    obtain rfl := hasParam_unique hr' hr''
    have hp := (pdeLoss_eq_zero _ pt hnt u (fun k q => a (pt k q)) b r).2 hzero
    have e1' : out.lossPde = 0 := e1.trans hp
    refine ⟨out, ho, e1', fun hbd hs => ?_⟩
    have d1 : out.lossDirichlet 0 = 0 := e2.trans (meanSq_sub_eq_zero hbd)
    have d2 : out.sensorLoss 0 = 0 := e3.trans (meanSq_sub_eq_zero hs)
    rw [e4, e1', d1, d2]
    ring

end

/-- Polynomials whose flux the rule handles: total degree `d` on any cell if `d + N` is at most the degree
of the rule, one more on parallelograms; degree `d` in each variable on rectangles. -/
lemma flux_of_polynomial (degree N d : ℕ) (hd : 1 ≤ d) (c : Quad) (e : ℝ) (u : ℝ × ℝ → ℝ) :
    (IsPolynomial (fun i j => i + j ≤ d) u → d + N ≤ degree →
      FluxHandled degree N c (fun z => e * dx u z) (fun z => e * dy u z)) ∧
    (IsPolynomial (fun i j => i + j ≤ d) u → IsParallelogram c → d + N ≤ degree + 1 →
      FluxHandled degree N c (fun z => e * dx u z) (fun z => e * dy u z)) ∧
    (IsPolynomial (fun i j => i ≤ d ∧ j ≤ d) u → (∃ a b p q, c = rectangle a b p q) → d + N ≤ degree + 1 →
      FluxHandled degree N c (fun z => e * dx u z) (fun z => e * dy u z)) := by
  refine ⟨fun hu h => Or.inl ⟨d - 1, ?_, ?_, by omega⟩,
    fun hu hc h => Or.inr (Or.inl ⟨hc, d - 1, ?_, ?_, by omega⟩),
    fun hu hc h => Or.inr (Or.inr ⟨hc, d - 1, ?_, ?_, by omega⟩)⟩
  · exact (hu.dx (E' := fun i j => i + j ≤ d - 1) fun i j hij => by omega).const_mul e
  · exact (hu.dy (E' := fun i j => i + j ≤ d - 1) fun i j hij => by omega).const_mul e
  · exact (hu.dx (E' := fun i j => i + j ≤ d - 1) fun i j hij => by omega).const_mul e
  · exact (hu.dy (E' := fun i j => i + j ≤ d - 1) fun i j hij => by omega).const_mul e
  · exact (hu.dx (E' := fun i _ => i ≤ d - 1) fun i j hij => by omega).const_mul e
  · exact (hu.dy (E' := fun _ j => j ≤ d - 1) fun i j hij => by omega).const_mul e

lemma convexCCW_gridCell {x y : ℝ × ℝ} (hx : x.1 < x.2) (hy : y.1 < y.2) {nx ny : ℕ} (i j : ℕ)
    (hnx : 0 < nx) (hny : 0 < ny) : ConvexCCW (gridCell x y nx ny i j) :=
  rectangle_convex (gridLine_lt hx hnx (Nat.lt_succ_self i)) (gridLine_lt hy hny (Nat.lt_succ_self j))

/-- **C46** (whole pipeline).  On every internal rectangular mesh, for every polynomial `u` of degree at
most `d` in each variable with `d + N ≤ degree of the rule + 1`: if the forcing function satisfies the
equation of the chosen loss on the domain and every boundary function used equals `u`, a network that is
`u` has total loss exactly zero, for every `beta`. -/
theorem C46_internal_mesh (ext : QuadRoutines) (mp : List (ℝ × ℝ)) (g : Geometry2D) (x y : ℝ × ℝ)
    (hx : x.1 < x.2) (hy : y.1 < y.2) (nx ny nb : ℕ) (smp : Fin 4 → Fin (nb / 4) → ℝ)
    (bd : BdDict) (s : FESettings) (dict : List (ℤ × (ℝ → ℝ → ℝ))) (f : ℝ → ℝ → ℝ) (plot : Bool)
    {nq : ℕ} (S S' : Fespace2D (ℝ → ℝ → ℝ) ℝ (s.feOrder.toNat ^ 2) nq)
    (D : DataHandler2D (s.feOrder.toNat ^ 2) nq)
    (h : fespace2D ext mp (generateQuadMeshInternal g x y nx ny nb smp).cells bd s dict f plot
      = .ok ⟨nq, S⟩)
    (hD : dataHandler2D S true = .ok (D, S')) (hr : RoutinesOK ext s.quadOrder s.quadType)
    (hty : s.feType ≠ "jacobi_plain")
    (kind : LossKind) (hk : kind.forward) (p : ParamDict) (e : ℝ) (u : ℝ × ℝ → ℝ) (b : ℝ × ℝ) (r : ℝ)
    (hco : Coefficients (nc := D.nCells) (nq := nq) kind p none [] (fun _ _ => e) b r)
    (d : ℕ) (hd : 1 ≤ d) (hu : IsPolynomial (fun i j => i ≤ d ∧ j ≤ d) u)
    (hdeg : d + s.feOrder.toNat ≤ ruleDegree s.quadType s.quadOrder + 1)
    (hsol : SolvesOn (domain x y) (fun _ => e) u b r f)
    (hdict : ∀ tag pt, (tag, pt) ∈ taggedPoints bd → ∀ g, dict.lookup tag = some g → g pt.1 pt.2 = u pt)
    (net : Network 1) (hnet : RowWise net fun _ => u) (beta : ℝ) :
    ∃ bdv out outH, getDirichletInput S = .ok bdv ∧
      trainStepDense (lossOf kind _ _ _) (modelDataOf D bdv S.nCells) net beta p = .ok out ∧
      trainStepHard (lossOf kind _ _ _) (modelDataOf D bdv S.nCells) net beta p = .ok outH ∧
      out.lossPde = 0 ∧ out.loss 0 = 0 ∧ outH.loss = 0 := by
  have hlen := (C02_internal_cells g x y hx hy nx ny nb smp).1
  have hgrid : ∀ c ∈ (generateQuadMeshInternal g x y nx ny nb smp).cells, ∃ i < nx, ∃ j < ny,
      c = gridCell x y nx ny i j := by
    intro c hc
    obtain ⟨k, hk⟩ := List.mem_iff_getElem?.1 hc
    obtain ⟨hk', -⟩ := List.getElem?_eq_some_iff.1 hk
    rw [hlen] at hk'
    obtain ⟨hi, hj, hkm⟩ := mem_internal_cells g x y hx hy nx ny nb smp k hk'
    rw [hk] at hkm
    exact ⟨_, hi, _, hj, Option.some.inj hkm⟩
  -- boundary data
  obtain ⟨h1, -, -⟩ := C37_dirichlet_data ext mp
    (generateQuadMeshInternal g x y nx ny nb smp).cells bd s dict f plot
  have hall := (fespace_conditions ext mp _ bd s dict f h).2.2.2.2.2.2.2
  obtain ⟨px, py, hgen, hpx, hpy⟩ := h1 hall
  have hS : getDirichletInput S = .ok (px, py) := by
    obtain ⟨-, -, -, -, -, e1, e2, -⟩ := fespace_ok h
    rw [getDirichletInput, e1, e2, hgen]
  have hbd : ∀ i : Fin px.length, u (px.get i) = py.getD i.val 0 := by
    intro i
    have hlen' : px.length = (taggedPoints bd).length := by rw [hpx, List.length_map]
    have hi : i.val < (taggedPoints bd).length := lt_of_lt_of_eq i.isLt hlen'
    obtain ⟨g', hg, hv⟩ := (List.forall₂_iff_get.1 hpy).2 i.val hi (by rw [← hpy.length_eq]; exact hi)
    have hi' : i.val < py.length := by rw [← hpy.length_eq]; exact hi
    simp only [List.get_eq_getElem] at hg hv ⊢
    have hgu := hdict (taggedPoints bd)[i.val].1 (taggedPoints bd)[i.val].2 (List.getElem_mem hi) g' hg
    rw [List.getD, List.getElem?_eq_getElem hi', Option.getD_some, hv, hgu]
    simp only [hpx, List.getElem_map]
  obtain ⟨out, outH, ho, hoH, e1, e2, e3⟩ := C46_exact_solution ext mp _ bd s dict f plot S S' D (px, py) h
    hD hr hty (fun c hc => by
      obtain ⟨i, hi, j, hj, rfl⟩ := hgrid c hc
      refine ⟨convexCCW_gridCell hx hy i j (by omega) (by omega), fun _ => ?_⟩
      simp [IsParallelogram, gridCell, rectangle]) kind hk p e u b r hco
    (fun c hc => by
      obtain ⟨i, hi, j, hj, rfl⟩ := hgrid c hc
      exact (flux_of_polynomial _ _ d hd _ e u).2.2 hu ⟨_, _, _, _, rfl⟩ hdeg)
    (fun c hc z hz => by
      obtain ⟨i, hi, j, hj, rfl⟩ := hgrid c hc
      rw [gridCell, hull_rectangle (gridLine_mono hx.le (by omega)) (gridLine_mono hy.le (by omega))] at hz
      refine hsol z ⟨⟨?_, ?_⟩, ?_, ?_⟩
      · exact le_trans (le_of_eq_of_le (gridLine_zero _ _ nx).symm (gridLine_mono hx.le (Nat.zero_le i)))
          hz.1.1
      · exact hz.1.2.trans ((gridLine_mono hx.le (by omega : i + 1 ≤ nx)).trans
          (gridLine_last _ _ (by omega)).le)
      · exact le_trans (le_of_eq_of_le (gridLine_zero _ _ ny).symm (gridLine_mono hy.le (Nat.zero_le j)))
          hz.2.1
      · exact hz.2.2.trans ((gridLine_mono hy.le (by omega : j + 1 ≤ ny)).trans
          (gridLine_last _ _ (by omega)).le))
    net hnet beta
  exact ⟨_, out, outH, hS, ho, hoH, e1, e3 hbd, e2⟩

/-- C46 applies to `u = x² y` on a 3×2 mesh of `[0,3]×[0,2]` with two test functions per direction and
Gauss–Lobatto points of order 4 (Poisson loss, `f = -2 y`, two boundary points). -/
example (g : Geometry2D) (smp) (beta : ℝ) : ∃ ext nq S bdv D S' out,
    fespace2D (V := ℝ) ext [] (generateQuadMeshInternal g (0, 3) (0, 2) 3 2 100 smp).cells
      [(1000, [(0, 0), (3, 1)])] ⟨"quadrilateral", 2, "legendre", 4, "gauss-jacobi", "bilinear"⟩
      [(1000, fun x y : ℝ => x ^ 2 * y)] (fun _ y : ℝ => -2 * y) false = .ok ⟨nq, S⟩ ∧
    dataHandler2D S true = .ok (D, S') ∧ getDirichletInput S = .ok bdv ∧
    trainStepDense (lossOf .poisson _ _ _) (modelDataOf D bdv S.nCells)
      (fun _ X i _ => (X i).1 ^ 2 * (X i).2) beta (some [("eps", 1)]) = .ok out ∧ out.loss (0 : Fin 1) = 0 := by
  obtain ⟨ext, h1, h2⟩ := quadRoutines_exist
  have hr : RoutinesOK ext 4 "gauss-jacobi" := ⟨fun h => absurd h (by decide), fun _ => h2 _⟩
  obtain ⟨nq, S, h⟩ := (C63_constructor ext [] (generateQuadMeshInternal g (0, 3) (0, 2) 3 2 100 smp).cells
      [(1000, [(0, 0), (3, 1)])] ⟨"quadrilateral", 2, "legendre", 4, "gauss-jacobi", "bilinear"⟩
      [(1000, fun x y : ℝ => x ^ 2 * y)] (fun _ y : ℝ => -2 * y)).2 ⟨rfl, by
        refine List.ne_nil_of_length_pos ?_
        rw [(C02_internal_cells g (0, 3) (0, 2) (by norm_num) (by norm_num) 3 2 100 smp).1]
        norm_num, by decide, by simp [supportedFeType], by decide, Or.inr rfl, Or.inl rfl, by
        intro e he _
        simp only [List.mem_singleton] at he
        subst he
        exact ⟨_, rfl⟩⟩
  obtain ⟨-, D, S', hD, -⟩ := C41_layout ext _ _ _ _ _ _ _ S h
  have hdx : dx (fun z : ℝ × ℝ => z.1 ^ 2 * z.2) = fun z => 2 * z.1 * z.2 := by
    funext z
    simp [dx]
  have hdy : dy (fun z : ℝ × ℝ => z.1 ^ 2 * z.2) = fun z => z.1 ^ 2 := by
    funext z
    simp [dy]
  obtain ⟨bdv, out, -, e1, e2, -, -, e3, -⟩ := C46_internal_mesh ext [] g (0, 3) (0, 2) (by norm_num)
    (by norm_num) 3 2 100 smp _ _ _ _ _ S S' D h hD hr (by decide) .poisson (Or.inl rfl)
    (some [("eps", 1)]) 1 (fun z => z.1 ^ 2 * z.2) (0, 0) 0 ⟨1, ⟨_, rfl, rfl⟩, rfl, rfl, rfl⟩ 2 (by norm_num)
    ⟨[(1, 2, 1)], by simp, fun z => by simp⟩ (by decide)
    (fun z _ => by
      rw [hdx, hdy]
      have e1 : dx (fun z : ℝ × ℝ => 1 * (2 * z.1 * z.2)) z = 2 * z.2 := by simp [dx]
      have e2 : dy (fun z : ℝ × ℝ => 1 * z.1 ^ 2) z = 0 := by simp [dy]
      rw [e1, e2]
      ring)
    (by
      intro tag pt hpt g' hg'
      simp only [taggedPoints, List.flatMap_cons, List.map_cons, List.map_nil, List.flatMap_nil,
        List.append_nil, List.mem_cons, Prod.mk.injEq, List.not_mem_nil, or_false] at hpt
      rcases hpt with ⟨rfl, rfl⟩ | ⟨rfl, rfl⟩ <;> (cases hg'; rfl))
    (fun _ X i _ => (X i).1 ^ 2 * (X i).2) (fun _ _ _ _ => rfl) beta
  exact ⟨ext, nq, S, bdv, D, S', out, h, hD, e1, e2, e3⟩

end FastVPINNs
