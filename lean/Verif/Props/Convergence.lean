import Verif.Props.Integrals
import Mathlib.Analysis.Calculus.TangentCone.Real

/-! # C69: distance to the variational problem -/

namespace FastVPINNs

open Spec MeasureTheory Polynomial Topology

/-! ### Test functions on a cell -/

/-- The determinant times the gradient of a test function, on the reference square. -/
noncomputable def refGradX (c : Quad) (ty : String) (i j : ℕ) (p : ℝ × ℝ) : ℝ :=
  (QuadBilinear.yc2 c + QuadBilinear.yc3 c * p.1) * dx (refTest ty i j) p
    - (QuadBilinear.yc1 c + QuadBilinear.yc3 c * p.2) * dy (refTest ty i j) p

/-- The determinant times the gradient of a test function, on the reference square. -/
noncomputable def refGradY (c : Quad) (ty : String) (i j : ℕ) (p : ℝ × ℝ) : ℝ :=
  (QuadBilinear.xc1 c + QuadBilinear.xc3 c * p.2) * dy (refTest ty i j) p
    - (QuadBilinear.xc2 c + QuadBilinear.xc3 c * p.1) * dx (refTest ty i j) p

lemma refTest_continuous (ty : String) (i j : ℕ) : Continuous (refTest ty i j) :=
  (refTest_differentiable ty i j).continuous

lemma refTest_dx_continuous (ty : String) (i j : ℕ) : Continuous (dx (refTest ty i j)) := by
  have : dx (refTest ty i j) = fun p => (derivative (testFamily ty i)).eval p.1 * (testFamily ty j).eval p.2 :=
    funext fun p => refTest_dx ty i j p
  rw [this]
  fun_prop

lemma refTest_dy_continuous (ty : String) (i j : ℕ) : Continuous (dy (refTest ty i j)) := by
  have : dy (refTest ty i j) = fun p => (testFamily ty i).eval p.1 * (derivative (testFamily ty j)).eval p.2 :=
    funext fun p => refTest_dy ty i j p
  rw [this]
  fun_prop

lemma refGradX_continuous (c : Quad) (ty : String) (i j : ℕ) : Continuous (refGradX c ty i j) := by
  have := refTest_dx_continuous ty i j
  have := refTest_dy_continuous ty i j
  unfold refGradX
  fun_prop

lemma refGradY_continuous (c : Quad) (ty : String) (i j : ℕ) : Continuous (refGradY c ty i j) := by
  have := refTest_dx_continuous ty i j
  have := refTest_dy_continuous ty i j
  unfold refGradY
  fun_prop

lemma refSquare_uniqueDiff : UniqueDiffOn ℝ refSquare := by
  rw [refSquare_eq]
  exact (uniqueDiffOn_Icc (by norm_num)).prod (uniqueDiffOn_Icc (by norm_num))

/-- The gradient of a test function at a point of the cell where it is differentiable. -/
lemma test_gradient {c : Quad} {ty : String} {N t : ℕ} {ψ : ℝ × ℝ → ℝ} (hψ : IsTestFunction ty N c t ψ)
    {p : ℝ × ℝ} (hp : p ∈ refSquare) (hd : DifferentiableAt ℝ ψ (bmap c p)) :
    bilinDet c p.1 p.2 * dx ψ (bmap c p) = refGradX c ty (t / N) (t % N) p ∧
    bilinDet c p.1 p.2 * dy ψ (bmap c p) = refGradY c ty (t / N) (t % N) p := by
  have hb : HasFDerivAt (bmap c) (((QuadBilinear.xc1 c + QuadBilinear.xc3 c * p.2) • ContinuousLinearMap.fst ℝ ℝ ℝ
        + (QuadBilinear.xc2 c + QuadBilinear.xc3 c * p.1) • ContinuousLinearMap.snd ℝ ℝ ℝ).prod
      ((QuadBilinear.yc1 c + QuadBilinear.yc3 c * p.2) • ContinuousLinearMap.fst ℝ ℝ ℝ
        + (QuadBilinear.yc2 c + QuadBilinear.yc3 c * p.1) • ContinuousLinearMap.snd ℝ ℝ ℝ)) p :=
    ((component_hasStrictFDerivAt _ _ _ _ p).prodMk (component_hasStrictFDerivAt _ _ _ _ p)).hasFDerivAt
  have h1 := (hd.hasFDerivAt.comp p hb).hasFDerivWithinAt (s := refSquare)
  have hR := refTest_differentiable ty (t / N) (t % N) p
  have h2 : HasFDerivWithinAt (ψ ∘ bmap c) (fderiv ℝ (refTest ty (t / N) (t % N)) p) refSquare p := by
    refine hR.hasFDerivAt.hasFDerivWithinAt.congr (fun q hq => ?_) ?_
    · rw [Function.comp_apply, bmap_eq, hψ q hq, refTest]
    · rw [Function.comp_apply, bmap_eq, hψ p hp, refTest]
  have e := (refSquare_uniqueDiff p hp).eq h1 h2
  have ex : ∀ a b, fderiv ℝ ψ (bmap c p) (a, b) = a * dx ψ (bmap c p) + b * dy ψ (bmap c p) := by
    intro a b
    rw [dx_eq_fderiv hd, dy_eq_fderiv hd, ← smul_eq_mul, ← smul_eq_mul, ← map_smul, ← map_smul, ← map_add]
    simp
  have e1 := congrArg (fun L => L (1, 0)) e
  have e2 := congrArg (fun L => L (0, 1)) e
  simp only [ContinuousLinearMap.comp_apply, ContinuousLinearMap.prod_apply, add_apply, smul_apply,
    ContinuousLinearMap.coe_fst', ContinuousLinearMap.coe_snd', ex] at e1 e2
  rw [← dx_eq_fderiv hR] at e1
  rw [← dy_eq_fderiv hR] at e2
  simp only [smul_eq_mul, mul_one, mul_zero, add_zero, zero_add] at e1 e2
  unfold refGradX refGradY bilinDet
  rw [← e1, ← e2]
  constructor <;> ring

/-- Interior points of the reference square. -/
def openSquare : Set (ℝ × ℝ) := Set.Ioo (-1 : ℝ) 1 ×ˢ Set.Ioo (-1 : ℝ) 1

lemma openSquare_subset : openSquare ⊆ refSquare := by
  rw [refSquare_eq]
  exact Set.prod_mono Set.Ioo_subset_Icc_self Set.Ioo_subset_Icc_self

lemma openSquare_ae : openSquare =ᵐ[volume] refSquare := by
  rw [refSquare_eq]
  exact Measure.set_prod_ae_eq Ioo_ae_eq_Icc Ioo_ae_eq_Icc

/-- In the interior of the cell test functions are differentiable. -/
lemma test_differentiable {c : Quad} (hc : ConvexCCW c) {ty : String} {N t : ℕ} {ψ : ℝ × ℝ → ℝ}
    (hψ : IsTestFunction ty N c t ψ) {p : ℝ × ℝ} (hp : p ∈ openSquare) :
    DifferentiableAt ℝ ψ (bmap c p) := by
  have hp' := openSquare_subset hp
  obtain ⟨ψ₀, h0, h1⟩ := transport_exists hc _ (refTest_differentiable ty (t / N) (t % N))
  have hmap := (bmap_hasStrictFDerivAt c p (bilinDet_pos hc hp').ne').map_nhds_eq_of_equiv
  have hopen : IsOpen openSquare := isOpen_Ioo.prod isOpen_Ioo
  have hev : ∀ᶠ z in 𝓝 (bmap c p), ψ z = ψ₀ z := by
    rw [← hmap, Filter.eventually_map]
    filter_upwards [hopen.mem_nhds hp] with q hq
    rw [h0 q (openSquare_subset hq), bmap_eq, hψ q (openSquare_subset hq), refTest]
  exact (h1 p hp').1.congr_of_eventuallyEq hev

/-- The weak form over a cell as an integral over the reference square. -/
noncomputable def refIntegrand (c : Quad) (ty : String) (i j : ℕ) (a u : ℝ × ℝ → ℝ) (b : ℝ × ℝ) (r : ℝ)
    (f : ℝ → ℝ → ℝ) (p : ℝ × ℝ) : ℝ :=
  a (bmap c p) * (dx u (bmap c p) * refGradX c ty i j p + dy u (bmap c p) * refGradY c ty i j p)
    + (b.1 * dx u (bmap c p) + b.2 * dy u (bmap c p) + r * u (bmap c p) - f (bmap c p).1 (bmap c p).2)
      * (bilinDet c p.1 p.2 * refTest ty i j p)

/-- The integrand of the weak form in the interior of the cell. -/
lemma weakIntegrand_eq {c : Quad} (hc : ConvexCCW c) {ty : String} {N t : ℕ} {ψ : ℝ × ℝ → ℝ}
    (hψ : IsTestFunction ty N c t ψ) (a u : ℝ × ℝ → ℝ) (b : ℝ × ℝ) (r : ℝ) (f : ℝ → ℝ → ℝ) {p : ℝ × ℝ}
    (hp : p ∈ openSquare) :
    bilinDet c p.1 p.2 * weakIntegrand a u b r f ψ (bmap c p)
      = refIntegrand c ty (t / N) (t % N) a u b r f p := by
  obtain ⟨e1, e2⟩ := test_gradient hψ (openSquare_subset hp) (test_differentiable hc hψ hp)
  have e3 := hψ p (openSquare_subset hp)
  rw [← bmap_eq] at e3
  simp only [weakIntegrand, refIntegrand, ← e1, ← e2, refTest, ← e3]
  ring

lemma weakIntegral_eq {c : Quad} (hc : ConvexCCW c) {ty : String} {N t : ℕ} {ψ : ℝ × ℝ → ℝ}
    (hψ : IsTestFunction ty N c t ψ) (a u : ℝ × ℝ → ℝ) (b : ℝ × ℝ) (r : ℝ) (f : ℝ → ℝ → ℝ) :
    weakIntegral (cellSet c) a u b r f ψ
      = ∫ p in refSquare, refIntegrand c ty (t / N) (t % N) a u b r f p := by
  unfold weakIntegral
  rw [cellSet, cell_change hc, ← setIntegral_congr_set openSquare_ae, ← setIntegral_congr_set openSquare_ae]
  exact setIntegral_congr_fun (measurableSet_Ioo.prod measurableSet_Ioo) fun p hp =>
    weakIntegrand_eq hc hψ a u b r f hp

/-- The transported function is close to the polynomial on the closed square too. -/
lemma near_closed {d : ℕ} {c : Quad} {g G : ℝ × ℝ → ℝ} {δ : ℝ} (h : NearPolynomial d c g δ)
    (hG : ContinuousOn G refSquare) (heq : ∀ p ∈ openSquare, bilinDet c p.1 p.2 * g (bmap c p) = G p) :
    ∃ P, IsQ d P ∧ ∀ p ∈ refSquare, |P p - G p| ≤ δ := by
  obtain ⟨P, hP, hnear⟩ := h
  refine ⟨P, hP, fun p hp => ?_⟩
  have hPc : Continuous P := isQ_continuous hP
  have hcl : closure openSquare = refSquare := by
    rw [openSquare, closure_prod_eq, closure_Ioo (by norm_num), refSquare_eq]
  have hle : ∀ q ∈ openSquare, |P q - G q| ≤ δ := fun q hq => by
    have := hnear q.1 hq.1 q.2 hq.2
    have e : (bilinearImage c : ℝ × ℝ → ℝ × ℝ) = fun p => (quadBilinear c).originalFromRef p.1 p.2 :=
      funext fun p => (bmap_eq c p).symm
    rw [← bmap_eq, e, bilin_jacobianDet, Prod.mk.eta, heq q hq, abs_sub_comm] at this
    exact this
  have hcont : ContinuousOn (fun q => |P q - G q|) (closure openSquare) := by
    rw [hcl]
    exact (hPc.continuousOn.sub hG).abs
  rw [← hcl] at hp
  exact le_on_closure (f := fun q => |P q - G q|) (g := fun _ => δ) hle hcont continuousOn_const hp

lemma bmap_mem {c : Quad} (hc : ConvexCCW c) {p : ℝ × ℝ} (hp : p ∈ refSquare) : bmap c p ∈ cellSet c := by
  have hT : assignFeTransformation "quadrilateral" "bilinear" c = .ok (quadBilinear c) := by
    simp [assignFeTransformation]
  have himg : bmap c '' refSquare = convexHull ℝ (Set.range c) := (C25_square_onto_cell c _ hT).2.2.2 hc
  rw [cellSet, ← himg]
  exact ⟨p, hp, rfl⟩

lemma refIntegrand_continuous {c : Quad} (hc : ConvexCCW c) (ty : String) (i j : ℕ) {a u : ℝ × ℝ → ℝ}
    {f : ℝ → ℝ → ℝ} (b : ℝ × ℝ) (r : ℝ) (ha : ContinuousOn a (cellSet c)) (hu : SmoothOn (cellSet c) u)
    (hf : ContinuousOn (fun z : ℝ × ℝ => f z.1 z.2) (cellSet c)) :
    ContinuousOn (refIntegrand c ty i j a u b r f) refSquare := by
  have hm : Set.MapsTo (bmap c) refSquare (cellSet c) := fun p hp => bmap_mem hc hp
  have hb := (bmap_continuous c).continuousOn (s := refSquare)
  have h1 := ha.comp hb hm
  have h2 := hu.val.comp hb hm
  have h3 := hu.dx.comp hb hm
  have h4 := hu.dy.comp hb hm
  have h5 := hf.comp hb hm
  have h6 := (refGradX_continuous c ty i j).continuousOn (s := refSquare)
  have h7 := (refGradY_continuous c ty i j).continuousOn (s := refSquare)
  have h8 := (bilinDet_continuous c).continuousOn (s := refSquare)
  have h9 := (refTest_continuous ty i j).continuousOn (s := refSquare)
  exact (h1.mul ((h3.mul h6).add (h4.mul h7))).add (((((h3.const_mul b.1).add (h4.const_mul b.2)).add
    (h2.const_mul r)).sub h5).mul (h8.mul h9))

/-- **C69.**  For every function that is continuous on a strictly convex cell, the quadrature sum over the
points reported for the cell differs from the integral over the cell by at most 8 times the distance of
the transported function from the polynomials that the rule integrates exactly. -/
theorem C69_quadrature {F V : Type} (ext : QuadRoutines) (mp : List (ℝ × ℝ)) (cells : List Quad) (bd : BdDict)
    (s : FESettings) (dict : List (ℤ × (ℝ → ℝ → V))) (f : F) (plot : Bool) {nq : ℕ}
    (S : Fespace2D F V (s.feOrder.toNat ^ 2) nq) (h : fespace2D ext mp cells bd s dict f plot = .ok ⟨nq, S⟩)
    (hr : RoutinesOK ext s.quadOrder s.quadType) (k : ℕ) (c : Quad) (hk : cells[k]? = some c)
    (hc : ConvexCCW c) (hpar : s.feTransformationType = "affine" → IsParallelogram c) (g : ℝ × ℝ → ℝ)
    (hg : ContinuousOn g (cellSet c)) (δ : ℝ)
    (hδ : NearPolynomial (ruleDegree s.quadType s.quadOrder) c g δ) :
    ∃ x w, S.getQuadratureActualCoordinates k = .ok x ∧ S.getQuadratureWeights k = .ok w ∧
      |∑ q, w q * g (x q) - ∫ z in cellSet c, g z| ≤ 8 * δ := by
  have hG : ContinuousOn (fun p => bilinDet c p.1 p.2 * g (bmap c p)) refSquare :=
    (bilinDet_continuous c).continuousOn.mul
      (hg.comp (bmap_continuous c).continuousOn fun p hp => bmap_mem hc hp)
  obtain ⟨P, hP, hnear⟩ := near_closed hδ hG fun _ _ => rfl
  obtain ⟨wt, xi, eta, n, x, w, -, hten, hex, hw, hmem, hcell⟩ := cell_rule h hr
  obtain ⟨h1, h2, -⟩ := hcell k c hk hc hpar
  refine ⟨_, _, h1, h2, ?_⟩
  have := ref_near hten hex hw hmem hG hP hnear
  rw [cellSet, cell_change hc]
  convert this using 4
  exact mul_assoc _ _ _

/-- All tested residuals are close to the weak form. -/
lemma residuals_close {V : Type} {cells : List Quad} (hcells : ∀ c ∈ cells, ConvexCCW c)
    {f : ℝ → ℝ → ℝ} (hf : ∀ c ∈ cells, ContinuousOn (fun z : ℝ × ℝ => f z.1 z.2) (cellSet c))
    {a u : ℝ × ℝ → ℝ} (b : ℝ × ℝ) (r : ℝ) (ha : ∀ c ∈ cells, ContinuousOn a (cellSet c))
    (hu : ∀ c ∈ cells, SmoothOn (cellSet c) u) {ext : QuadRoutines} {mp : List (ℝ × ℝ)} {bd : BdDict}
    {s : FESettings} {dict : List (ℤ × (ℝ → ℝ → V))} {plot : Bool} {nq : ℕ}
    {S S' : Fespace2D (ℝ → ℝ → ℝ) V (s.feOrder.toNat ^ 2) nq} {D : DataHandler2D (s.feOrder.toNat ^ 2) nq}
    (bdv : List (ℝ × ℝ) × List ℝ) (h : fespace2D ext mp cells bd s dict f plot = .ok ⟨nq, S⟩)
    (hD : dataHandler2D S true = .ok (D, S')) (hr : RoutinesOK ext s.quadOrder s.quadType)
    (hpar : s.feTransformationType = "affine" → ∀ c ∈ cells, IsParallelogram c) :
    ∃ pt, D.nCells = cells.length ∧ Shaped (modelDataOf D bdv S.nCells) pt ∧
      ∀ (k : Fin D.nCells) (t : Fin (s.feOrder.toNat ^ 2)) c ψ δ, cells[k.val]? = some c →
      IsTestFunction s.feType s.feOrder.toNat c t ψ →
      NearPolynomial (ruleDegree s.quadType s.quadOrder) c (weakIntegrand a u b r f ψ) δ →
      |testedResidual D.shapeValMat D.gradXMat D.gradYMat (fun k q => u (pt k q))
        (fun k q => dx u (pt k q)) (fun k q => dy u (pt k q)) D.forcing (fun k q => a (pt k q)) b r k t
        - weakIntegral (cellSet c) a u b r f ψ| ≤ 8 * δ := by
  obtain ⟨pt, w, φ, hdis, hsh, -, hres⟩ := C42_weak_form ext mp cells bd s dict f plot S S' D bdv h hD hr
    fun c hc => ⟨hcells c hc, fun ht => hpar ht c hc⟩
  refine ⟨pt, hdis.count, hsh, fun k t c ψ δ hk hψ hδ => ?_⟩
  obtain ⟨wt, xi, eta, n, x, w', -, hten, hex, hw, hmem, hcell⟩ := cell_rule h hr
  have hcm := List.mem_of_getElem? hk
  have hc := hcells c hcm
  obtain ⟨h1, h2, -⟩ := hcell k.val c hk hc fun ht => hpar ht c hcm
  have hpt : pt k = fun q => bmap c (xi q, eta q) := Except.ok.inj ((hdis.points k).symm.trans h1)
  have hwt : w k = fun q => wt q * bilinDet c (xi q) (eta q) :=
    Except.ok.inj ((hdis.weights k).symm.trans h2)
  have hG := refIntegrand_continuous hc s.feType (t.val / s.feOrder.toNat) (t.val % s.feOrder.toNat) b r
    (ha c hcm) (hu c hcm) (hf c hcm)
  obtain ⟨P, hP, hnear⟩ := near_closed hδ hG fun p hp => weakIntegrand_eq hc hψ a u b r f hp
  have hdk := ref_near hten hex hw hmem hG hP hnear
  rw [hres, weakIntegral_eq hc hψ]
  convert hdk using 3
  unfold weakForm
  refine Finset.sum_congr rfl fun q _ => ?_
  have hdiff := hdis.differentiable k t q
  rw [hpt] at hdiff
  obtain ⟨e1, e2⟩ := test_gradient (hdis.test k c hk t) (hmem q) hdiff
  have e3 := hdis.test k c hk t _ (hmem q)
  rw [← bmap_eq] at e3
  simp only [hpt, hwt, refIntegrand, ← e1, ← e2, refTest, ← e3]
  ring

/-- The constant coefficients that a forward loss reads from its parameters. -/
def Spec.ConstantCoefficients (kind : LossKind) (p : ParamDict) (e : ℝ) (b : ℝ × ℝ) (r : ℝ) : Prop :=
  Coefficients (nc := 1) (nq := 1) kind p none [] (fun _ _ => e) b r

lemma constantCoefficients_iff {kind : LossKind} (hk : kind.forward) {p : ParamDict} {e : ℝ} {b : ℝ × ℝ}
    {r : ℝ} (h : ConstantCoefficients kind p e b r) (nc nq : ℕ) :
    Coefficients (nc := nc) (nq := nq) kind p none [] (fun _ _ => e) b r := by
  cases kind with
  | poisson =>
    obtain ⟨e', he, h1, h2, h3⟩ := h
    have := congrFun (congrFun h1 0) 0
    subst this
    exact ⟨e, he, rfl, h2, h3⟩
  | cd2d =>
    obtain ⟨e', he, h1, h2⟩ := h
    have := congrFun (congrFun h1 0) 0
    subst this
    exact ⟨e, he, rfl, h2⟩
  | helmholtz =>
    obtain ⟨e', k, he, hk, h1, h2⟩ := h
    have := congrFun (congrFun h1 0) 0
    subst this
    exact ⟨e', k, he, hk, rfl, h2⟩
  | poissonInverse | cd2dInverse | cd2dInverseDomain => exact absurd hk (by simp [LossKind.forward])

/-- Cells, test functions and forcing function of the variational problem. -/
structure Spec.VariationalSetup (cells : List Quad) (ty : String) (N : ℕ) (ψ : ℕ → ℕ → ℝ × ℝ → ℝ)
    (f : ℝ → ℝ → ℝ) : Prop where
  convex : ∀ c ∈ cells, ConvexCCW c
  test : ∀ k c, cells[k]? = some c → ∀ t < N ^ 2, IsTestFunction ty N c t (ψ k t)
  forcing : ∀ c ∈ cells, ContinuousOn (fun z : ℝ × ℝ => f z.1 z.2) (cellSet c)

/-- The integrands of the weak forms are within `δ` of the polynomials of degree `d` in each variable. -/
def Spec.IntegrandsNear (d : ℕ) (cells : List Quad) (N : ℕ) (ψ : ℕ → ℕ → ℝ × ℝ → ℝ) (a u : ℝ × ℝ → ℝ)
    (b : ℝ × ℝ) (r : ℝ) (f : ℝ → ℝ → ℝ) (δ : ℕ → ℕ → ℝ) : Prop :=
  ∀ k c, cells[k]? = some c → ∀ t < N ^ 2, NearPolynomial d c (weakIntegrand a u b r f (ψ k t)) (δ k t)

/-- The residuals `R` differ from the weak forms by at most `8 δ`. -/
def Spec.ResidualsNear (cells : List Quad) (N : ℕ) (ψ : ℕ → ℕ → ℝ × ℝ → ℝ) (a u : ℝ × ℝ → ℝ)
    (b : ℝ × ℝ) (r : ℝ) (f : ℝ → ℝ → ℝ) (δ : ℕ → ℕ → ℝ) (R : Fin cells.length → Fin (N ^ 2) → ℝ) : Prop :=
  ∀ k t, |R k t - weakIntegral (cellSet cells[k]) a u b r f (ψ k.val t.val)| ≤ 8 * δ k.val t.val

/-- A space and the tensors of its data handler for these data. -/
structure Spec.Discretised {V : Type} (cells : List Quad) (f : ℝ → ℝ → ℝ) (s : FESettings) {nq : ℕ}
    (S : Fespace2D (ℝ → ℝ → ℝ) V (s.feOrder.toNat ^ 2) nq) (D : DataHandler2D (s.feOrder.toNat ^ 2) nq) :
    Prop where
  built : ∃ ext mp bd dict plot S', fespace2D ext mp cells bd s dict f plot = .ok ⟨nq, S⟩ ∧
    RoutinesOK ext s.quadOrder s.quadType ∧ dataHandler2D S true = .ok (D, S')
  parallelogram : s.feTransformationType = "affine" → ∀ c ∈ cells, IsParallelogram c

section Loss

variable {V : Type} {cells : List Quad} {s : FESettings} {ψ : ℕ → ℕ → ℝ × ℝ → ℝ} {f : ℝ → ℝ → ℝ}
  (hV : VariationalSetup cells s.feType s.feOrder.toNat ψ f) {nq : ℕ}
  {S : Fespace2D (ℝ → ℝ → ℝ) V (s.feOrder.toNat ^ 2) nq} {D : DataHandler2D (s.feOrder.toNat ^ 2) nq}
  (hR : Discretised cells f s S D) (bdv : List (ℝ × ℝ) × List ℝ)

include hV hR

lemma pdeLoss_close {a u : ℝ × ℝ → ℝ} {b : ℝ × ℝ} {r : ℝ} (ha : ∀ c ∈ cells, ContinuousOn a (cellSet c))
    (hu : ∀ c ∈ cells, SmoothOn (cellSet c) u) {δ : ℕ → ℕ → ℝ}
    (hδ : IntegrandsNear (ruleDegree s.quadType s.quadOrder) cells s.feOrder.toNat ψ a u b r f δ) :
    ∃ pt R, Shaped (modelDataOf D bdv S.nCells) pt ∧
      ResidualsNear cells s.feOrder.toNat ψ a u b r f δ R ∧
      pdeLoss (modelDataOf D bdv S.nCells) pt u (fun k q => a (pt k q)) b r = ∑ k, meanSq (R k) := by
  obtain ⟨⟨ext, mp, bd, dict, plot, S', h, hr, hD⟩, hpar⟩ := hR
  obtain ⟨pt, hn, hsh, hres⟩ := residuals_close hV.convex hV.forcing b r ha hu bdv h hD hr hpar
  refine ⟨pt, fun k t => testedResidual D.shapeValMat D.gradXMat D.gradYMat (fun k q => u (pt k q))
      (fun k q => dx u (pt k q)) (fun k q => dy u (pt k q)) D.forcing (fun k q => a (pt k q)) b r
      (finCongr hn.symm k) t, hsh, fun k t => ?_, ?_⟩
  · have hk : cells[k.val]? = some cells[k] := by simp
    exact hres (finCongr hn.symm k) t cells[k] (ψ k.val t.val) _ hk (hV.test _ _ hk _ t.2) (hδ _ _ hk _ t.2)
  · exact ((finCongr hn.symm).sum_comp fun k => meanSq _).symm

/-- **C69** (training steps).  For strictly convex cells, a continuous forcing function and a network that
is a continuously differentiable function `u`, `DenseModel` and `DenseModel_Hard` report as PDE loss the
sum over the cells of the mean square of residuals, each of which differs from the weak form of the
equation by at most 8 times the distance of its integrand from the polynomials that the rule integrates
exactly. -/
theorem C69_train_step (kind : LossKind) (hk : kind.forward) (p : ParamDict) (e : ℝ)
    (b : ℝ × ℝ) (r : ℝ) (hco : ConstantCoefficients kind p e b r) (u : ℝ × ℝ → ℝ)
    (hu : ∀ c ∈ cells, SmoothOn (cellSet c) u) (δ : ℕ → ℕ → ℝ)
    (hδ : IntegrandsNear (ruleDegree s.quadType s.quadOrder) cells s.feOrder.toNat ψ (fun _ => e) u b r f δ)
    (net : Network 1) (hnet : RowWise net (fun _ => u)) (beta : ℝ) :
    ∃ out outH R, trainStepDense (lossOf kind _ _ _) (modelDataOf D bdv S.nCells) net beta p = .ok out ∧
      trainStepHard (lossOf kind _ _ _) (modelDataOf D bdv S.nCells) net beta p = .ok outH ∧
      out.lossPde = ∑ k, meanSq (R k) ∧ outH.loss = ∑ k, meanSq (R k) ∧
      ResidualsNear cells s.feOrder.toNat ψ (fun _ => e) u b r f δ R := by
  obtain ⟨pt, R, hsh, hRn, hle⟩ := pdeLoss_close hV hR bdv (fun _ _ => continuousOn_const) hu hδ
  have hco := constantCoefficients_iff hk hco D.nCells nq
  obtain ⟨h1, h2⟩ := C47_dense _ pt hsh beta p kind hk net (fun _ => u) hnet
  obtain ⟨h3, h4⟩ := C47_hard _ pt hsh beta p kind hk net (fun _ => u) hnet
  obtain ⟨out, ho⟩ := h1.2 ⟨_, _, _, hco⟩
  obtain ⟨outH, hoH⟩ := h3.2 ⟨_, _, _, hco⟩
  obtain ⟨a₁, b₁, r₁, hc₁, e1, -⟩ := h2 out ho
  obtain ⟨-, a₂, b₂, r₂, hc₂, e4, -, e5, -⟩ := h4 outH hoH
  obtain ⟨rfl, rfl, rfl⟩ := coefficients_unique hc₁ hco
  obtain ⟨rfl, rfl, rfl⟩ := coefficients_unique hc₂ hc₁
  exact ⟨out, outH, R, ho, hoH, by rw [e1, hle], by rw [e5, e4, hle], hRn⟩

/-- **C69** (inverse problems, constant coefficient).  The same for `DenseModel_Inverse` with the diffusion
coefficient taken from the inverse parameters. -/
theorem C69_inverse (e : ℝ) (u : ℝ × ℝ → ℝ) (hu : ∀ c ∈ cells, SmoothOn (cellSet c) u) (δ : ℕ → ℕ → ℝ)
    (hδ : IntegrandsNear (ruleDegree s.quadType s.quadOrder) cells s.feOrder.toNat ψ (fun _ => e) u (0, 0) 0
      f δ) {nS : ℕ} (sp : Fin nS → ℝ × ℝ) (sv : Fin nS → ℝ) (net : Network 1)
    (hnet : RowWise net (fun _ => u)) (beta : ℝ) (p ip : ParamDict) (he : HasParam ip "eps" e) :
    ∃ out R, trainStepInverse (lossPoissonInverse _ _ _) (modelDataOf D bdv S.nCells) sp sv ip net beta p
        = .ok out ∧ out.lossPde = ∑ k, meanSq (R k) ∧
      ResidualsNear cells s.feOrder.toNat ψ (fun _ => e) u (0, 0) 0 f δ R := by
  obtain ⟨pt, R, hsh, hRn, hle⟩ := pdeLoss_close hV hR bdv (fun _ _ => continuousOn_const) hu hδ
  obtain ⟨h1, h2⟩ := C47_inverse _ pt hsh beta p ip sp sv net (fun _ => u) hnet
  obtain ⟨out, ho⟩ := h1.2 ⟨e, he⟩
  obtain ⟨e', he', e1, -⟩ := h2 out ho
  obtain rfl := hasParam_unique he he'
  exact ⟨out, R, ho, by rw [e1, hle], hRn⟩

/-- **C69** (inverse problems, coefficient field).  The same for `DenseModel_Inverse_Domain` with the
second output of the network as diffusion coefficient. -/
theorem C69_inverse_domain (a u : ℝ × ℝ → ℝ) (b : ℝ × ℝ) (r : ℝ)
    (ha : ∀ c ∈ cells, ContinuousOn a (cellSet c)) (hu : ∀ c ∈ cells, SmoothOn (cellSet c) u)
    (δ : ℕ → ℕ → ℝ)
    (hδ : IntegrandsNear (ruleDegree s.quadType s.quadOrder) cells s.feOrder.toNat ψ a u b r f δ)
    {nS : ℕ} (sp : Fin nS → ℝ × ℝ) (sv : Fin nS → ℝ) (net : Network 2) (hnet : RowWise net ![u, a])
    (beta : ℝ) (p : ParamDict) (hb1 : HasParam p "b_x" b.1) (hb2 : HasParam p "b_y" b.2)
    (hr' : HasParam p "c" r) :
    ∃ out R, trainStepInverseDomain (lossCd2dInverseDomain _ _ _) (modelDataOf D bdv S.nCells) sp sv net
        beta p = .ok out ∧ out.lossPde = ∑ k, meanSq (R k) ∧
      ResidualsNear cells s.feOrder.toNat ψ a u b r f δ R := by
  obtain ⟨pt, R, hsh, hRn, hle⟩ := pdeLoss_close hV hR bdv ha hu hδ
  obtain ⟨h1, h2⟩ := C47_inverse_domain _ pt hsh beta p sp sv le_rfl net ![u, a] hnet
  obtain ⟨out, ho⟩ := h1.2 ⟨b.1, b.2, r, hb1, hb2, hr'⟩
  obtain ⟨b1, b2, r', hb1', hb2', hr'', e1, -⟩ := h2 out ho
  obtain rfl := hasParam_unique hb1 hb1'
  obtain rfl := hasParam_unique hb2 hb2'
  obtain rfl := hasParam_unique hr' hr''
  exact ⟨out, R, ho, e1.trans hle, hRn⟩

end Loss

/-- **C69** (the distances get small).  For continuous data and every `δ > 0` there is a degree from which
on all integrands are within `δ` of the polynomials of that degree.  (The constructor takes quadrature
orders up to 9999.) -/
theorem C69_degree {cells : List Quad} {ty : String} {N : ℕ} {ψ : ℕ → ℕ → ℝ × ℝ → ℝ} {f : ℝ → ℝ → ℝ}
    (hV : VariationalSetup cells ty N ψ f) (a u : ℝ × ℝ → ℝ) (b : ℝ × ℝ) (r : ℝ)
    (ha : ∀ c ∈ cells, ContinuousOn a (cellSet c)) (hu : ∀ c ∈ cells, SmoothOn (cellSet c) u)
    (δ : ℝ) (hδ : 0 < δ) :
    ∃ d, ∀ d' ≥ d, IntegrandsNear d' cells N ψ a u b r f fun _ _ => δ := by
  have key : ∀ (k : Fin cells.length) (t : ℕ), ∃ d, t < N ^ 2 →
      NearPolynomial d cells[k] (weakIntegrand a u b r f (ψ k t)) δ := by
    intro k t
    have hc := List.getElem_mem k.2
    obtain ⟨d, P, hP, hnear⟩ := polynomial_near (refIntegrand_continuous (hV.convex _ hc) ty (t / N) (t % N)
      b r (ha _ hc) (hu _ hc) (hV.forcing _ hc)) hδ
    refine ⟨d, fun ht => ⟨P, hP, fun ξ hξ η hη => ?_⟩⟩
    have e : (bilinearImage cells[k] : ℝ × ℝ → ℝ × ℝ)
        = fun p => (quadBilinear cells[k]).originalFromRef p.1 p.2 := funext fun p => (bmap_eq _ p).symm
    rw [← bmap_eq, e, bilin_jacobianDet, abs_sub_comm]
    have h2 := weakIntegrand_eq (hV.convex _ hc) (hV.test k.val cells[k] (by simp) t ht) a u b r f
      (p := (ξ, η)) ⟨hξ, hη⟩
    have h3 := (hnear (ξ, η) (openSquare_subset ⟨hξ, hη⟩)).le
    rw [← h2] at h3
    exact h3
  choose d hd using key
  refine ⟨∑ k, ∑ t ∈ Finset.range (N ^ 2), d k t, fun d' hd' k c hk t ht => ?_⟩
  obtain ⟨hk', rfl⟩ := List.getElem?_eq_some_iff.1 hk
  obtain ⟨P, hP, hnear⟩ := hd ⟨k, hk'⟩ t ht
  have l1 : d ⟨k, hk'⟩ t ≤ ∑ t ∈ Finset.range (N ^ 2), d ⟨k, hk'⟩ t :=
    Finset.single_le_sum (f := fun t => d ⟨k, hk'⟩ t) (fun _ _ => Nat.zero_le _) (Finset.mem_range.2 ht)
  have l2 := Finset.single_le_sum (f := fun k => ∑ t ∈ Finset.range (N ^ 2), d k t)
    (fun _ _ => Nat.zero_le _) (Finset.mem_univ (⟨k, hk'⟩ : Fin cells.length))
  exact ⟨P, hP.mono' fun i j h => ⟨by omega, by omega⟩, hnear⟩

/-- For continuous data some distance `δ` is always there. -/
lemma integrandsNear_exists {cells : List Quad} {ty : String} {N : ℕ} {ψ : ℕ → ℕ → ℝ × ℝ → ℝ} {f : ℝ → ℝ → ℝ}
    (hV : VariationalSetup cells ty N ψ f) {a u : ℝ × ℝ → ℝ} (b : ℝ × ℝ) (r : ℝ)
    (ha : ∀ c ∈ cells, ContinuousOn a (cellSet c)) (hu : ∀ c ∈ cells, SmoothOn (cellSet c) u) (d : ℕ) :
    ∃ δ, IntegrandsNear d cells N ψ a u b r f fun _ _ => δ := by
  obtain ⟨d₀, h₀⟩ := C69_degree hV a u b r ha hu 1 one_pos
  have key : ∀ (k : Fin cells.length) (t : ℕ), ∃ δ, 0 ≤ δ ∧ (t < N ^ 2 →
      NearPolynomial d cells[k] (weakIntegrand a u b r f (ψ k t)) δ) := by
    intro k t
    by_cases ht : t < N ^ 2
    · obtain ⟨P, hP, hnear⟩ := h₀ d₀ le_rfl k.val cells[k] (by simp) t ht
      obtain ⟨B, hB⟩ := (isCompact_Icc.prod isCompact_Icc).exists_bound_of_continuousOn
        (s := Set.Icc (-1 : ℝ) 1 ×ˢ Set.Icc (-1 : ℝ) 1) (isQ_continuous hP).continuousOn
      have hB0 : 0 ≤ B := (norm_nonneg _).trans (hB (0, 0) (by simp))
      refine ⟨1 + B, by positivity, fun _ => ⟨fun _ => 0, isPolynomial_zero _, fun ξ hξ η hη => ?_⟩⟩
      have h1 := hnear ξ hξ η hη
      have h2 := hB (ξ, η) ⟨Set.Ioo_subset_Icc_self hξ, Set.Ioo_subset_Icc_self hη⟩
      rw [Real.norm_eq_abs] at h2
      rw [sub_zero]
      have := abs_sub_abs_le_abs_sub
        (jacobianDet (bilinearImage cells[k]) (ξ, η)
          * weakIntegrand a u b r f (ψ k t) (bilinearImage cells[k] (ξ, η))) (P (ξ, η))
      linarith
    · exact ⟨0, le_rfl, fun h => absurd h ht⟩
  choose δ hδ0 hδ using key
  refine ⟨∑ k, ∑ t ∈ Finset.range (N ^ 2), δ k t, fun k c hk t ht => ?_⟩
  obtain ⟨hk', rfl⟩ := List.getElem?_eq_some_iff.1 hk
  obtain ⟨P, hP, hnear⟩ := hδ ⟨k, hk'⟩ t ht
  refine ⟨P, hP, fun ξ hξ η hη => (hnear ξ hξ η hη).trans ?_⟩
  exact (Finset.single_le_sum (f := fun t => δ ⟨k, hk'⟩ t) (fun _ _ => hδ0 _ _) (Finset.mem_range.2 ht)).trans
    (Finset.single_le_sum (f := fun k => ∑ t ∈ Finset.range (N ^ 2), δ k t)
      (fun _ _ => Finset.sum_nonneg fun _ _ => hδ0 _ _) (Finset.mem_univ (⟨k, hk'⟩ : Fin cells.length)))

/-- The hypotheses of `C69_quadrature` hold on the unit square for a function that is not a polynomial,
`x y + sin x / 1000` with `δ = 1 / 4000`. -/
example : ∃ ext nq, ∃ S : Fespace2D Unit ℝ (((3 : ℤ).toNat) ^ 2) nq, ∃ x w,
    fespace2D ext [(0, 0), (1, 1)] demoCells demoBoundary (demoSettings "bilinear") demoDict () false
      = .ok ⟨nq, S⟩ ∧
    S.getQuadratureActualCoordinates 0 = .ok x ∧ S.getQuadratureWeights 0 = .ok w ∧
    |∑ q, w q * ((x q).1 * (x q).2 + Real.sin (x q).1 / 1000)
      - ∫ z in cellSet (squareCell 1), (z.1 * z.2 + Real.sin z.1 / 1000)| ≤ 8 * (1 / 4000) := by
  obtain ⟨ext, h1, -⟩ := quadRoutines_exist
  have hr : RoutinesOK ext 5 "gauss-legendre" := ⟨fun _ => h1 _ (by decide), fun h => absurd h (by decide)⟩
  obtain ⟨nq, S, h⟩ := demo_fespace ext () "bilinear" (Or.inl rfl)
  obtain ⟨x, w, e1, e2, e3⟩ := C69_quadrature ext _ _ _ _ _ _ _ S h hr 0 (squareCell 1) rfl
    (squareCell_convex one_pos) (fun h => absurd h (by decide))
    (fun z => z.1 * z.2 + Real.sin z.1 / 1000) (by fun_prop) (1 / 4000)
    ⟨fun p => (1 / 4) * ((1 + p.1) / 2 * ((1 + p.2) / 2)), ⟨[(1 / 16, 0, 0), (1 / 16, 1, 0), (1 / 16, 0, 1),
      (1 / 16, 1, 1)], by decide, fun z => by simp; ring⟩, fun ξ hξ η hη => by
      have e : (bilinearImage (squareCell 1) : ℝ × ℝ → ℝ × ℝ)
        = fun p => (quadBilinear (squareCell 1)).originalFromRef p.1 p.2 := funext fun p => (bmap_eq _ p).symm
      rw [← bmap_eq, e, bilin_jacobianDet]
      have hd : bilinDet (squareCell 1) ξ η = 1 / 4 := by
        simp only [bilinDet, QuadBilinear.xc1, QuadBilinear.xc2, QuadBilinear.xc3, QuadBilinear.yc1,
          QuadBilinear.yc2, QuadBilinear.yc3, squareCell]
        simp
        norm_num
      have hm : bmap (squareCell 1) (ξ, η) = ((1 + ξ) / 2, (1 + η) / 2) := by
        simp only [bmap, quadBilinear, QuadBilinear.getOriginalFromRef, QuadBilinear.xc0,
          QuadBilinear.xc1, QuadBilinear.xc2, QuadBilinear.xc3, QuadBilinear.yc0, QuadBilinear.yc1,
          QuadBilinear.yc2, QuadBilinear.yc3, squareCell]
        ext <;> simp <;> ring
      rw [hd, hm]
      have := Real.abs_sin_le_one ((1 + ξ) / 2)
      rw [show 1 / 4 * ((1 + ξ) / 2 * ((1 + η) / 2) + Real.sin ((1 + ξ) / 2) / 1000)
        - 1 / 4 * ((1 + ξ) / 2 * ((1 + η) / 2)) = Real.sin ((1 + ξ) / 2) / 4000 by ring, abs_div,
        abs_of_pos (by norm_num : (0 : ℝ) < 4000)]
      gcongr⟩
  exact ⟨ext, nq, S, x, w, h, e1, e2, e3⟩

end FastVPINNs
