import Verif.Props.TestFunctions
import Verif.Props.DataHandler
import Verif.Props.Train

/-! # C42: the losses are the discrete weak forms -/

namespace FastVPINNs

open Spec

section
variable {V : Type} (ext : QuadRoutines) (mp : List (ℝ × ℝ)) (cells : List Quad) (bd : BdDict)
  (s : FESettings) (dict : List (ℤ × (ℝ → ℝ → V))) (f : ℝ → ℝ → ℝ) (plot : Bool) {nq : ℕ}
  (S S' : Fespace2D (ℝ → ℝ → ℝ) V (s.feOrder.toNat ^ 2) nq)
  (D : DataHandler2D (s.feOrder.toNat ^ 2) nq) (bdv : List (ℝ × ℝ) × List ℝ)

/-- The points `pt`, the weights `w` and the test functions `ψ` belong to the cells: points and weights
are the reported ones and the test functions are the reference test functions of the chosen family
composed with the inverse of the map of the cell. -/
structure Spec.Discretization (pt : Fin D.nCells → Fin nq → ℝ × ℝ) (w : Fin D.nCells → Fin nq → ℝ)
    (ψ : Fin D.nCells → Fin (s.feOrder.toNat ^ 2) → ℝ × ℝ → ℝ) : Prop where
  count : D.nCells = cells.length
  points : ∀ k : Fin D.nCells, S.getQuadratureActualCoordinates k = .ok (pt k)
  weights : ∀ k : Fin D.nCells, S.getQuadratureWeights k = .ok (w k)
  test : ∀ k c, cells[k.val]? = some c → ∀ t, IsTestFunction s.feType s.feOrder.toNat c t.val (ψ k t)
  vanish : s.feType ≠ "jacobi_plain" → ∀ k c, cells[k.val]? = some c → ∀ t y, OnCellBoundary c y →
    ψ k t y = 0
  differentiable : ∀ k t q, DifferentiableAt ℝ (ψ k t) (pt k q)

/-- **C42.**  For every space over strictly convex cells (parallelograms for the affine transformation)
the data handler's tensors have the shapes the models need, and there are test functions, transported
from the reference square and zero on the edges, such that the residual array computed by each of the six
loss functions, for any predicted values and derivatives, is for each cell the mean over the test
functions of the squared quadrature approximation of the weak form of `-∇·(a∇u) + b·∇u + r u = f`, where
`a`, `b`, `r` are the coefficients that the loss stands for.  The loss returns exactly when its
parameters are given. -/
theorem C42_weak_form (h : fespace2D ext mp cells bd s dict f plot = .ok ⟨nq, S⟩)
    (hD : dataHandler2D S true = .ok (D, S')) (hr : RoutinesOK ext s.quadOrder s.quadType)
    (hcells : ∀ c ∈ cells, ConvexCCW c ∧ (s.feTransformationType = "affine" → IsParallelogram c)) :
    ∃ pt w ψ, Discretization cells s S D pt w ψ ∧ Shaped (modelDataOf D bdv S.nCells) pt ∧
      (∀ (kind : LossKind) (u ux uy : Fin D.nCells → Fin nq → ℝ) (p ip : ParamDict)
        (cf : List (Fin D.nCells → Fin nq → ℝ)) (R : Fin D.nCells → ℝ),
        runLoss kind D.shapeValMat D.gradXMat D.gradYMat u ux uy D.forcing p ip cf = .ok R ↔
          ∃ a b r, Coefficients kind p ip cf a b r ∧ R = fun k =>
            meanSq fun t => weakForm (w k) (pt k) (u k) (ux k) (uy k) (a k) b r f (ψ k t)) ∧
      ∀ (u ux uy a : Fin D.nCells → Fin nq → ℝ) (b : ℝ × ℝ) (r : ℝ) (k : Fin D.nCells)
        (t : Fin (s.feOrder.toNat ^ 2)),
        testedResidual D.shapeValMat D.gradXMat D.gradYMat u ux uy D.forcing a b r k t
          = weakForm (w k) (pt k) (u k) (ux k) (uy k) (a k) b r f (ψ k t) := by
  have hS := (fespace_ok h).2.2.2.2.1
  obtain ⟨-, D₁, S₁, hD₁, hn, -, hlay⟩ := C41_layout ext mp cells bd s dict f plot S h
  rw [hD] at hD₁
  cases hD₁
  have key : ∀ k : Fin D.nCells, ∃ c, cells[k.val]? = some c := fun k =>
    ⟨cells[k.val]'(by rw [← hn]; exact k.isLt), List.getElem?_eq_getElem _⟩
  choose cell hcell using key
  have hC := fun k => hcells (cell k) (List.mem_of_getElem? (hcell k))
  have h33 := fun k : Fin D.nCells =>
    C33_test_functions ext mp cells bd s dict f plot S h hr k.val (cell k) (hcell k) (hC k).1 (hC k).2
  choose x w v gx gy hx hw hv hgx hgy ψ htest hvan hψ using h33
  have hval : ∀ k, D.shapeValMat k = v k := fun k => by
    have := (hlay k).1; rw [hv k] at this; exact (Except.ok.inj this).symm
  have hgradx : ∀ k, D.gradXMat k = gx k := fun k => by
    have := (hlay k).2.1; rw [hgx k] at this; exact (Except.ok.inj this).symm
  have hgrady : ∀ k, D.gradYMat k = gy k := fun k => by
    have := (hlay k).2.2.1; rw [hgy k] at this; exact (Except.ok.inj this).symm
  have hforce : ∀ k t, D.forcing t k = ∑ q, v k t q * f (x k q).1 (x k q).2 := by
    intro k t
    obtain ⟨col, S₂, hcol, hc⟩ := (hlay k).2.2.2.2
    rw [hc]
    obtain ⟨fc, hfc, -, hsum⟩ := getForcing_ok hcol
    obtain ⟨T, fc', hT, hfc', hok, facts⟩ := (fespace_cell h).2.choose_spec.choose_spec.choose_spec.choose_spec.2.2 k.val _ (hcell k)
    have hfc'' := (cellAt_nat S k fc').2 hfc'
    rw [hfc] at hfc''
    cases hfc''
    have e1 := hv k
    have e2 := hx k
    simp only [Fespace2D.getShapeFunctionVal, hfc, Except.ok.injEq] at e1
    simp only [Fespace2D.getQuadratureActualCoordinates, hfc, Except.ok.injEq] at e2
    rw [hsum, e1, e2, facts.forcing]
  have hres : ∀ (u ux uy a : Fin D.nCells → Fin nq → ℝ) (b : ℝ × ℝ) (r : ℝ) (k : Fin D.nCells)
      (t : Fin (s.feOrder.toNat ^ 2)),
      testedResidual D.shapeValMat D.gradXMat D.gradYMat u ux uy D.forcing a b r k t
        = weakForm (w k) (x k) (u k) (ux k) (uy k) (a k) b r f (ψ k t) := by
    intro u ux uy a b r k t
    unfold testedResidual weakForm
    rw [hval, hgradx, hgrady, hforce, ← Finset.sum_sub_distrib]
    refine Finset.sum_congr rfl fun q _ => ?_
    obtain ⟨-, e1, e2, e3⟩ := hψ k t q
    rw [e1, e2, e3]
    ring
  refine ⟨x, w, ψ, ⟨hn, hx, hw, ?_, ?_, fun k t q => (hψ k t q).1⟩, ⟨?_, rfl, ?_⟩, ?_, hres⟩
  · intro k c hk t
    rw [hcell k] at hk
    cases hk
    exact htest k t
  · intro hjp k c hk
    rw [hcell k] at hk
    cases hk
    exact hvan k hjp
  · show ((S.nCells : ℕ) : ℤ) = _
    rw [hS, hn]
  · intro k q r hq
    obtain ⟨x', hx', hpt⟩ := (hlay k).2.2.2.1
    rw [hx k] at hx'
    cases hx'
    exact hpt q r hq
  · intro kind u ux uy p ip cf R
    rw [runLoss_ok_iff]
    refine exists_congr fun a => exists_congr fun b => exists_congr fun r =>
      and_congr_right fun _ => ?_
    exact Eq.congr_right (funext fun k => congrArg meanSq (funext fun t => hres u ux uy a b r k t))

/-- **C42** (training steps).  With the data handler's tensors, a row-wise network `u` and its exact
gradient, the PDE loss reported by `DenseModel` and `DenseModel_Hard` is the sum over the cells of the
mean over the test functions of the squared quadrature approximation of the weak form. -/
theorem C42_train_step (h : fespace2D ext mp cells bd s dict f plot = .ok ⟨nq, S⟩)
    (hD : dataHandler2D S true = .ok (D, S')) (hr : RoutinesOK ext s.quadOrder s.quadType)
    (hcells : ∀ c ∈ cells, ConvexCCW c ∧ (s.feTransformationType = "affine" → IsParallelogram c))
    (kind : LossKind) (hk : kind.forward) (net : Network 1) (u : Fin 1 → ℝ × ℝ → ℝ) (hu : RowWise net u)
    (beta : ℝ) (p : ParamDict) :
    ∃ pt w ψ, Discretization cells s S D pt w ψ ∧
      (∀ out, trainStepDense (lossOf kind _ _ _) (modelDataOf D bdv S.nCells) net beta p = .ok out →
        ∃ a b r, Coefficients kind p none [] a b r ∧ out.lossPde = ∑ k, meanSq fun t =>
          weakForm (w k) (pt k) (fun q => u 0 (pt k q)) (fun q => dx (u 0) (pt k q))
            (fun q => dy (u 0) (pt k q)) (a k) b r f (ψ k t)) ∧
      (∀ out, trainStepHard (lossOf kind _ _ _) (modelDataOf D bdv S.nCells) net beta p = .ok out →
        ∃ a b r, Coefficients kind p none [] a b r ∧ out.loss = ∑ k, meanSq fun t =>
          weakForm (w k) (pt k) (fun q => u 0 (pt k q)) (fun q => dx (u 0) (pt k q))
            (fun q => dy (u 0) (pt k q)) (a k) b r f (ψ k t)) := by
  obtain ⟨pt, w, ψ, hdis, hsh, -, hres⟩ :=
    C42_weak_form ext mp cells bd s dict f plot S S' D bdv h hD hr hcells
  have hpde : ∀ a b r, pdeLoss (modelDataOf D bdv S.nCells) pt (u 0) a b r = ∑ k, meanSq fun t =>
      weakForm (w k) (pt k) (fun q => u 0 (pt k q)) (fun q => dx (u 0) (pt k q))
        (fun q => dy (u 0) (pt k q)) (a k) b r f (ψ k t) := fun a b r =>
    Finset.sum_congr rfl fun k _ => congrArg meanSq (funext fun t => hres _ _ _ a b r k t)
  refine ⟨pt, w, ψ, hdis, fun out ho => ?_, fun out ho => ?_⟩
  · obtain ⟨a, b, r, hc, e, -⟩ := (C47_dense _ pt hsh beta p kind hk net u hu).2 out ho
    exact ⟨a, b, r, hc, e.trans (hpde a b r)⟩
  · obtain ⟨-, a, b, r, hc, e, -, e', -⟩ := (C47_hard _ pt hsh beta p kind hk net u hu).2 out ho
    exact ⟨a, b, r, hc, e'.trans (e.trans (hpde a b r))⟩

/-- **C42** (inverse problems).  The same for `DenseModel_Inverse` with the Poisson loss (diffusion
coefficient `inverse_params_dict['eps']`) and for `DenseModel_Inverse_Domain` (diffusion coefficient the
second network output at the quadrature points). -/
theorem C42_train_step_inverse (h : fespace2D ext mp cells bd s dict f plot = .ok ⟨nq, S⟩)
    (hD : dataHandler2D S true = .ok (D, S')) (hr : RoutinesOK ext s.quadOrder s.quadType)
    (hcells : ∀ c ∈ cells, ConvexCCW c ∧ (s.feTransformationType = "affine" → IsParallelogram c))
    {nS : ℕ} (sp : Fin nS → ℝ × ℝ) (sv : Fin nS → ℝ) (ip : ParamDict) (beta : ℝ) (p : ParamDict) :
    ∃ pt w ψ, Discretization cells s S D pt w ψ ∧
      (∀ (net : Network 1) (u : Fin 1 → ℝ × ℝ → ℝ), RowWise net u → ∀ out,
        trainStepInverse (lossPoissonInverse _ _ _) (modelDataOf D bdv S.nCells) sp sv ip net beta p
          = .ok out →
        ∃ eps, HasParam ip "eps" eps ∧ out.lossPde = ∑ k, meanSq fun t =>
          weakForm (w k) (pt k) (fun q => u 0 (pt k q)) (fun q => dx (u 0) (pt k q))
            (fun q => dy (u 0) (pt k q)) (fun _ => eps) (0, 0) 0 f (ψ k t)) ∧
      (∀ (net : Network 2) (u : Fin 2 → ℝ × ℝ → ℝ), RowWise net u → ∀ out,
        trainStepInverseDomain (lossCd2dInverseDomain _ _ _) (modelDataOf D bdv S.nCells) sp sv net beta p
          = .ok out →
        ∃ bx b2 r, HasParam p "b_x" bx ∧ HasParam p "b_y" b2 ∧ HasParam p "c" r ∧
          out.lossPde = ∑ k, meanSq fun t =>
          weakForm (w k) (pt k) (fun q => u 0 (pt k q)) (fun q => dx (u 0) (pt k q))
            (fun q => dy (u 0) (pt k q)) (fun q => u 1 (pt k q)) (bx, b2) r f (ψ k t)) := by
  obtain ⟨pt, w, ψ, hdis, hsh, -, hres⟩ :=
    C42_weak_form ext mp cells bd s dict f plot S S' D bdv h hD hr hcells
  have hpde : ∀ u a b r, pdeLoss (modelDataOf D bdv S.nCells) pt u a b r = ∑ k, meanSq fun t =>
      weakForm (w k) (pt k) (fun q => u (pt k q)) (fun q => dx u (pt k q))
        (fun q => dy u (pt k q)) (a k) b r f (ψ k t) := fun u a b r =>
    Finset.sum_congr rfl fun k _ => congrArg meanSq (funext fun t => hres _ _ _ a b r k t)
  refine ⟨pt, w, ψ, hdis, fun net u hu out ho => ?_, fun net u hu out ho => ?_⟩
  · obtain ⟨eps, hc, e, -⟩ := (C47_inverse _ pt hsh beta p ip sp sv net u hu).2 out ho
    exact ⟨eps, hc, e.trans (hpde _ _ _ _)⟩
  · obtain ⟨bx, b2, r, h1, h2, h3, e, -⟩ :=
      (C47_inverse_domain _ pt hsh beta p sp sv le_rfl net u hu).2 out ho
    exact ⟨bx, b2, r, h1, h2, h3, e.trans (hpde _ _ _ _)⟩

end

/-- The hypotheses of C42 are met by the demo space (a square and a kite), the network `x + 2 y` and the
Poisson loss. -/
example (f : ℝ → ℝ → ℝ) : ∃ ext nq S D S', RoutinesOK ext 5 "gauss-legendre" ∧
    fespace2D ext [(0, 0), (1, 1)] demoCells demoBoundary (demoSettings "bilinear") demoDict f false
      = .ok ⟨nq, S⟩ ∧ dataHandler2D S true = .ok (D, S') ∧
    (∀ c ∈ demoCells, ConvexCCW c ∧
      ((demoSettings "bilinear").feTransformationType = "affine" → IsParallelogram c)) ∧
    LossKind.forward .poisson ∧ RowWise demoNet (fun _ z => z.1 + 2 * z.2) ∧
    ∃ out, trainStepDense (lossOf .poisson _ _ _) (modelDataOf D ([(0, 0)], [1]) S.nCells) demoNet 10
      (some [("eps", 1)]) = .ok out := by
  obtain ⟨ext, h1, h2⟩ := quadRoutines_exist
  have hr : RoutinesOK ext 5 "gauss-legendre" := ⟨fun _ => h1 _ (by norm_num), fun _ => h2 _⟩
  obtain ⟨nq, S, h⟩ := demo_fespace ext f "bilinear" (Or.inl rfl)
  obtain ⟨-, D, S', hD, -⟩ := C41_layout ext _ _ _ _ _ f _ S h
  have hc : ∀ c ∈ demoCells, ConvexCCW c ∧
      ((demoSettings "bilinear").feTransformationType = "affine" → IsParallelogram c) :=
    fun c hc => ⟨(demo_cells_ok c hc).1, fun h => absurd h (by decide)⟩
  have hu : RowWise demoNet (fun _ z => z.1 + 2 * z.2) := fun _ _ _ _ => rfl
  obtain ⟨pt, w, ψ, -, hsh, -⟩ := C42_weak_form ext _ _ _ _ _ f _ S S' D ([(0, 0)], [1]) h hD hr hc
  exact ⟨ext, nq, S, D, S', hr, h, hD, hc, Or.inl rfl, hu,
    (C47_dense _ pt hsh 10 _ .poisson (Or.inl rfl) demoNet _ hu).1.2
      ⟨_, _, _, 1, ⟨_, rfl, rfl⟩, rfl, rfl, rfl⟩⟩

end FastVPINNs
