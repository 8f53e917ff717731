import Verif.Props.Convergence
import Verif.Lemmas.RuleUnique
import Verif.Spec.Numbering

/-! # Residuals on the reference square, and the symmetries of the square -/

namespace FastVPINNs

open Spec Polynomial

/-! ### The rule of a space -/

lemma rule_known {ext : QuadRoutines} {Q : ℤ} {qt : String} {r : QuadRule2D}
    (h : assignQuadratureRules ext "quadrilateral" Q qt = .ok r) (hr : RoutinesOK ext Q qt) :
    ∃ (n : ℕ) (x w : Fin n → ℝ), Q = n ∧ IsTensorRule x w r ∧ KnownRule qt n x w := by
  obtain ⟨-, q1, -, q3⟩ := (C12_quadrature_accepted _ _ _ _).1.1 ⟨_, h⟩
  rcases q3 with rfl | rfl
  · obtain ⟨-, n, hn, x, w, hT, hl, -⟩ := C22_tensor_order ext Q _ r h
    have hQ : Q.toNat = n + 2 := by omega
    have hext := hr.1 rfl
    rw [hQ] at hext
    obtain ⟨rfl, rfl⟩ := hl rfl
    exact ⟨n + 2, _, _, by rw [hn]; push_cast; ring, hT, by omega, hext.sorted,
      fun i => ⟨(hext.mem i).1.le, (hext.mem i).2.le⟩,
      fun p hp => hext.exact p (by omega), fun _ => hext.exact, fun h => absurd rfl h⟩
  · obtain ⟨n, hn, x, w, hT, hmono, h0, h1, hpos, -, hex, -⟩ := C24_gauss_lobatto ext Q r h (hr.2 rfl)
    refine ⟨n + 1, x, w, by rw [hn]; push_cast; ring, hT, by omega, hmono, fun i => ⟨?_, ?_⟩, hex, fun h => absurd h (by decide),
      fun _ i => ⟨fun hi => ?_, fun hi => ?_⟩⟩
    · rw [← h0]; exact hmono.monotone (Fin.zero_le i)
    · rw [← h1]; exact hmono.monotone (Fin.le_last i)
    · rw [← h0]; congr 1; exact Fin.ext hi
    · rw [← h1]; congr 1; apply Fin.ext; simp only [Fin.val_last]; omega

/-! ### Parity of the test functions -/

lemma testFamily_eval_neg (ty : String) (i : ℕ) (x : ℝ) :
    (testFamily ty i).eval (-x) = (-1) ^ i * (testFamily ty i).eval x := by
  have hT : ∀ n : ℕ, (Chebyshev.T ℝ (n : ℤ)).eval (-x) = (-1) ^ n * (Chebyshev.T ℝ (n : ℤ)).eval x := by
    intro n
    rw [Chebyshev.T_eval_neg, Int.coe_negOnePow_natCast]
    push_cast; rfl
  unfold testFamily
  split_ifs
  · simp only [chebyshevBubble, eval_sub, hT]
    ring
  · simp only [legendrePlain, legendreP_eval_neg]
  · simp only [legendreBubble, eval_sub, legendreP_eval_neg]
    ring

lemma testFamily_derivative_neg (ty : String) (i : ℕ) (x : ℝ) :
    (derivative (testFamily ty i)).eval (-x) = -((-1) ^ i * (derivative (testFamily ty i)).eval x) := by
  have h : (testFamily ty i).comp (-X) = C ((-1) ^ i) * testFamily ty i := by
    apply Polynomial.funext
    intro t
    rw [eval_comp, eval_neg, eval_X, testFamily_eval_neg, eval_mul, eval_C]
  have h2 := congrArg (fun p => (derivative p).eval x) h
  simp only [derivative_comp, derivative_neg, derivative_X, derivative_mul, derivative_C, eval_mul, eval_comp,
    eval_neg, eval_one, eval_X, eval_C, zero_mul, zero_add] at h2
  linarith

/-! ### A quarter turn of the reference square -/

/-- The cell whose list of vertices starts one vertex later. -/
def shift (c : Quad) : Quad := fun i => c (i + 1)

lemma bmap_shift (c : Quad) (p : ℝ × ℝ) : bmap (shift c) p = bmap c (-p.2, p.1) := by
  simp only [bmap, quadBilinear, QuadBilinear.getOriginalFromRef, QuadBilinear.xc0, QuadBilinear.xc1,
    QuadBilinear.xc2, QuadBilinear.xc3, QuadBilinear.yc0, QuadBilinear.yc1, QuadBilinear.yc2,
    QuadBilinear.yc3, shift, Fin.reduceAdd, zero_add]
  ext <;> (simp; ring)

lemma bilinDet_shift (c : Quad) (xi eta : ℝ) : bilinDet (shift c) xi eta = bilinDet c (-eta) xi := by
  simp only [bilinDet, QuadBilinear.xc1,
    QuadBilinear.xc2, QuadBilinear.xc3, QuadBilinear.yc1, QuadBilinear.yc2,
    QuadBilinear.yc3, shift, Fin.reduceAdd, zero_add]
  ring

lemma refTest_turn (ty : String) (i j : ℕ) (p : ℝ × ℝ) :
    refTest ty j i (-p.2, p.1) = (-1) ^ j * refTest ty i j p := by
  simp only [refTest, testFamily_eval_neg]; ring

lemma refTest_dx_turn (ty : String) (i j : ℕ) (p : ℝ × ℝ) :
    dx (refTest ty j i) (-p.2, p.1) = -((-1) ^ j * dy (refTest ty i j) p) := by
  simp only [refTest_dx, refTest_dy, testFamily_derivative_neg]; ring

lemma refTest_dy_turn (ty : String) (i j : ℕ) (p : ℝ × ℝ) :
    dy (refTest ty j i) (-p.2, p.1) = (-1) ^ j * dx (refTest ty i j) p := by
  simp only [refTest_dx, refTest_dy, testFamily_eval_neg]; ring

lemma refGradX_shift (c : Quad) (ty : String) (i j : ℕ) (p : ℝ × ℝ) :
    refGradX c ty j i (-p.2, p.1) = (-1) ^ j * refGradX (shift c) ty i j p := by
  simp only [refGradX, refTest_dx_turn, refTest_dy_turn, QuadBilinear.yc1, QuadBilinear.yc2,
    QuadBilinear.yc3, shift, Fin.reduceAdd, zero_add]
  ring

lemma refGradY_shift (c : Quad) (ty : String) (i j : ℕ) (p : ℝ × ℝ) :
    refGradY c ty j i (-p.2, p.1) = (-1) ^ j * refGradY (shift c) ty i j p := by
  simp only [refGradY, refTest_dx_turn, refTest_dy_turn, QuadBilinear.xc1, QuadBilinear.xc2,
    QuadBilinear.xc3, shift, Fin.reduceAdd, zero_add]
  ring

lemma refIntegrand_shift (c : Quad) (ty : String) (i j : ℕ) (a u : ℝ × ℝ → ℝ) (b : ℝ × ℝ) (r : ℝ)
    (f : ℝ → ℝ → ℝ) (p : ℝ × ℝ) :
    refIntegrand c ty j i a u b r f (-p.2, p.1) = (-1) ^ j * refIntegrand (shift c) ty i j a u b r f p := by
  simp only [refIntegrand, refGradX_shift, refGradY_shift, refTest_turn, bmap_shift, bilinDet_shift]
  ring

/-! ### The loss of a cell -/

/-- The quadrature sum of a function on the reference square. -/
noncomputable def refSum {n : ℕ} (x w : Fin n → ℝ) (g : ℝ × ℝ → ℝ) : ℝ :=
  ∑ i, ∑ j, w i * w j * g (x i, x j)

lemma refSum_turn {qt : String} {n : ℕ} {x w : Fin n → ℝ} (h : KnownRule qt n x w) (g : ℝ × ℝ → ℝ) :
    refSum x w (fun p => g (-p.2, p.1)) = refSum x w g := by
  unfold refSum
  rw [Finset.sum_comm]
  dsimp only
  rw [← Equiv.sum_comp Fin.revPerm]
  refine Finset.sum_congr rfl fun j _ => Finset.sum_congr rfl fun i _ => ?_
  obtain ⟨e1, e2⟩ := h.symmetric j
  simp only [Fin.revPerm_apply, e1, e2, neg_neg]
  ring

lemma refSum_const_mul {n : ℕ} (x w : Fin n → ℝ) (k : ℝ) (g : ℝ × ℝ → ℝ) :
    refSum x w (fun p => k * g p) = k * refSum x w g := by
  unfold refSum
  simp only [Finset.mul_sum]
  exact Finset.sum_congr rfl fun i _ => Finset.sum_congr rfl fun j _ => by ring

/-- The mean squared residual of a cell. -/
noncomputable def cellLoss (ty : String) (N : ℕ) {n : ℕ} (x w : Fin n → ℝ) (a u : ℝ × ℝ → ℝ) (b : ℝ × ℝ)
    (r : ℝ) (f : ℝ → ℝ → ℝ) (c : Quad) : ℝ :=
  meanSq fun t : Fin (N ^ 2) => refSum x w (refIntegrand c ty (t.val / N) (t.val % N) a u b r f)

lemma sum_tensor_index (N : ℕ) (g : ℕ → ℕ → ℝ) :
    ∑ t : Fin (N ^ 2), g (t.val / N) (t.val % N) = ∑ i : Fin N, ∑ j : Fin N, g i.val j.val := by
  rw [← Fintype.sum_prod_type', ← (finProdFinEquiv.trans (finCongr (sq N).symm)).sum_comp]
  refine Finset.sum_congr rfl fun p _ => ?_
  obtain ⟨i, j⟩ := p
  have hN : 0 < N := i.pos
  simp only [Equiv.trans_apply, finCongr_apply, Fin.val_cast, finProdFinEquiv_apply_val]
  rw [Nat.add_mul_div_left _ _ hN, Nat.div_eq_of_lt j.2, zero_add, Nat.add_mul_mod_self_left,
    Nat.mod_eq_of_lt j.2]

lemma cellLoss_shift {qt : String} (ty : String) (N : ℕ) {n : ℕ} {x w : Fin n → ℝ} (h : KnownRule qt n x w)
    (a u : ℝ × ℝ → ℝ) (b : ℝ × ℝ) (r : ℝ) (f : ℝ → ℝ → ℝ) (c : Quad) :
    cellLoss ty N x w a u b r f (shift c) = cellLoss ty N x w a u b r f c := by
  unfold cellLoss meanSq
  congr 1
  rw [sum_tensor_index N fun i j => refSum x w (refIntegrand (shift c) ty i j a u b r f)
      * refSum x w (refIntegrand (shift c) ty i j a u b r f),
    sum_tensor_index N fun i j => refSum x w (refIntegrand c ty i j a u b r f)
      * refSum x w (refIntegrand c ty i j a u b r f), Finset.sum_comm]
  refine Finset.sum_congr rfl fun j _ => Finset.sum_congr rfl fun i _ => ?_
  rw [← refSum_turn h (refIntegrand c ty j i a u b r f)]
  simp only [refIntegrand_shift, refSum_const_mul]
  rw [mul_mul_mul_comm, ← mul_pow]
  simp

lemma cellLoss_sameQuad {qt : String} (ty : String) (N : ℕ) {n : ℕ} {x w : Fin n → ℝ}
    (h : KnownRule qt n x w) (a u : ℝ × ℝ → ℝ) (b : ℝ × ℝ) (r : ℝ) (f : ℝ → ℝ → ℝ) {c' c : Quad}
    (hc : SameQuad c' c) : cellLoss ty N x w a u b r f c' = cellLoss ty N x w a u b r f c := by
  obtain ⟨m, hm⟩ := hc
  have : c' = shift^[m.val] c := by
    funext i
    rw [hm]
    fin_cases m <;> simp [shift, Function.iterate_succ, add_assoc]
  rw [this]
  clear this hm
  induction m.val with
  | zero => rfl
  | succ k ih => rw [Function.iterate_succ_apply', cellLoss_shift ty N h, ih]

lemma sum_sameMesh {cells' cells : List Quad} (hm : SameMesh cells' cells) (g : Quad → ℝ)
    (hg : ∀ c' c, SameQuad c' c → g c' = g c) : (cells'.map g).sum = (cells.map g).sum := by
  obtain ⟨l, hl, h2⟩ := hm
  rw [← (hl.map g).sum_eq]
  congr 1
  clear hl
  induction h2 with
  | nil => rfl
  | cons h _ ih => rw [List.map_cons, List.map_cons, hg _ _ h, ih]

/-! ### The loss of a space -/

lemma convex_shift {c : Quad} (h : ConvexCCW c) : ConvexCCW (shift c) := by
  obtain ⟨h0, h1, h2, h3⟩ := h
  exact ⟨h1, h2, h3, h0⟩

lemma convex_sameQuad {c' c : Quad} (hs : SameQuad c' c) (h : ConvexCCW c) : ConvexCCW c' := by
  obtain ⟨m, hm⟩ := hs
  have : c' = shift^[m.val] c := by
    funext i
    rw [hm]
    fin_cases m <;> simp [shift, Function.iterate_succ, add_assoc]
  rw [this]
  clear this hm
  induction m.val with
  | zero => exact h
  | succ k ih => rw [Function.iterate_succ_apply']; exact convex_shift ih

lemma convex_sameMesh {cells' cells : List Quad} (hm : SameMesh cells' cells)
    (h : ∀ c ∈ cells, ConvexCCW c) : ∀ c ∈ cells', ConvexCCW c := by
  obtain ⟨l, hl, h2⟩ := hm
  intro c hc
  obtain ⟨k, hk, rfl⟩ := List.getElem_of_mem hc
  have hk' : k < l.length := h2.length_eq ▸ hk
  exact convex_sameQuad (h2.get hk hk') (h _ (hl.mem_iff.1 (List.getElem_mem hk')))

/-- The PDE loss in terms of the reference rule. -/
lemma pdeLoss_cells {V : Type} {cells : List Quad} (hcells : ∀ c ∈ cells, ConvexCCW c) {f : ℝ → ℝ → ℝ}
    {s : FESettings} {nq : ℕ} {S : Fespace2D (ℝ → ℝ → ℝ) V (s.feOrder.toNat ^ 2) nq}
    {D : DataHandler2D (s.feOrder.toNat ^ 2) nq} (hR : Discretised cells f s S D)
    (bdv : List (ℝ × ℝ) × List ℝ) :
    ∃ (n : ℕ) (x w : Fin n → ℝ) (pt : Fin D.nCells → Fin nq → ℝ × ℝ), s.quadOrder = n ∧
      KnownRule s.quadType n x w ∧ Shaped (modelDataOf D bdv S.nCells) pt ∧
      ∀ (a u : ℝ × ℝ → ℝ) (b : ℝ × ℝ) (r : ℝ),
        pdeLoss (modelDataOf D bdv S.nCells) pt u (fun k q => a (pt k q)) b r
          = (cells.map (cellLoss s.feType s.feOrder.toNat x w a u b r f)).sum := by
  obtain ⟨⟨ext, mp, bd, dict, plot, S', h, hr, hD⟩, hpar⟩ := hR
  obtain ⟨pt, w, φ, hdis, hsh, -, hres⟩ := C42_weak_form ext mp cells bd s dict f plot S S' D bdv h hD hr
    fun c hc => ⟨hcells c hc, fun ht => hpar ht c hc⟩
  obtain ⟨wt, xi, eta, -, -, -, hrule, -, -, -, hmem, hcell⟩ := cell_rule h hr
  obtain ⟨n, x, w', hQ, hten, hknown⟩ := rule_known hrule hr
  refine ⟨n, x, w', pt, hQ, hknown, hsh, fun a u b r => ?_⟩
  have key : ∀ (k : Fin D.nCells) (c : Quad), cells[k.val]? = some c → ∀ t,
      testedResidual D.shapeValMat D.gradXMat D.gradYMat (fun k q => u (pt k q))
        (fun k q => dx u (pt k q)) (fun k q => dy u (pt k q)) D.forcing (fun k q => a (pt k q)) b r k t
      = refSum x w' (refIntegrand c s.feType (t.val / s.feOrder.toNat) (t.val % s.feOrder.toNat) a u b r f) := by
    intro k c hk t
    have hcm := List.mem_of_getElem? hk
    have hc := hcells c hcm
    obtain ⟨h1, h2, -⟩ := hcell k.val c hk hc fun ht => hpar ht c hcm
    have hpt : pt k = fun q => bmap c (xi q, eta q) := Except.ok.inj ((hdis.points k).symm.trans h1)
    have hwt : w k = fun q => wt q * bilinDet c (xi q) (eta q) :=
      Except.ok.inj ((hdis.weights k).symm.trans h2)
    rw [hres]
    unfold refSum
    rw [← tensor_sum hten fun p q => refIntegrand c s.feType (t.val / s.feOrder.toNat)
      (t.val % s.feOrder.toNat) a u b r f (p, q)]
    unfold weakForm
    refine Finset.sum_congr rfl fun q _ => ?_
    have hdiff := hdis.differentiable k t q
    rw [hpt] at hdiff
    obtain ⟨e1, e2⟩ := test_gradient (hdis.test k c hk t) (hmem q) hdiff
    have e3 := hdis.test k c hk t _ (hmem q)
    rw [← bmap_eq] at e3
    simp only [hpt, hwt, refIntegrand, ← e1, ← e2, refTest, ← e3]
    ring
  have hn := hdis.count
  have e : (cells.map (cellLoss s.feType s.feOrder.toNat x w' a u b r f)).sum
      = ∑ k : Fin cells.length, cellLoss s.feType s.feOrder.toNat x w' a u b r f cells[k] := by
    conv_lhs => rw [← List.ofFn_getElem (xs := cells), List.map_ofFn, List.sum_ofFn]
    rfl
  rw [e, ← (finCongr hn).sum_comp]
  unfold pdeLoss
  refine Finset.sum_congr rfl fun k _ => ?_
  unfold cellLoss
  congr 1
  funext t
  exact key k _ (by simp) t

/-! ### Steps that see the same losses -/

section Same

variable {nc nt nq nIn nBd nc' nt' nq' nIn' nBd' : ℕ} {M : ModelData nc nt nq nIn nBd}
  {M' : ModelData nc' nt' nq' nIn' nBd'} {pt : Fin nc → Fin nq → ℝ × ℝ} {pt' : Fin nc' → Fin nq' → ℝ × ℝ}
  (hM : Shaped M pt) (hM' : Shaped M' pt') {p p' : ParamDict} (beta : ℝ)

include hM hM'

lemma dense_same {kind : LossKind} (hk : kind.forward) {net net' : Network 1} {u u' : ℝ × ℝ → ℝ}
    (hu : RowWise net fun _ => u) (hu' : RowWise net' fun _ => u') {e e' : ℝ} {b b' : ℝ × ℝ} {r r' : ℝ}
    (hco : ConstantCoefficients kind p e b r) (hco' : ConstantCoefficients kind p' e' b' r')
    (hpde : pdeLoss M' pt' u' (fun _ _ => e') b' r' = pdeLoss M pt u (fun _ _ => e) b r)
    (hbd : meanSq (fun i => u' (M'.dirichletInput i) - M'.dirichletActual i)
      = meanSq fun i => u (M.dirichletInput i) - M.dirichletActual i) :
    trainStepDense (lossOf kind nc' nt' nq') M' net' beta p'
      = trainStepDense (lossOf kind nc nt nq) M net beta p := by
  have hc := constantCoefficients_iff hk hco nc nq
  have hc' := constantCoefficients_iff hk hco' nc' nq'
  obtain ⟨h1, h2⟩ := C47_dense M pt hM beta p kind hk net (fun _ => u) hu
  obtain ⟨h1', h2'⟩ := C47_dense M' pt' hM' beta p' kind hk net' (fun _ => u') hu'
  obtain ⟨out, ho⟩ := h1.2 ⟨_, _, _, hc⟩
  obtain ⟨out', ho'⟩ := h1'.2 ⟨_, _, _, hc'⟩
  obtain ⟨a₁, b₁, r₁, hc₁, e1, e2, e3, -⟩ := h2 out ho
  obtain ⟨a₂, b₂, r₂, hc₂, e1', e2', e3', -⟩ := h2' out' ho'
  obtain ⟨rfl, rfl, rfl⟩ := coefficients_unique hc₁ hc
  obtain ⟨rfl, rfl, rfl⟩ := coefficients_unique hc₂ hc'
  have k1 : out'.lossPde = out.lossPde := by rw [e1, e1', hpde]
  have k2 : out'.lossDirichlet = out.lossDirichlet := by
    funext j
    obtain rfl : j = 0 := Subsingleton.elim _ _
    rw [e2, e2', hbd]
  have k3 : out'.loss = out.loss := by
    funext j
    obtain rfl : j = 0 := Subsingleton.elim _ _
    rw [e3, e3', k1, k2]
  rw [ho, ho']
  cases out; cases out'
  simp only at k1 k2 k3
  rw [k1, k2, k3]

lemma hard_same {kind : LossKind} (hk : kind.forward) {net net' : Network 1} {u u' : ℝ × ℝ → ℝ}
    (hu : RowWise net fun _ => u) (hu' : RowWise net' fun _ => u') {e e' : ℝ} {b b' : ℝ × ℝ} {r r' : ℝ}
    (hco : ConstantCoefficients kind p e b r) (hco' : ConstantCoefficients kind p' e' b' r')
    (hpde : pdeLoss M' pt' u' (fun _ _ => e') b' r' = pdeLoss M pt u (fun _ _ => e) b r) :
    trainStepHard (lossOf kind nc' nt' nq') M' net' beta p'
      = trainStepHard (lossOf kind nc nt nq) M net beta p := by
  have hc := constantCoefficients_iff hk hco nc nq
  have hc' := constantCoefficients_iff hk hco' nc' nq'
  obtain ⟨h1, h2⟩ := C47_hard M pt hM beta p kind hk net (fun _ => u) hu
  obtain ⟨h1', h2'⟩ := C47_hard M' pt' hM' beta p' kind hk net' (fun _ => u') hu'
  obtain ⟨out, ho⟩ := h1.2 ⟨_, _, _, hc⟩
  obtain ⟨out', ho'⟩ := h1'.2 ⟨_, _, _, hc'⟩
  obtain ⟨-, a₁, b₁, r₁, hc₁, e1, e2, e3, -⟩ := h2 out ho
  obtain ⟨-, a₂, b₂, r₂, hc₂, e1', e2', e3', -⟩ := h2' out' ho'
  obtain ⟨rfl, rfl, rfl⟩ := coefficients_unique hc₁ hc
  obtain ⟨rfl, rfl, rfl⟩ := coefficients_unique hc₂ hc'
  have k1 : out'.lossPde = out.lossPde := by rw [e1, e1', hpde]
  have k2 : out'.lossDirichlet = out.lossDirichlet := by rw [e2, e2']
  have k3 : out'.loss = out.loss := by rw [e3, e3', k1]
  rw [ho, ho']
  cases out; cases out'
  simp only at k1 k2 k3
  rw [k1, k2, k3]

variable {nS : ℕ} {sp sp' : Fin nS → ℝ × ℝ} {sv : Fin nS → ℝ}

lemma inverse_same {net net' : Network 1} {u u' : ℝ × ℝ → ℝ}
    (hu : RowWise net fun _ => u) (hu' : RowWise net' fun _ => u') {ip : ParamDict} {e : ℝ}
    (he : HasParam ip "eps" e)
    (hpde : pdeLoss M' pt' u' (fun _ _ => e) (0, 0) 0 = pdeLoss M pt u (fun _ _ => e) (0, 0) 0)
    (hbd : meanSq (fun i => u' (M'.dirichletInput i) - M'.dirichletActual i)
      = meanSq fun i => u (M.dirichletInput i) - M.dirichletActual i)
    (hs : meanSq (fun i => u' (sp' i) - sv i) = meanSq fun i => u (sp i) - sv i) :
    trainStepInverse (lossPoissonInverse nc' nt' nq') M' sp' sv ip net' beta p'
      = trainStepInverse (lossPoissonInverse nc nt nq) M sp sv ip net beta p := by
  obtain ⟨h1, h2⟩ := C47_inverse M pt hM beta p ip sp sv net (fun _ => u) hu
  obtain ⟨h1', h2'⟩ := C47_inverse M' pt' hM' beta p' ip sp' sv net' (fun _ => u') hu'
  obtain ⟨out, ho⟩ := h1.2 ⟨_, he⟩
  obtain ⟨out', ho'⟩ := h1'.2 ⟨_, he⟩
  obtain ⟨e₁, hc₁, e1, e2, e3, e4, e5, -⟩ := h2 out ho
  obtain ⟨e₂, hc₂, e1', e2', e3', e4', e5', -⟩ := h2' out' ho'
  obtain rfl := hasParam_unique he hc₁
  obtain rfl := hasParam_unique he hc₂
  have k1 : out'.lossPde = out.lossPde := by rw [e1, e1', hpde]
  have k2 : out'.lossDirichlet = out.lossDirichlet := by
    funext j
    obtain rfl : j = 0 := Subsingleton.elim _ _
    rw [e2, e2', hbd]
  have k4 : out'.sensorLoss = out.sensorLoss := by
    funext j
    obtain rfl : j = 0 := Subsingleton.elim _ _
    rw [e3, e3', hs]
  have k5 : out'.inverseParams = out.inverseParams := by rw [e4, e4']
  have k3 : out'.loss = out.loss := by
    funext j
    obtain rfl : j = 0 := Subsingleton.elim _ _
    rw [e5, e5', k1, k2, k4]
  rw [ho, ho']
  cases out; cases out'
  simp only at k1 k2 k3 k4 k5
  rw [k1, k2, k3, k4, k5]

omit hM hM' in
lemma domain_none {dout : ℕ} {L : LossFunction nc nt nq} {net : Network dout} {out : TrainOutInverse 1}
    (h : trainStepInverseDomain L M sp sv net beta p = .ok out) : out.inverseParams = none := by
  unfold trainStepInverseDomain at h
  split at h
  · dsimp only at h
    split at h
    · split at h
      · cases h
      · cases h; rfl
    all_goals cases h
  · cases h

lemma domain_same {dout : ℕ} (hd : 2 ≤ dout) {net net' : Network dout} {u u' : Fin dout → ℝ × ℝ → ℝ}
    (hu : RowWise net u) (hu' : RowWise net' u') {b b' : ℝ × ℝ} {r r' : ℝ} (hb1 : HasParam p "b_x" b.1)
    (hb2 : HasParam p "b_y" b.2) (hr : HasParam p "c" r) (hb1' : HasParam p' "b_x" b'.1)
    (hb2' : HasParam p' "b_y" b'.2) (hr' : HasParam p' "c" r')
    (hpde : pdeLoss M' pt' (u' ⟨0, by omega⟩) (fun c q => u' ⟨1, by omega⟩ (pt' c q)) b' r'
      = pdeLoss M pt (u ⟨0, by omega⟩) (fun c q => u ⟨1, by omega⟩ (pt c q)) b r)
    (hbd : meanSq (fun i => u' ⟨0, by omega⟩ (M'.dirichletInput i) - M'.dirichletActual i)
      = meanSq fun i => u ⟨0, by omega⟩ (M.dirichletInput i) - M.dirichletActual i)
    (hs : meanSq (fun i => u' ⟨0, by omega⟩ (sp' i) - sv i)
      = meanSq fun i => u ⟨0, by omega⟩ (sp i) - sv i) :
    trainStepInverseDomain (lossCd2dInverseDomain nc' nt' nq') M' sp' sv net' beta p'
      = trainStepInverseDomain (lossCd2dInverseDomain nc nt nq) M sp sv net beta p := by
  obtain ⟨h1, h2⟩ := C47_inverse_domain M pt hM beta p sp sv hd net u hu
  obtain ⟨h1', h2'⟩ := C47_inverse_domain M' pt' hM' beta p' sp' sv hd net' u' hu'
  obtain ⟨out, ho⟩ := h1.2 ⟨_, _, _, hb1, hb2, hr⟩
  obtain ⟨out', ho'⟩ := h1'.2 ⟨_, _, _, hb1', hb2', hr'⟩
  obtain ⟨b₁, b₂, r₁, c1, c2, c3, e1, e2, e3, e5, -⟩ := h2 out ho
  obtain ⟨b₁', b₂', r₁', c1', c2', c3', e1', e2', e3', e5', -⟩ := h2' out' ho'
  obtain rfl := hasParam_unique hb1 c1
  obtain rfl := hasParam_unique hb2 c2
  obtain rfl := hasParam_unique hr c3
  obtain rfl := hasParam_unique hb1' c1'
  obtain rfl := hasParam_unique hb2' c2'
  obtain rfl := hasParam_unique hr' c3'
  have k1 : out'.lossPde = out.lossPde := by rw [e1, e1']; exact hpde
  have k2 : out'.lossDirichlet = out.lossDirichlet := by
    funext j
    obtain rfl : j = 0 := Subsingleton.elim _ _
    rw [e2, e2', hbd]
  have k4 : out'.sensorLoss = out.sensorLoss := by
    funext j
    obtain rfl : j = 0 := Subsingleton.elim _ _
    rw [e3, e3', hs]
  have k5 : out'.inverseParams = out.inverseParams := by
    rw [domain_none beta ho, domain_none beta ho']
  have k3 : out'.loss = out.loss := by
    funext j
    obtain rfl : j = 0 := Subsingleton.elim _ _
    rw [e5, e5', k1, k2, k4]
  rw [ho, ho']
  cases out; cases out'
  simp only at k1 k2 k3 k4 k5
  rw [k1, k2, k3, k4, k5]

end Same

end FastVPINNs
