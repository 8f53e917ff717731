import Verif.Props.Numbering
import Verif.Spec.Similarity

/-! # C88: the loss does not depend on the units and the axes -/

namespace FastVPINNs

open Spec Polynomial

section Cell

variable (T : Similarity)

/-- The rotation, scaling and translation. -/
def rot (z : ℝ × ℝ) : ℝ × ℝ := (T.p * z.1 - T.q * z.2 + T.shift.1, T.q * z.1 + T.p * z.2 + T.shift.2)

/-- The same equation after rotation, scaling and translation. -/
structure RotEquation (a a' : ℝ × ℝ → ℝ) (b b' : ℝ × ℝ) (r r' : ℝ) (f f' : ℝ → ℝ → ℝ) : Prop where
  diffusion : ∀ z, a' (rot T z) = a z
  convection₁ : T.p * b.1 - T.q * b.2 = T.scale * b'.1
  convection₂ : T.q * b.1 + T.p * b.2 = T.scale * b'.2
  reaction : T.scale * r' = r
  forcing : ∀ z, T.scale * f' (rot T z).1 (rot T z).2 = f z.1 z.2

lemma bmap_similar (c : Quad) (z : ℝ × ℝ) : bmap (fun i => rot T (c i)) z = rot T (bmap c z) := by
  simp only [bmap, quadBilinear, QuadBilinear.getOriginalFromRef, QuadBilinear.xc0, QuadBilinear.xc1,
    QuadBilinear.xc2, QuadBilinear.xc3, QuadBilinear.yc0, QuadBilinear.yc1, QuadBilinear.yc2,
    QuadBilinear.yc3, rot]
  ext <;> (simp; ring)

lemma bilinDet_similar (c : Quad) (xi eta : ℝ) :
    bilinDet (fun i => rot T (c i)) xi eta = T.scale * bilinDet c xi eta := by
  simp only [bilinDet, QuadBilinear.xc1, QuadBilinear.xc2, QuadBilinear.xc3, QuadBilinear.yc1,
    QuadBilinear.yc2, QuadBilinear.yc3, rot, Similarity.scale]
  ring

lemma refGradX_similar (c : Quad) (ty : String) (i j : ℕ) (z : ℝ × ℝ) :
    refGradX (fun i => rot T (c i)) ty i j z = T.p * refGradX c ty i j z - T.q * refGradY c ty i j z := by
  simp only [refGradX, refGradY, QuadBilinear.xc1, QuadBilinear.xc2, QuadBilinear.xc3, QuadBilinear.yc1,
    QuadBilinear.yc2, QuadBilinear.yc3, rot]
  ring

lemma refGradY_similar (c : Quad) (ty : String) (i j : ℕ) (z : ℝ × ℝ) :
    refGradY (fun i => rot T (c i)) ty i j z = T.q * refGradX c ty i j z + T.p * refGradY c ty i j z := by
  simp only [refGradX, refGradY, QuadBilinear.xc1, QuadBilinear.xc2, QuadBilinear.xc3, QuadBilinear.yc1,
    QuadBilinear.yc2, QuadBilinear.yc3, rot]
  ring

/-- A differentiable function is differentiable in the new coordinates. -/
lemma differentiable_similar {u v : ℝ × ℝ → ℝ} (h : ∀ z, v (rot T z) = u z) {z : ℝ × ℝ}
    (hu : DifferentiableAt ℝ u z) : DifferentiableAt ℝ v (rot T z) := by
  have hs : T.p ^ 2 + T.q ^ 2 ≠ 0 := T.nonzero
  set inv : ℝ × ℝ → ℝ × ℝ := fun w =>
    ((T.p * (w.1 - T.shift.1) + T.q * (w.2 - T.shift.2)) / (T.p ^ 2 + T.q ^ 2),
      (-T.q * (w.1 - T.shift.1) + T.p * (w.2 - T.shift.2)) / (T.p ^ 2 + T.q ^ 2)) with hinv
  have h1 : ∀ w, rot T (inv w) = w := by
    intro w
    simp only [hinv, rot]
    ext
    · simp only; field_simp; ring
    · simp only; field_simp; ring
  have h2 : inv (rot T z) = z := by
    simp only [hinv, rot]
    ext
    · simp only; field_simp; ring
    · simp only; field_simp; ring
  have h3 : v = u ∘ inv := funext fun w => by rw [Function.comp_apply, ← h, h1]
  rw [h3]
  apply DifferentiableAt.comp
  · rw [h2]; exact hu
  · simp only [hinv]; fun_prop

/-- The chain rule. -/
lemma gradient_similar {u v : ℝ × ℝ → ℝ} (h : ∀ z, v (rot T z) = u z) {z : ℝ × ℝ}
    (hv : DifferentiableAt ℝ v (rot T z)) :
    dx u z = T.p * dx v (rot T z) + T.q * dy v (rot T z) ∧
    dy u z = -T.q * dx v (rot T z) + T.p * dy v (rot T z) := by
  have hlin : ∀ x y : ℝ, fderiv ℝ v (rot T z) (x, y) = x * dx v (rot T z) + y * dy v (rot T z) := by
    intro x y
    rw [dx_eq_fderiv hv, dy_eq_fderiv hv, ← smul_eq_mul, ← smul_eq_mul, ← map_smul, ← map_smul, ← map_add]
    simp
  constructor
  · have hc : HasDerivAt (fun s : ℝ => rot T (s, z.2)) (T.p, T.q) z.1 := by
      have h1 : HasDerivAt (fun s : ℝ => T.p * s - T.q * z.2 + T.shift.1) T.p z.1 := by
        simpa using (((hasDerivAt_id z.1).const_mul T.p).sub_const (T.q * z.2)).add_const T.shift.1
      have h2 : HasDerivAt (fun s : ℝ => T.q * s + T.p * z.2 + T.shift.2) T.q z.1 := by
        simpa using (((hasDerivAt_id z.1).const_mul T.q).add_const (T.p * z.2)).add_const T.shift.2
      exact h1.prodMk h2
    have := (hv.hasFDerivAt.comp_hasDerivAt z.1 hc).deriv
    rw [hlin] at this
    rw [← this]
    unfold dx
    congr 1
    funext s
    exact (h _).symm
  · have hc : HasDerivAt (fun s : ℝ => rot T (z.1, s)) (-T.q, T.p) z.2 := by
      have h1 : HasDerivAt (fun s : ℝ => T.p * z.1 - T.q * s + T.shift.1) (-T.q) z.2 := by
        simpa using (((hasDerivAt_id z.2).const_mul T.q).const_sub (T.p * z.1)).add_const T.shift.1
      have h2 : HasDerivAt (fun s : ℝ => T.q * z.1 + T.p * s + T.shift.2) T.p z.2 := by
        simpa using (((hasDerivAt_id z.2).const_mul T.p).const_add (T.q * z.1)).add_const T.shift.2
      exact h1.prodMk h2
    have := (hv.hasFDerivAt.comp_hasDerivAt z.2 hc).deriv
    rw [hlin] at this
    rw [← this]
    unfold dy
    congr 1
    funext s
    exact (h _).symm

lemma refIntegrand_similar {a a' u v : ℝ × ℝ → ℝ} {b b' : ℝ × ℝ} {r r' : ℝ} {f f' : ℝ → ℝ → ℝ}
    (he : RotEquation T a a' b b' r r' f f') (h : ∀ z, v (rot T z) = u z) (c : Quad) (ty : String) (i j : ℕ)
    (z : ℝ × ℝ) (hu : DifferentiableAt ℝ u (bmap c z)) :
    refIntegrand (fun i => rot T (c i)) ty i j a' v b' r' f' z = refIntegrand c ty i j a u b r f z := by
  obtain ⟨e1, e2⟩ := gradient_similar T h (differentiable_similar T h hu)
  obtain ⟨h1, h21, h22, h3, h4⟩ := he
  have hs : T.scale = T.p ^ 2 + T.q ^ 2 := rfl
  simp only [refIntegrand, bmap_similar, bilinDet_similar, refGradX_similar, refGradY_similar, h1, h, e1, e2,
    ← h4, ← h3]
  set X := dx v (rot T (bmap c z))
  set Y := dy v (rot T (bmap c z))
  linear_combination (-X * bilinDet c z.1 z.2 * refTest ty i j z) * h21
    + (-Y * bilinDet c z.1 z.2 * refTest ty i j z) * h22

/-! ### Swapped axes -/

/-- The axes swapped. -/
def swapAxes (z : ℝ × ℝ) : ℝ × ℝ := (z.2, z.1)

/-- The cell with swapped axes. -/
def swapCell (c : Quad) : Quad := fun i => swapAxes (c (-i))

lemma bmap_swap (c : Quad) (z : ℝ × ℝ) : bmap (swapCell c) z = swapAxes (bmap c (swapAxes z)) := by
  have n1 : (-1 : Fin 4) = 3 := rfl
  have n2 : (-2 : Fin 4) = 2 := rfl
  have n3 : (-3 : Fin 4) = 1 := rfl
  simp only [bmap, quadBilinear, QuadBilinear.getOriginalFromRef, QuadBilinear.xc0, QuadBilinear.xc1,
    QuadBilinear.xc2, QuadBilinear.xc3, QuadBilinear.yc0, QuadBilinear.yc1, QuadBilinear.yc2,
    QuadBilinear.yc3, swapCell, swapAxes, neg_zero, n1, n2, n3]
  ext <;> (simp only; ring)

lemma refIntegrand_swap (c : Quad) (ty : String) (i j : ℕ) (a u : ℝ × ℝ → ℝ) (b : ℝ × ℝ) (r : ℝ)
    (f : ℝ → ℝ → ℝ) (z : ℝ × ℝ) :
    refIntegrand (swapCell c) ty i j (a ∘ swapAxes) (u ∘ swapAxes) (swapAxes b) r (fun x y => f y x) z
      = refIntegrand c ty j i a u b r f (swapAxes z) := by
  have n1 : (-1 : Fin 4) = 3 := rfl
  have n2 : (-2 : Fin 4) = 2 := rfl
  have n3 : (-3 : Fin 4) = 1 := rfl
  have hb := bmap_swap c z
  have hx : ∀ w, dx (u ∘ swapAxes) (swapAxes w) = dy u w := fun w => rfl
  have hy : ∀ w, dy (u ∘ swapAxes) (swapAxes w) = dx u w := fun w => rfl
  have ht : refTest ty i j z = refTest ty j i (swapAxes z) := by
    simp only [refTest, swapAxes]; ring
  have htx : dx (refTest ty i j) z = dy (refTest ty j i) (swapAxes z) := by
    simp only [refTest_dx, refTest_dy, swapAxes]; ring
  have hty : dy (refTest ty i j) z = dx (refTest ty j i) (swapAxes z) := by
    simp only [refTest_dx, refTest_dy, swapAxes]; ring
  have hd : bilinDet (swapCell c) z.1 z.2 = bilinDet c z.2 z.1 := by
    simp only [bilinDet, QuadBilinear.xc1, QuadBilinear.xc2, QuadBilinear.xc3, QuadBilinear.yc1,
      QuadBilinear.yc2, QuadBilinear.yc3, swapCell, swapAxes, neg_zero, n1, n2, n3]
    ring
  have hgx : refGradX (swapCell c) ty i j z = refGradY c ty j i (swapAxes z) := by
    simp only [refGradX, refGradY, htx, hty, QuadBilinear.xc1, QuadBilinear.xc2, QuadBilinear.xc3,
      QuadBilinear.yc1, QuadBilinear.yc2, QuadBilinear.yc3, swapCell, swapAxes, neg_zero, n1, n2, n3]
    ring
  have hgy : refGradY (swapCell c) ty i j z = refGradX c ty j i (swapAxes z) := by
    simp only [refGradX, refGradY, htx, hty, QuadBilinear.xc1, QuadBilinear.xc2, QuadBilinear.xc3,
      QuadBilinear.yc1, QuadBilinear.yc2, QuadBilinear.yc3, swapCell, swapAxes, neg_zero, n1, n2, n3]
    ring
  simp only [refIntegrand, hb, hx, hy, hgx, hgy, hd, ht]
  simp only [Function.comp_apply, swapAxes]
  ring

lemma refSum_swap {n : ℕ} (x w : Fin n → ℝ) (g : ℝ × ℝ → ℝ) :
    refSum x w (fun z => g (swapAxes z)) = refSum x w g := by
  unfold refSum
  rw [Finset.sum_comm]
  refine Finset.sum_congr rfl fun i _ => Finset.sum_congr rfl fun j _ => ?_
  simp only [swapAxes]; ring

lemma cellLoss_swap (ty : String) (N : ℕ) {n : ℕ} (x w : Fin n → ℝ) (a u : ℝ × ℝ → ℝ) (b : ℝ × ℝ) (r : ℝ)
    (f : ℝ → ℝ → ℝ) (c : Quad) :
    cellLoss ty N x w (a ∘ swapAxes) (u ∘ swapAxes) (swapAxes b) r (fun x y => f y x) (swapCell c)
      = cellLoss ty N x w a u b r f c := by
  unfold cellLoss meanSq
  congr 1
  simp only [funext (refIntegrand_swap c ty _ _ a u b r f)]
  rw [sum_tensor_index N fun i j => refSum x w (fun z => refIntegrand c ty j i a u b r f (swapAxes z))
      * refSum x w (fun z => refIntegrand c ty j i a u b r f (swapAxes z)),
    sum_tensor_index N fun i j => refSum x w (refIntegrand c ty i j a u b r f)
      * refSum x w (refIntegrand c ty i j a u b r f), Finset.sum_comm]
  refine Finset.sum_congr rfl fun j _ => Finset.sum_congr rfl fun i _ => ?_
  rw [refSum_swap]

/-! ### Both -/

variable {T}

lemma map_swap_false (hs : T.swap = false) : T.map = rot T := by
  funext z
  simp only [Similarity.map, Similarity.linear, rot, hs]
  rfl

lemma map_swap_true (hs : T.swap = true) (z : ℝ × ℝ) : T.map z = rot T (swapAxes z) := by
  simp only [Similarity.map, Similarity.linear, rot, hs]
  rfl

lemma cellLoss_similar {qt : String} (ty : String) (N : ℕ) {n : ℕ} {x w : Fin n → ℝ} (hK : KnownRule qt n x w)
    {a a' u v : ℝ × ℝ → ℝ} {b b' : ℝ × ℝ} {r r' : ℝ} {f f' : ℝ → ℝ → ℝ}
    (he : T.SameEquation a a' b b' r r' f f') (h : ∀ z, v (T.map z) = u z) {c : Quad} (hc : ConvexCCW c)
    (hu : ∀ z ∈ cellSet c, DifferentiableAt ℝ u z) :
    cellLoss ty N x w a' v b' r' f' (T.cell c) = cellLoss ty N x w a u b r f c := by
  obtain ⟨h1, h2, h3, h4⟩ := he
  have h21 := congrArg Prod.fst h2
  have h22 := congrArg Prod.snd h2
  have hmem : ∀ i j, (x i, x j) ∈ refSquare := fun i j =>
    ⟨(hK.mem i).1, (hK.mem i).2, (hK.mem j).1, (hK.mem j).2⟩
  cases hs : T.swap with
  | false =>
    rw [map_swap_false hs] at h h1 h4
    have hcell : T.cell c = fun i => rot T (c i) := by
      funext i
      simp [Similarity.cell, hs, map_swap_false hs]
    simp only [Similarity.linear, hs, Bool.false_eq_true, if_false] at h21 h22
    unfold cellLoss refSum
    rw [hcell]
    congr 1
    funext t
    refine Finset.sum_congr rfl fun i _ => Finset.sum_congr rfl fun j _ => ?_
    rw [refIntegrand_similar T ⟨h1, h21, h22, h3, h4⟩ h c ty _ _ _ (hu _ (bmap_mem hc (hmem i j)))]
  | true =>
    have hcell : T.cell c = fun i => rot T (swapCell c i) := by
      funext i
      simp [Similarity.cell, hs, map_swap_true hs, swapCell]
    simp only [Similarity.linear, hs, if_true] at h21 h22
    rw [← cellLoss_swap ty N x w a u b r f c]
    have k : ∀ (g : ℝ × ℝ → ℝ) (g' : ℝ × ℝ → ℝ), (∀ z, g' (T.map z) = g z) →
        ∀ z, g' (rot T z) = (g ∘ swapAxes) z := fun g g' hg z => by
      rw [Function.comp_apply, ← hg, map_swap_true hs]
      rfl
    unfold cellLoss refSum
    rw [hcell]
    congr 1
    funext t
    refine Finset.sum_congr rfl fun i _ => Finset.sum_congr rfl fun j _ => ?_
    have hd : DifferentiableAt ℝ (u ∘ swapAxes) (bmap (swapCell c) (x i, x j)) := by
      have hb : swapAxes (bmap (swapCell c) (x i, x j)) = bmap c (x j, x i) := by
        rw [bmap_swap]; rfl
      apply DifferentiableAt.comp
      · rw [hb]; exact hu _ (bmap_mem hc (hmem j i))
      · unfold swapAxes; fun_prop
    rw [refIntegrand_similar T (a := a ∘ swapAxes) (b := swapAxes b) (f := fun x y => f y x)
      ⟨k a a' h1, h21, h22, h3, fun z => ?_⟩ (k u v h) _ ty _ _ _ hd]
    have := h4 (swapAxes z)
    rw [map_swap_true hs] at this
    exact this

lemma convex_similar {c : Quad} (hc : ConvexCCW c) : ConvexCCW (T.cell c) := by
  have hp : 0 < T.p ^ 2 + T.q ^ 2 := lt_of_le_of_ne (by positivity) (Ne.symm T.nonzero)
  obtain ⟨h0, h1, h2, h3⟩ := hc
  have n1 : (-1 : Fin 4) = 3 := rfl
  have n2 : (-2 : Fin 4) = 2 := rfl
  have n3 : (-3 : Fin 4) = 1 := rfl
  cases hs : T.swap with
  | false =>
    have e : ∀ A B C, cross (T.map A) (T.map B) (T.map C) = (T.p ^ 2 + T.q ^ 2) * cross A B C := fun A B C => by
      rw [map_swap_false hs]
      simp only [cross, rot]; ring
    refine ⟨?_, ?_, ?_, ?_⟩ <;> simp only [Similarity.cell, hs, e, Bool.false_eq_true, if_false]
    exacts [mul_pos hp h0, mul_pos hp h1, mul_pos hp h2, mul_pos hp h3]
  | true =>
    have e : ∀ A B C, cross (T.map A) (T.map B) (T.map C) = (T.p ^ 2 + T.q ^ 2) * cross C B A := fun A B C => by
      simp only [map_swap_true hs, cross, rot, swapAxes]; ring
    refine ⟨?_, ?_, ?_, ?_⟩ <;> simp only [Similarity.cell, hs, e, if_true, neg_zero, n1, n2, n3]
    exacts [mul_pos hp h0, mul_pos hp h3, mul_pos hp h2, mul_pos hp h1]

end Cell

/-! ### The training step -/

lemma meanSq_map {T : Similarity} {u v : ℝ × ℝ → ℝ} (h : ∀ z, v (T.map z) = u z)
    (bdv : List (ℝ × ℝ) × List ℝ) {nt nq nt' nq' : ℕ} (D : DataHandler2D nt nq) (D' : DataHandler2D nt' nq')
    (n n' : ℕ) :
    meanSq (fun i => v ((modelDataOf D' (bdv.1.map T.map, bdv.2) n').dirichletInput i)
      - (modelDataOf D' (bdv.1.map T.map, bdv.2) n').dirichletActual i)
    = meanSq fun i => u ((modelDataOf D bdv n).dirichletInput i) - (modelDataOf D bdv n).dirichletActual i := by
  have hl : (bdv.1.map T.map).length = bdv.1.length := List.length_map _
  unfold meanSq
  rw [← (finCongr hl).sum_comp]
  simp only [modelDataOf, List.get_eq_getElem, List.getElem_map, h, finCongr_apply, Fin.val_cast, hl]

section

variable {V V' : Type} {cells : List Quad} (hcells : ∀ c ∈ cells, ConvexCCW c) (T : Similarity)
  {a a' u v : ℝ × ℝ → ℝ} {b b' : ℝ × ℝ} {r r' : ℝ} {f f' : ℝ → ℝ → ℝ} {s : FESettings}
  {nq nq' : ℕ} {S : Fespace2D (ℝ → ℝ → ℝ) V (s.feOrder.toNat ^ 2) nq}
  {D : DataHandler2D (s.feOrder.toNat ^ 2) nq} (hR : Discretised cells f s S D)
  {S' : Fespace2D (ℝ → ℝ → ℝ) V' (s.feOrder.toNat ^ 2) nq'}
  {D' : DataHandler2D (s.feOrder.toNat ^ 2) nq'} (hR' : Discretised (cells.map T.cell) f' s S' D')
  (bdv : List (ℝ × ℝ) × List ℝ)
  (hu : ∀ c ∈ cells, ∀ z ∈ cellSet c, DifferentiableAt ℝ u z) (hv : ∀ z, v (T.map z) = u z)

include hcells hR hR' hu hv

lemma pdeLoss_similar (bdv' : List (ℝ × ℝ) × List ℝ) (he : T.SameEquation a a' b b' r r' f f') :
    ∃ pt pt', Shaped (modelDataOf D bdv S.nCells) pt ∧
    Shaped (modelDataOf D' bdv' S'.nCells) pt' ∧
      pdeLoss (modelDataOf D' bdv' S'.nCells) pt' v (fun k q => a' (pt' k q)) b' r'
        = pdeLoss (modelDataOf D bdv S.nCells) pt u (fun k q => a (pt k q)) b r := by
  obtain ⟨n, x, w, pt, hn, hK, hsh, hl⟩ := pdeLoss_cells hcells hR bdv
  obtain ⟨n', x', w', pt', hn', hK', hsh', hl'⟩ := pdeLoss_cells (by
    intro c hc
    obtain ⟨c₀, h0, rfl⟩ := List.mem_map.1 hc
    exact convex_similar (hcells c₀ h0)) hR' bdv'
  refine ⟨pt, pt', hsh, hsh', ?_⟩
  rw [hn] at hn'
  obtain rfl : n = n' := by exact_mod_cast hn'
  obtain ⟨rfl, rfl⟩ := hK.unique hK'
  rw [hl, hl', List.map_map]
  congr 1
  refine List.map_congr_left fun c hc => ?_
  exact cellLoss_similar _ _ hK he hv (hcells c hc) (hu c hc)

/-- **C88** (`DenseModel`).  Move the mesh, the boundary points and the solution by a similarity of the plane
(another unit of length, other axes, another origin), and take the same equation in the new coordinates: the
training step returns the same losses.  The network is any function `u` that is differentiable on the
strictly convex cells, and `v` is the same function in the new coordinates. -/
theorem C88_dense (kind : LossKind) (hk : kind.forward) (p p' : ParamDict) (e : ℝ)
    (hco : ConstantCoefficients kind p e b r) (hco' : ConstantCoefficients kind p' e b' r')
    (he : T.SameEquation (fun _ => e) (fun _ => e) b b' r r' f f') (net net' : Network 1)
    (hnet : RowWise net (fun _ => u)) (hnet' : RowWise net' (fun _ => v)) (beta : ℝ) :
    (∃ out, trainStepDense (lossOf kind _ _ _) (modelDataOf D bdv S.nCells) net beta p = .ok out) ∧
    trainStepDense (lossOf kind _ _ _) (modelDataOf D' (bdv.1.map T.map, bdv.2) S'.nCells) net' beta p'
      = trainStepDense (lossOf kind _ _ _) (modelDataOf D bdv S.nCells) net beta p := by
  obtain ⟨pt, pt', hsh, hsh', h⟩ := pdeLoss_similar hcells T hR hR' bdv hu hv (bdv.1.map T.map, bdv.2) he
  exact ⟨(C47_dense _ pt hsh beta p kind hk net (fun _ => u) hnet).1.2
      ⟨_, _, _, constantCoefficients_iff hk hco _ _⟩,
    dense_same hsh hsh' beta hk hnet hnet' hco hco' h (meanSq_map hv bdv D D' _ _)⟩

/-- **C88** (`DenseModel_Hard`).  `net` and `net'` are the networks with the constraint applied. -/
theorem C88_hard (kind : LossKind) (hk : kind.forward) (p p' : ParamDict) (e : ℝ)
    (hco : ConstantCoefficients kind p e b r) (hco' : ConstantCoefficients kind p' e b' r')
    (he : T.SameEquation (fun _ => e) (fun _ => e) b b' r r' f f') (net net' : Network 1)
    (hnet : RowWise net (fun _ => u)) (hnet' : RowWise net' (fun _ => v)) (beta : ℝ) :
    (∃ out, trainStepHard (lossOf kind _ _ _) (modelDataOf D bdv S.nCells) net beta p = .ok out) ∧
    trainStepHard (lossOf kind _ _ _) (modelDataOf D' (bdv.1.map T.map, bdv.2) S'.nCells) net' beta p'
      = trainStepHard (lossOf kind _ _ _) (modelDataOf D bdv S.nCells) net beta p := by
  obtain ⟨pt, pt', hsh, hsh', h⟩ := pdeLoss_similar hcells T hR hR' bdv hu hv (bdv.1.map T.map, bdv.2) he
  exact ⟨(C47_hard _ pt hsh beta p kind hk net (fun _ => u) hnet).1.2
      ⟨_, _, _, constantCoefficients_iff hk hco _ _⟩,
    hard_same hsh hsh' beta hk hnet hnet' hco hco' h⟩

/-- **C88** (`DenseModel_Inverse`).  The sensors are moved too. -/
theorem C88_inverse {nS : ℕ} (sp : Fin nS → ℝ × ℝ) (sv : Fin nS → ℝ) (p p' ip : ParamDict) (e : ℝ)
    (hip : HasParam ip "eps" e)
    (he : T.SameEquation (fun _ => e) (fun _ => e) (0, 0) (0, 0) 0 0 f f') (net net' : Network 1)
    (hnet : RowWise net (fun _ => u)) (hnet' : RowWise net' (fun _ => v)) (beta : ℝ) :
    (∃ out, trainStepInverse (lossPoissonInverse _ _ _) (modelDataOf D bdv S.nCells) sp sv ip net beta p
      = .ok out) ∧
    trainStepInverse (lossPoissonInverse _ _ _) (modelDataOf D' (bdv.1.map T.map, bdv.2) S'.nCells)
        (fun i => T.map (sp i)) sv ip net' beta p'
      = trainStepInverse (lossPoissonInverse _ _ _) (modelDataOf D bdv S.nCells) sp sv ip net beta p := by
  obtain ⟨pt, pt', hsh, hsh', h⟩ := pdeLoss_similar hcells T hR hR' bdv hu hv (bdv.1.map T.map, bdv.2) he
  exact ⟨(C47_inverse _ pt hsh beta p ip sp sv net (fun _ => u) hnet).1.2 ⟨e, hip⟩,
    inverse_same hsh hsh' beta hnet hnet' hip h (meanSq_map hv bdv D D' _ _) (by simp only [hv])⟩

/-- **C88** (`DenseModel_Inverse_Domain`).  The second output of the network is the diffusion coefficient `a`,
in the new coordinates `a'`. -/
theorem C88_inverse_domain {nS : ℕ} (sp : Fin nS → ℝ × ℝ) (sv : Fin nS → ℝ) (p p' : ParamDict)
    (hb1 : HasParam p "b_x" b.1) (hb2 : HasParam p "b_y" b.2) (hr : HasParam p "c" r)
    (hb1' : HasParam p' "b_x" b'.1) (hb2' : HasParam p' "b_y" b'.2) (hr' : HasParam p' "c" r')
    (he : T.SameEquation a a' b b' r r' f f') (net net' : Network 2)
    (hnet : RowWise net ![u, a]) (hnet' : RowWise net' ![v, a']) (beta : ℝ) :
    (∃ out, trainStepInverseDomain (lossCd2dInverseDomain _ _ _) (modelDataOf D bdv S.nCells) sp sv net
      beta p = .ok out) ∧
    trainStepInverseDomain (lossCd2dInverseDomain _ _ _) (modelDataOf D' (bdv.1.map T.map, bdv.2) S'.nCells)
        (fun i => T.map (sp i)) sv net' beta p'
      = trainStepInverseDomain (lossCd2dInverseDomain _ _ _) (modelDataOf D bdv S.nCells) sp sv net beta p := by
  obtain ⟨pt, pt', hsh, hsh', h⟩ := pdeLoss_similar hcells T hR hR' bdv hu hv (bdv.1.map T.map, bdv.2) he
  refine ⟨(C47_inverse_domain _ pt hsh beta p sp sv le_rfl net ![u, a] hnet).1.2 ⟨_, _, _, hb1, hb2, hr⟩,
    domain_same hsh hsh' beta le_rfl hnet hnet' hb1 hb2 hr hb1' hb2' hr' h (meanSq_map hv bdv D D' _ _) ?_⟩
  simp [hv]

end

/-- Swap the axes, turn by 90 degrees, double all lengths and translate: `(x, y) ↦ (1 - 2x, 3 + 2y)`. -/
def demoSimilarity : Similarity := ⟨true, 0, 2, (1, 3), by norm_num⟩

lemma demoSimilarity_map (z : ℝ × ℝ) : demoSimilarity.map z = (1 - 2 * z.1, 3 + 2 * z.2) := by
  simp only [Similarity.map, Similarity.linear, demoSimilarity, if_true]
  ext
  · simp; ring
  · simp; ring

/-- `-Δu + u_x + 4u = x` in the new coordinates. -/
lemma demoSimilarity_equation : demoSimilarity.SameEquation (fun _ => 1) (fun _ => 1) (1, 0) (-1 / 2, 0) 4 1
    (fun x _ => x) (fun X _ => (1 - X) / 8) := by
  refine ⟨fun _ => rfl, ?_, ?_, fun z => ?_⟩
  · simp [Similarity.linear, Similarity.scale, demoSimilarity]
    norm_num
  · simp [Similarity.scale, demoSimilarity]
    norm_num
  · rw [demoSimilarity_map]
    simp [Similarity.scale, demoSimilarity]
    ring

/-- The hypotheses are met: the convection-diffusion loss of `x² y` on the demo cells, and of the same function
in the new coordinates on the moved cells. -/
example : ∃ nq, ∃ S : Fespace2D (ℝ → ℝ → ℝ) ℝ (((3 : ℤ).toNat) ^ 2) nq, ∃ D, ∃ nq',
    ∃ S' : Fespace2D (ℝ → ℝ → ℝ) ℝ (((3 : ℤ).toNat) ^ 2) nq', ∃ D',
      Discretised demoCells (fun x _ => x) (demoSettings "bilinear") S D ∧
      Discretised (demoCells.map demoSimilarity.cell) (fun X _ => (1 - X) / 8) (demoSettings "bilinear") S' D' ∧
      ∃ out, trainStepDense (lossOf .cd2d _ _ _) (modelDataOf D' ([(0, 1)].map demoSimilarity.map, [7])
          S'.nCells)
          (fun _ X r (_ : Fin 1) => ((1 - (X r).1) / 2) ^ 2 * (((X r).2 - 3) / 2)) 10
          (some [("eps", 1), ("b_x", -1 / 2), ("b_y", 0), ("c", 1)]) = .ok out ∧
        trainStepDense (lossOf .cd2d _ _ _) (modelDataOf D ([(0, 1)], [7]) S.nCells)
          (fun _ X r (_ : Fin 1) => (X r).1 ^ 2 * (X r).2) 10
          (some [("eps", 1), ("b_x", 1), ("b_y", 0), ("c", 4)]) = .ok out := by
  obtain ⟨nq, S, D, hR⟩ := discretised_exists demoCells (by simp [demoCells]) fun x _ => x
  obtain ⟨nq', S', D', hR'⟩ := discretised_exists (demoCells.map demoSimilarity.cell) (by simp [demoCells])
    fun X _ => (1 - X) / 8
  obtain ⟨⟨out, ho⟩, h⟩ := C88_dense (fun c hc => (demo_cells_ok c hc).1) demoSimilarity
    (s := demoSettings "bilinear") hR hR' ([(0, 1)], [7]) (u := fun z => z.1 ^ 2 * z.2)
    (v := fun Z => ((1 - Z.1) / 2) ^ 2 * ((Z.2 - 3) / 2)) (fun _ _ z _ => by fun_prop)
    (fun z => by rw [demoSimilarity_map]; simp only; ring) .cd2d (Or.inr (Or.inl rfl))
    (some [("eps", 1), ("b_x", 1), ("b_y", 0), ("c", 4)]) (some [("eps", 1), ("b_x", -1 / 2), ("b_y", 0), ("c", 1)]) 1
    ⟨1, ⟨_, rfl, rfl⟩, rfl, ⟨_, rfl, rfl⟩, ⟨_, rfl, rfl⟩, ⟨_, rfl, rfl⟩⟩
    ⟨1, ⟨_, rfl, rfl⟩, rfl, ⟨_, rfl, rfl⟩, ⟨_, rfl, rfl⟩, ⟨_, rfl, rfl⟩⟩ demoSimilarity_equation
    (fun _ X r (_ : Fin 1) => (X r).1 ^ 2 * (X r).2)
    (fun _ X r (_ : Fin 1) => ((1 - (X r).1) / 2) ^ 2 * (((X r).2 - 3) / 2)) (fun _ _ _ _ => rfl)
    (fun _ _ _ _ => rfl) 10
  exact ⟨nq, S, D, nq', S', D', hR, hR', out, h.trans ho, ho⟩

end FastVPINNs
