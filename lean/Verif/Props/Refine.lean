import Verif.Lemmas.BubbleBound
import Verif.Props.FieldError

/-! # C97: an error bound with explicit constants; refining the mesh -/

namespace FastVPINNs

open Spec

lemma discretised_order {V : Type} {cells : List Quad} {f : ℝ → ℝ → ℝ} {s : FESettings} {nq : ℕ}
    {S : Fespace2D (ℝ → ℝ → ℝ) V (s.feOrder.toNat ^ 2) nq} {D : DataHandler2D (s.feOrder.toNat ^ 2) nq}
    (hR : Discretised cells f s S D) : 0 < s.feOrder.toNat := by
  obtain ⟨ext, mp, bd, dict, plot, S', h, -⟩ := hR.built
  have := (fespace_conditions ext mp cells bd s dict f h).2.2.1.1
  omega

section

variable {V : Type} {cells : List Quad} {s : FESettings} {ψ : ℕ → ℕ → ℝ × ℝ → ℝ} {f ρ : ℝ → ℝ → ℝ} {nq : ℕ}
  {S : Fespace2D (ℝ → ℝ → ℝ) V (s.feOrder.toNat ^ 2) nq} {D : DataHandler2D (s.feOrder.toNat ^ 2) nq}

lemma defect_le_residuals (hty : s.feType ≠ "jacobi_plain") (hV : VariationalSetup cells s.feType s.feOrder.toNat ψ f)
    (hR : Discretised cells f s S D) {a u : ℝ × ℝ → ℝ} {b : ℝ × ℝ} {r : ℝ}
    (hρ : IsDefect (meshSet cells) a u b r f ρ) {δ m ω : ℝ} (hδ0 : 0 ≤ δ) (hm : 0 < m)
    (harea : AreaAtLeast cells m) (hω : Oscillation cells ρ ω) {R : Fin cells.length → Fin (s.feOrder.toNat ^ 2) → ℝ}
    (h5 : ResidualsNear cells s.feOrder.toNat ψ a u b r f (fun _ _ => δ) R) : ∀ z ∈ meshSet cells,
      |ρ z.1 z.2| ≤ (s.feOrder.toNat * Real.sqrt (∑ k, meanSq (R k)) + 8 * δ) / m + ω :=
  defect_bound_explicit hty (discretised_order hR) hV (fun c hc => hρ.mono (cellSet_subset_meshSet hc)) hm
    (by positivity) harea hω fun k c hk => weak_le_loss h5 hk (pow_pos (discretised_order hR) 2)

lemma oscillation_nonneg (hR : Discretised cells f s S D) {ω : ℝ} (hω : Oscillation cells ρ ω) : 0 ≤ ω := by
  obtain ⟨ext, mp, bd, dict, plot, S', h, -⟩ := hR.built
  obtain ⟨c, l, rfl⟩ := List.exists_cons_of_ne_nil (fespace_conditions ext mp cells bd s dict f h).2.1
  have h0 : c 0 ∈ convexHull ℝ (Set.range c) := subset_convexHull ℝ _ ⟨0, rfl⟩
  exact (abs_nonneg _).trans (hω c List.mem_cons_self _ h0 _ h0)

/-- **C97.**  The error bound of C90 with explicit constants.  On cells of area at least `m`, with test functions of
order `N` that vanish on the edges, for a network `u` whose defect varies by at most `ω` on each cell, and the
classical solution `v`: the error is at most the error on the boundary plus `A ((N √L + 8 δ) / m + ω)`, where `L` is
the PDE loss that `DenseModel` reports or the loss that `DenseModel_Hard` reports, `A` is any stability factor and `δ`
the distance of the integrands from the polynomials that the rule integrates exactly. -/
theorem C97_error (hty : s.feType ≠ "jacobi_plain") (hV : VariationalSetup cells s.feType s.feOrder.toNat ψ f)
    (hR : Discretised cells f s S D) (bdv : List (ℝ × ℝ) × List ℝ) (kind : LossKind) (hk : kind.forward) (p : ParamDict)
    (e : ℝ) (b : ℝ × ℝ) (r : ℝ) (hco : ConstantCoefficients kind p e b r) (u v : ℝ × ℝ → ℝ)
    (h : ErrorSetting (meshSet cells) e b r f ρ u v) (A : ℝ) (hA : StabilityFactor (meshSet cells) e b r A)
    (δ m ω : ℝ) (hδ0 : 0 ≤ δ) (hm : 0 < m) (hδ : IntegrandsNear (ruleDegree s.quadType s.quadOrder) cells
      s.feOrder.toNat ψ (fun _ => e) u b r f (fun _ _ => δ)) (harea : AreaAtLeast cells m)
    (hω : Oscillation cells ρ ω) (net : Network 1) (hnet : RowWise net (fun _ => u)) (beta : ℝ) :
    ∃ out outH, trainStepDense (lossOf kind _ _ _) (modelDataOf D bdv S.nCells) net beta p = .ok out ∧
      trainStepHard (lossOf kind _ _ _) (modelDataOf D bdv S.nCells) net beta p = .ok outH ∧
      (∀ B, 0 ≤ B → (∀ z ∈ frontier (meshSet cells), |u z - v z| ≤ B) → ∀ z ∈ meshSet cells,
        |u z - v z| ≤ B + A * ((s.feOrder.toNat * Real.sqrt out.lossPde + 8 * δ) / m + ω) ∧
        |u z - v z| ≤ B + A * ((s.feOrder.toNat * Real.sqrt outH.loss + 8 * δ) / m + ω)) ∧
      (∀ κ, 0 ≤ κ → BoundarySampled (meshSet cells) bdv u v κ → ∀ z ∈ meshSet cells,
        |u z - v z| ≤ κ + Real.sqrt (bdv.1.length * out.lossDirichlet 0)
          + A * ((s.feOrder.toNat * Real.sqrt out.lossPde + 8 * δ) / m + ω)) := by
  have hsm : ∀ c ∈ cells, SmoothOn (cellSet c) u := fun c hc =>
    (h.defect.mono (cellSet_subset_meshSet hc)).solves.smooth
  obtain ⟨out, outH, R, h1, h2, h3, h4, h5⟩ := C69_train_step hV hR bdv kind hk p e b r hco u hsm _ hδ net hnet beta
  obtain ⟨pt, -, hsh, -⟩ := pdeLoss_close hV hR bdv (fun _ _ => continuousOn_const) hsm hδ
  obtain ⟨-, -, -, -, -, e2, -⟩ := (C47_dense _ pt hsh beta p kind hk net (fun _ => u) hnet).2 out h1
  have hd := defect_le_residuals hty hV hR h.defect hδ0 hm harea hω h5
  have hω0 := oscillation_nonneg hR hω
  have key := fun B hB0 hB => C90_stability _ (meshSet_compact cells) e b r f ρ u v h A hA B _ hB0 (by positivity) hB
    fun z hz => hd z (interior_subset hz)
  refine ⟨out, outH, h1, h2, fun B hB0 hB z hz => ?_, fun κ hκ hbd z hz => ?_⟩
  · rw [h3, h4]
    exact ⟨key B hB0 hB z hz, key B hB0 hB z hz⟩
  · rw [h3]
    exact key _ (by positivity) (fun y hy => by rw [e2]; exact boundary_error hbd hy) z hz

/-- **C97** (inverse problem, constant coefficient).  The same for `DenseModel_Inverse` and the solution for the
current value of the parameter. -/
theorem C97_inverse (hty : s.feType ≠ "jacobi_plain") (hV : VariationalSetup cells s.feType s.feOrder.toNat ψ f)
    (hR : Discretised cells f s S D) (bdv : List (ℝ × ℝ) × List ℝ) {nS : ℕ} (sp : Fin nS → ℝ × ℝ) (sv : Fin nS → ℝ)
    (p ip : ParamDict) (e : ℝ) (he : HasParam ip "eps" e) (u v : ℝ × ℝ → ℝ)
    (h : ErrorSetting (meshSet cells) e (0, 0) 0 f ρ u v) (A : ℝ) (hA : StabilityFactor (meshSet cells) e (0, 0) 0 A)
    (δ m ω : ℝ) (hδ0 : 0 ≤ δ) (hm : 0 < m) (hδ : IntegrandsNear (ruleDegree s.quadType s.quadOrder) cells
      s.feOrder.toNat ψ (fun _ => e) u (0, 0) 0 f (fun _ _ => δ)) (harea : AreaAtLeast cells m)
    (hω : Oscillation cells ρ ω) (net : Network 1) (hnet : RowWise net (fun _ => u)) (beta : ℝ) :
    ∃ out, trainStepInverse (lossPoissonInverse _ _ _) (modelDataOf D bdv S.nCells) sp sv ip net beta p = .ok out ∧
      (∀ B, 0 ≤ B → (∀ z ∈ frontier (meshSet cells), |u z - v z| ≤ B) → ∀ z ∈ meshSet cells,
        |u z - v z| ≤ B + A * ((s.feOrder.toNat * Real.sqrt out.lossPde + 8 * δ) / m + ω)) ∧
      (∀ κ, 0 ≤ κ → BoundarySampled (meshSet cells) bdv u v κ → ∀ z ∈ meshSet cells,
        |u z - v z| ≤ κ + Real.sqrt (bdv.1.length * out.lossDirichlet 0)
          + A * ((s.feOrder.toNat * Real.sqrt out.lossPde + 8 * δ) / m + ω)) := by
  have hsm : ∀ c ∈ cells, SmoothOn (cellSet c) u := fun c hc =>
    (h.defect.mono (cellSet_subset_meshSet hc)).solves.smooth
  obtain ⟨out, R, h1, h3, h5⟩ := C69_inverse hV hR bdv e u hsm _ hδ sp sv net hnet beta p ip he
  obtain ⟨pt, -, hsh, -⟩ := pdeLoss_close hV hR bdv (fun _ _ => continuousOn_const) hsm hδ
  obtain ⟨-, -, -, e2, -⟩ := (C47_inverse _ pt hsh beta p ip sp sv net (fun _ => u) hnet).2 out h1
  have hd := defect_le_residuals hty hV hR h.defect hδ0 hm harea hω h5
  have hω0 := oscillation_nonneg hR hω
  have key := fun B hB0 hB => C90_stability _ (meshSet_compact cells) e (0, 0) 0 f ρ u v h A hA B _ hB0
    (by positivity) hB fun z hz => hd z (interior_subset hz)
  refine ⟨out, h1, fun B hB0 hB z hz => ?_, fun κ hκ hbd z hz => ?_⟩
  · rw [h3]
    exact key B hB0 hB z hz
  · rw [h3]
    exact key _ (by positivity) (fun y hy => by rw [e2]; exact boundary_error hbd hy) z hz

/-- **C97** (inverse problem, coefficient field).  The same for `DenseModel_Inverse_Domain` and the solution for the
coefficient that has been found. -/
theorem C97_field (hty : s.feType ≠ "jacobi_plain") (hV : VariationalSetup cells s.feType s.feOrder.toNat ψ f)
    (hR : Discretised cells f s S D) (bdv : List (ℝ × ℝ) × List ℝ) {nS : ℕ} (sp : Fin nS → ℝ × ℝ) (sv : Fin nS → ℝ)
    (p : ParamDict) (b : ℝ × ℝ) (r : ℝ) (hbx : HasParam p "b_x" b.1) (hby : HasParam p "b_y" b.2)
    (hbr : HasParam p "c" r) (a u v : ℝ × ℝ → ℝ) (h : FieldSetting (meshSet cells) a b r f ρ u v) (A : ℝ)
    (hA : StabilityFactorField (meshSet cells) a b r A) (δ m ω : ℝ) (hδ0 : 0 ≤ δ) (hm : 0 < m)
    (hδ : IntegrandsNear (ruleDegree s.quadType s.quadOrder) cells s.feOrder.toNat ψ a u b r f (fun _ _ => δ))
    (harea : AreaAtLeast cells m) (hω : Oscillation cells ρ ω) (net : Network 2) (hnet : RowWise net ![u, a])
    (beta : ℝ) :
    ∃ out, trainStepInverseDomain (lossCd2dInverseDomain _ _ _) (modelDataOf D bdv S.nCells) sp sv net beta p
        = .ok out ∧
      (∀ B, 0 ≤ B → (∀ z ∈ frontier (meshSet cells), |u z - v z| ≤ B) → ∀ z ∈ meshSet cells,
        |u z - v z| ≤ B + A * ((s.feOrder.toNat * Real.sqrt out.lossPde + 8 * δ) / m + ω)) ∧
      (∀ κ, 0 ≤ κ → BoundarySampled (meshSet cells) bdv u v κ → ∀ z ∈ meshSet cells,
        |u z - v z| ≤ κ + Real.sqrt (bdv.1.length * out.lossDirichlet 0)
          + A * ((s.feOrder.toNat * Real.sqrt out.lossPde + 8 * δ) / m + ω)) := by
  have hsm : ∀ c ∈ cells, SmoothOn (cellSet c) u := fun c hc =>
    (h.defect.mono (cellSet_subset_meshSet hc)).solves.smooth
  have hac : ∀ c ∈ cells, ContinuousOn a (cellSet c) := fun c hc =>
    (h.defect.mono (cellSet_subset_meshSet hc)).solves.coefficient
  obtain ⟨out, R, h1, h3, h5⟩ := C69_inverse_domain hV hR bdv a u b r hac hsm _ hδ sp sv net hnet beta p hbx hby hbr
  obtain ⟨pt, -, hsh, -⟩ := pdeLoss_close hV hR bdv hac hsm hδ
  obtain ⟨-, -, -, -, -, -, -, e2, -⟩ :=
    (C47_inverse_domain _ pt hsh beta p sp sv le_rfl net ![u, a] hnet).2 out h1
  have e2 : out.lossDirichlet 0 = meanSq (fun i => u (bdv.1.get i) - bdv.2.getD i.val 0) := e2
  have hd := defect_le_residuals hty hV hR h.defect hδ0 hm harea hω h5
  have hω0 := oscillation_nonneg hR hω
  have key := fun B hB0 hB => C96_stability _ (meshSet_compact cells) a b r f ρ u v h A hA B _ hB0
    (by positivity) hB fun z hz => hd z (interior_subset hz)
  refine ⟨out, h1, fun B hB0 hB z hz => ?_, fun κ hκ hbd z hz => ?_⟩
  · rw [h3]
    exact key B hB0 hB z hz
  · rw [h3]
    exact key _ (by positivity) (fun y hy => by rw [e2]; exact boundary_error hbd hy) z hz

/-- A defect that is Lipschitz continuous on the cells varies little on small cells. -/
lemma oscillation_of_lipschitz {Λ h : ℝ} (hΛ0 : 0 ≤ Λ)
    (hΛ : ∀ c ∈ cells, ∀ z ∈ cellSet c, ∀ y ∈ cellSet c, |ρ z.1 z.2 - ρ y.1 y.2| ≤ Λ * dist z y)
    (hh : ∀ c ∈ cells, ∀ i j, dist (c i) (c j) ≤ h) : Oscillation cells ρ (Λ * h) := by
  intro c hc z hz y hy
  refine (hΛ c hc z hz y hy).trans (mul_le_mul_of_nonneg_left ?_ hΛ0)
  obtain ⟨_, ⟨i, rfl⟩, _, ⟨j, rfl⟩, hd⟩ := convexHull_exists_dist_ge2 hz hy
  exact hd.trans (hh c hc i j)

/-- **C97** (refinement).  Let the cells have sides of length at most `h` (in the maximum norm, diagonals included) and
areas of at least `σ h²`, and let the defect of the network be Lipschitz continuous on the cells with constant `Λ`.
If the training reaches a PDE loss of at most `h⁶` and the quadrature is accurate to `h³`, then the error is at most
the error on the boundary plus `A ((N + 8) / σ + Λ) h`: it goes to zero like `h` when the mesh is refined. -/
theorem C97_first_order (hty : s.feType ≠ "jacobi_plain") (hV : VariationalSetup cells s.feType s.feOrder.toNat ψ f)
    (hR : Discretised cells f s S D) (bdv : List (ℝ × ℝ) × List ℝ) (kind : LossKind) (hk : kind.forward) (p : ParamDict)
    (e : ℝ) (b : ℝ × ℝ) (r : ℝ) (hco : ConstantCoefficients kind p e b r) (u v : ℝ × ℝ → ℝ)
    (he : ErrorSetting (meshSet cells) e b r f ρ u v) (A : ℝ) (hA : StabilityFactor (meshSet cells) e b r A)
    (h σ Λ : ℝ) (hh0 : 0 < h) (hσ : 0 < σ) (hΛ0 : 0 ≤ Λ) (hh : ∀ c ∈ cells, ∀ i j, dist (c i) (c j) ≤ h)
    (harea : AreaAtLeast cells (σ * h ^ 2))
    (hΛ : ∀ c ∈ cells, ∀ z ∈ cellSet c, ∀ y ∈ cellSet c, |ρ z.1 z.2 - ρ y.1 y.2| ≤ Λ * dist z y)
    (hδ : IntegrandsNear (ruleDegree s.quadType s.quadOrder) cells s.feOrder.toNat ψ (fun _ => e) u b r f
      (fun _ _ => h ^ 3)) (net : Network 1) (hnet : RowWise net (fun _ => u)) (beta : ℝ) :
    ∃ out outH, trainStepDense (lossOf kind _ _ _) (modelDataOf D bdv S.nCells) net beta p = .ok out ∧
      trainStepHard (lossOf kind _ _ _) (modelDataOf D bdv S.nCells) net beta p = .ok outH ∧
      ∀ B, 0 ≤ B → (∀ z ∈ frontier (meshSet cells), |u z - v z| ≤ B) →
        (out.lossPde ≤ h ^ 6 ∨ outH.loss ≤ h ^ 6) → ∀ z ∈ meshSet cells,
        |u z - v z| ≤ B + A * ((s.feOrder.toNat + 8) / σ + Λ) * h := by
  obtain ⟨out, outH, h1, h2, h3, -⟩ := C97_error hty hV hR bdv kind hk p e b r hco u v he A hA (h ^ 3) (σ * h ^ 2)
    (Λ * h) (by positivity) (by positivity) hδ harea (oscillation_of_lipschitz hΛ0 hΛ hh) net hnet beta
  refine ⟨out, outH, h1, h2, fun B hB0 hB hl z hz => ?_⟩
  have hA0 : 0 ≤ A := stability_nonneg he.diffusion hA ⟨z, hz⟩
  have hs : ∀ L : ℝ, L ≤ h ^ 6 → Real.sqrt L ≤ h ^ 3 := fun L hL => by
    rw [show h ^ 6 = (h ^ 3) ^ 2 by ring] at hL
    exact (Real.sqrt_le_sqrt hL).trans (Real.sqrt_sq (by positivity)).le
  have hf : ∀ L : ℝ, L ≤ h ^ 6 → B + A * ((s.feOrder.toNat * Real.sqrt L + 8 * h ^ 3) / (σ * h ^ 2) + Λ * h)
      ≤ B + A * ((s.feOrder.toNat + 8) / σ + Λ) * h := fun L hL => by
    have e1 : A * ((s.feOrder.toNat + 8) / σ + Λ) * h
        = A * ((s.feOrder.toNat * h ^ 3 + 8 * h ^ 3) / (σ * h ^ 2) + Λ * h) := by
      field_simp
    rw [e1]
    have := hs L hL
    gcongr
  obtain ⟨h4, h5⟩ := h3 B hB0 hB z hz
  exact hl.elim (fun hl => h4.trans (hf _ hl)) (fun hl => h5.trans (hf _ hl))

end

/-- The cells of an internal mesh. -/
lemma internal_grid (g : Geometry2D) {x y : ℝ × ℝ} (hx : x.1 < x.2) (hy : y.1 < y.2) (nx ny nb : ℕ)
    (smp : Fin 4 → Fin (nb / 4) → ℝ) : ∀ c ∈ (generateQuadMeshInternal g x y nx ny nb smp).cells, ∃ i < nx, ∃ j < ny,
      c = gridCell x y nx ny i j := by
  intro c hc
  obtain ⟨k, hk⟩ := List.mem_iff_getElem?.1 hc
  obtain ⟨hk', -⟩ := List.getElem?_eq_some_iff.1 hk
  rw [(C02_internal_cells g x y hx hy nx ny nb smp).1] at hk'
  obtain ⟨hi, hj, hkm⟩ := mem_internal_cells g x y hx hy nx ny nb smp k hk'
  rw [hk] at hkm
  exact ⟨_, hi, _, hj, Option.some.inj hkm⟩

lemma gridLine_step (a b : ℝ) (n i : ℕ) : gridLine a b n (i + 1) - gridLine a b n i = (b - a) / n := by
  simp only [gridLine]
  push_cast
  ring

lemma gridCell_area (x y : ℝ × ℝ) (nx ny i j : ℕ) :
    polygonArea (gridCell x y nx ny i j) = (x.2 - x.1) / nx * ((y.2 - y.1) / ny) := by
  rw [← gridLine_step x.1 x.2 nx i, ← gridLine_step y.1 y.2 ny j]
  simp only [polygonArea, gridCell, rectangle, Fin.sum_univ_four, Fin.reduceAdd, zero_add]
  simp
  ring

lemma gridCell_dist {x y : ℝ × ℝ} (hx : x.1 < x.2) (hy : y.1 < y.2) (nx ny i j : ℕ) (k l : Fin 4) :
    dist (gridCell x y nx ny i j k) (gridCell x y nx ny i j l) ≤ max ((x.2 - x.1) / nx) ((y.2 - y.1) / ny) := by
  have h1 := gridLine_step x.1 x.2 nx i
  have h2 := gridLine_step y.1 y.2 ny j
  have h3 : 0 ≤ (x.2 - x.1) / nx := by have := sub_pos.2 hx; positivity
  have h4 : 0 ≤ (y.2 - y.1) / ny := by have := sub_pos.2 hy; positivity
  rw [Prod.dist_eq]
  refine max_le_max ?_ ?_ <;> rw [Real.dist_eq, abs_le] <;> fin_cases k <;> fin_cases l <;>
    simp [gridCell, rectangle] <;> first | (constructor <;> linarith) | linarith

/-- **C97** (internal meshes).  On the mesh of `nx × ny` rectangles that `generate_quad_mesh_internal` makes for a
rectangle of the size `W × H`, for a network whose defect is Lipschitz continuous with constant `Λ`, the error is at
most the error on the boundary of the rectangle plus
`A ((N √L + 8 δ) nx ny / (W H) + Λ max (W / nx) (H / ny))`. -/
theorem C97_internal {V : Type} (g : Geometry2D) (x y : ℝ × ℝ) (hx : x.1 < x.2) (hy : y.1 < y.2) (nx ny nb : ℕ)
    (hnx : 0 < nx) (hny : 0 < ny) (smp : Fin 4 → Fin (nb / 4) → ℝ) (cells : List Quad)
    (hcells : cells = (generateQuadMeshInternal g x y nx ny nb smp).cells) {s : FESettings}
    {ψ : ℕ → ℕ → ℝ × ℝ → ℝ} {f ρ : ℝ → ℝ → ℝ} {nq : ℕ} {S : Fespace2D (ℝ → ℝ → ℝ) V (s.feOrder.toNat ^ 2) nq}
    {D : DataHandler2D (s.feOrder.toNat ^ 2) nq} (hty : s.feType ≠ "jacobi_plain")
    (hV : VariationalSetup cells s.feType s.feOrder.toNat ψ f) (hR : Discretised cells f s S D)
    (bdv : List (ℝ × ℝ) × List ℝ) (kind : LossKind) (hk : kind.forward) (p : ParamDict)
    (e : ℝ) (b : ℝ × ℝ) (r : ℝ) (hco : ConstantCoefficients kind p e b r) (u v : ℝ × ℝ → ℝ)
    (he : ErrorSetting (domain x y) e b r f ρ u v) (A : ℝ) (hA : StabilityFactor (domain x y) e b r A)
    (Λ δ : ℝ) (hΛ0 : 0 ≤ Λ) (hδ0 : 0 ≤ δ)
    (hΛ : ∀ z ∈ domain x y, ∀ w ∈ domain x y, |ρ z.1 z.2 - ρ w.1 w.2| ≤ Λ * dist z w)
    (hδ : IntegrandsNear (ruleDegree s.quadType s.quadOrder) cells s.feOrder.toNat ψ (fun _ => e) u b r f
      (fun _ _ => δ)) (net : Network 1) (hnet : RowWise net (fun _ => u)) (beta : ℝ) :
    ∃ out outH, trainStepDense (lossOf kind _ _ _) (modelDataOf D bdv S.nCells) net beta p = .ok out ∧
      trainStepHard (lossOf kind _ _ _) (modelDataOf D bdv S.nCells) net beta p = .ok outH ∧
      ∀ B, 0 ≤ B → (∀ z ∈ frontier (domain x y), |u z - v z| ≤ B) → ∀ z ∈ domain x y,
        |u z - v z| ≤ B + A * ((s.feOrder.toNat * Real.sqrt out.lossPde + 8 * δ) * (nx * ny)
          / ((x.2 - x.1) * (y.2 - y.1)) + Λ * max ((x.2 - x.1) / nx) ((y.2 - y.1) / ny)) ∧
        |u z - v z| ≤ B + A * ((s.feOrder.toNat * Real.sqrt outH.loss + 8 * δ) * (nx * ny)
          / ((x.2 - x.1) * (y.2 - y.1)) + Λ * max ((x.2 - x.1) / nx) ((y.2 - y.1) / ny)) := by
  have hmesh : meshSet cells = domain x y := by
    ext z
    rw [(C03_tiling g x y hx hy nx ny nb hnx hny smp).1 z, hcells]
    rfl
  have hgrid := internal_grid g hx hy nx ny nb smp
  rw [← hcells] at hgrid
  have hW := sub_pos.2 hx
  have hH := sub_pos.2 hy
  rw [← hmesh] at he hA hΛ ⊢
  obtain ⟨out, outH, h1, h2, h3, -⟩ := C97_error hty hV hR bdv kind hk p e b r hco u v he A hA δ
    ((x.2 - x.1) / nx * ((y.2 - y.1) / ny)) (Λ * max ((x.2 - x.1) / nx) ((y.2 - y.1) / ny)) hδ0 (by positivity) hδ
    (fun c hc => by
      obtain ⟨i, -, j, -, rfl⟩ := hgrid c hc
      exact (gridCell_area x y nx ny i j).ge)
    (oscillation_of_lipschitz hΛ0 (fun c hc z hz w hw =>
      hΛ z (cellSet_subset_meshSet hc hz) w (cellSet_subset_meshSet hc hw)) fun c hc k l => by
        obtain ⟨i, -, j, -, rfl⟩ := hgrid c hc
        exact gridCell_dist hx hy nx ny i j k l) net hnet beta
  have e1 : ∀ t : ℝ, t / ((x.2 - x.1) / nx * ((y.2 - y.1) / ny)) = t * (nx * ny) / ((x.2 - x.1) * (y.2 - y.1)) :=
    fun t => by
      have := hW.ne'
      have := hH.ne'
      field_simp
  simp only [e1] at h3
  exact ⟨out, outH, h1, h2, h3⟩

/-! ### Examples -/

/-- `-κ x² / 2` solves Poisson's equation with the forcing function `κ`. -/
lemma square_setting (κ : ℝ) (Ω : Set (ℝ × ℝ)) : ErrorSetting Ω 1 (0, 0) 0 (fun _ _ => κ)
    (strongDefect (fun _ => 1) (fun z => z.1 ^ 2) (0, 0) 0 fun _ _ => κ) (fun z => z.1 ^ 2)
    fun z => (-κ / 2) * z.1 ^ 2 := by
  have ha : IsPolynomial (fun i j => i + j ≤ 0) fun _ : ℝ × ℝ => (1 : ℝ) := const_polynomial 0 1
  have hf : IsPolynomial (fun i j => i + j ≤ 0 + 2) fun _ : ℝ × ℝ => κ := const_polynomial _ κ
  have hv : IsPolynomial (fun i j => i + j ≤ 2) fun z : ℝ × ℝ => (-κ / 2) * z.1 ^ 2 :=
    square_polynomial.const_mul _
  have hsol : ClassicalSolution Ω (fun _ => 1) (fun z => (-κ / 2) * z.1 ^ 2) (0, 0) 0 fun _ _ => κ := by
    have h1 := polynomial_defect (f := fun _ _ => κ) ha hv hf (0, 0) 0 Ω
    have e1 : strongDefect (fun _ => 1) (fun z => (-κ / 2) * z.1 ^ 2) (0, 0) 0 (fun _ _ => κ) = fun _ _ => 0 := by
      funext x y
      have d1 : dx (fun z : ℝ × ℝ => (-κ / 2) * z.1 ^ 2) = fun z => -κ * z.1 := by
        funext z
        simp [dx]
        ring
      have d2 : dy (fun z : ℝ × ℝ => (-κ / 2) * z.1 ^ 2) = fun _ => 0 := by
        funext z
        simp [dy]
      simp only [strongDefect, d1, d2]
      simp [dx, dy]
    rw [e1] at h1
    simpa using h1.solves
  exact ⟨one_pos, le_rfl, polynomial_defect (f := fun _ _ => κ) ha square_polynomial hf (0, 0) 0 _, hsol,
    fun z _ => square_polynomial.differentiable z, fun z _ => hv.differentiable z⟩

lemma square_integrands (κ : ℝ) {cells : List Quad} (hcells : ∀ c ∈ cells, ConvexCCW c) {ψ : ℕ → ℕ → ℝ × ℝ → ℝ}
    (hψ : ∀ k c, cells[k]? = some c → ∀ t < defectSettings.feOrder.toNat ^ 2,
      IsTestFunction defectSettings.feType defectSettings.feOrder.toNat c t (ψ k t)) :
    IntegrandsNear (ruleDegree defectSettings.quadType defectSettings.quadOrder) cells defectSettings.feOrder.toNat ψ
      (fun _ => 1) (fun z => z.1 ^ 2) (0, 0) 0 (fun _ _ => κ) fun _ _ => 0 :=
  integrandsNear_polynomial (f := fun _ _ => κ) (const_polynomial 0 1) square_polynomial (const_polynomial _ κ) (0, 0) 0
    hcells hψ (by decide)

lemma demo_area : AreaAtLeast demoCells 1 := fun c hc => by
  simp only [demoCells, List.mem_cons, List.not_mem_nil, or_false] at hc
  rcases hc with rfl | rfl <;> simp [polygonArea, Fin.sum_univ_four, squareCell, kiteCell] <;> norm_num

lemma square_oscillation (κ : ℝ) (cells : List Quad) :
    Oscillation cells (strongDefect (fun _ => 1) (fun z : ℝ × ℝ => z.1 ^ 2) (0, 0) 0 fun _ _ => κ) 0 := by
  intro c _ z _ y _
  rw [square_defect, square_defect]
  simp

/-- For the network `x²`, the forcing function `κ` and the solution `-κ x² / 2` of Poisson's equation on the mesh of a
unit square and a kite the bounds hold with the area 1, `δ = 0` and no oscillation. -/
example (κ beta : ℝ) (bdv : List (ℝ × ℝ) × List ℝ) :
    ∃ nq, ∃ S : Fespace2D (ℝ → ℝ → ℝ) ℝ (defectSettings.feOrder.toNat ^ 2) nq, ∃ D, ∃ out : TrainOut 1,
      ∃ outI : TrainOutInverse 1, Discretised demoCells (fun _ _ => κ) defectSettings S D ∧
      trainStepDense (lossOf .poisson _ _ _) (modelDataOf D bdv S.nCells) squareNet beta
        (some [("eps", 1)]) = .ok out ∧
      trainStepInverse (lossPoissonInverse _ _ _) (modelDataOf D bdv S.nCells)
        (fun _ : Fin 1 => ((1 / 2, 1 / 2) : ℝ × ℝ)) (fun _ => 1) (some [("eps", 1)]) squareNet beta none = .ok outI ∧
      ∀ B, 0 ≤ B → (∀ z ∈ frontier (meshSet demoCells), |z.1 ^ 2 - (-κ / 2) * z.1 ^ 2| ≤ B) →
        ∀ z ∈ meshSet demoCells, |z.1 ^ 2 - (-κ / 2) * z.1 ^ 2|
          ≤ B + 9 / 2 * ((5 * Real.sqrt out.lossPde + 8 * 0) / 1 + 0) ∧ |z.1 ^ 2 - (-κ / 2) * z.1 ^ 2|
          ≤ B + 9 / 2 * ((5 * Real.sqrt outI.lossPde + 8 * 0) / 1 + 0) := by
  have hcells : ∀ c ∈ demoCells, ConvexCCW c := fun c hc => (demo_cells_ok c hc).1
  obtain ⟨nq, S, D, hS⟩ := defect_space fun _ _ => κ
  obtain ⟨ψ, hψ⟩ := testFunctions_exist demoCells hcells defectSettings.feType defectSettings.feOrder.toNat
  have hA : StabilityFactor (meshSet demoCells) 1 (0, 0) 0 (9 / 2) :=
    Or.inl ⟨3, demo_width, Or.inl (by norm_num)⟩
  obtain ⟨out, _, h1, -, h2, -⟩ := C97_error (s := defectSettings) (by decide)
    ⟨hcells, hψ, fun _ _ => continuousOn_const⟩ hS bdv .poisson (Or.inl rfl) (some [("eps", 1)]) 1 (0, 0) 0
    ⟨1, ⟨_, rfl, rfl⟩, rfl, rfl, rfl⟩ _ _ (square_setting κ _) (9 / 2) hA 0 1 0 le_rfl one_pos
    (square_integrands κ hcells hψ) demo_area (square_oscillation κ _) squareNet (fun _ _ _ _ => rfl) beta
  obtain ⟨outI, h3, h4, -⟩ := C97_inverse (s := defectSettings) (by decide)
    ⟨hcells, hψ, fun _ _ => continuousOn_const⟩ hS bdv (fun _ : Fin 1 => ((1 / 2, 1 / 2) : ℝ × ℝ)) (fun _ => 1) none
    (some [("eps", 1)]) 1 ⟨_, rfl, rfl⟩ _ _ (square_setting κ _) (9 / 2) hA 0 1 0 le_rfl one_pos
    (square_integrands κ hcells hψ) demo_area (square_oscillation κ _) squareNet (fun _ _ _ _ => rfl) beta
  exact ⟨nq, S, D, out, outI, hS, h1, h3, fun B hB0 hB z hz => ⟨by simpa [defectSettings] using (h2 B hB0 hB z hz).1,
    by simpa [defectSettings] using h4 B hB0 hB z hz⟩⟩

/-- The coefficient field `4 + x` and the solution `x` for it: the defect of `x²` varies by at most 12 on a cell. -/
example (beta w : ℝ) (bdv : List (ℝ × ℝ) × List ℝ) :
    ∃ nq, ∃ S : Fespace2D (ℝ → ℝ → ℝ) ℝ (defectSettings.feOrder.toNat ^ 2) nq, ∃ D, ∃ out : TrainOutInverse 1,
      Discretised demoCells (fun _ _ => -1) defectSettings S D ∧
      trainStepInverseDomain (lossCd2dInverseDomain _ _ _) (modelDataOf D bdv S.nCells)
        (fun _ : Fin 1 => ((1 / 2, 1 / 2) : ℝ × ℝ)) (fun _ => w) fieldNet beta
        (some [("b_x", 0), ("b_y", 0), ("c", 0)]) = .ok out ∧
      ∀ B, 0 ≤ B → (∀ z ∈ frontier (meshSet demoCells), |z.1 ^ 2 - z.1| ≤ B) → ∀ z ∈ meshSet demoCells,
        |z.1 ^ 2 - z.1| ≤ B + (Real.exp 3 - 1) / 3 * ((5 * Real.sqrt out.lossPde + 8 * 0) / 1 + 12) := by
  have hcells : ∀ c ∈ demoCells, ConvexCCW c := fun c hc => (demo_cells_ok c hc).1
  obtain ⟨nq, S, D, hS⟩ := defect_space fun _ _ => -1
  obtain ⟨ψ, hψ⟩ := testFunctions_exist demoCells hcells defectSettings.feType defectSettings.feOrder.toNat
  have hf : IsPolynomial (fun i j => i + j ≤ 1 + 2) fun _ : ℝ × ℝ => (-1 : ℝ) := const_polynomial _ _
  have e1 : ∀ x y, strongDefect (fun z => 4 + z.1) (fun z : ℝ × ℝ => z.1 ^ 2) (0, 0) 0 (fun _ _ => -1) x y
      = -7 - 4 * x := by
    intro x y
    have d1 : dx (fun z : ℝ × ℝ => z.1 ^ 2) = fun z => 2 * z.1 := by
      funext z
      simp [dx]
    have d2 : dy (fun z : ℝ × ℝ => z.1 ^ 2) = fun _ => 0 := by
      funext z
      simp [dy]
    have d3 : dx (fun z : ℝ × ℝ => (4 + z.1) * (2 * z.1)) (x, y) = 8 + 4 * x := by
      have h := (((hasDerivAt_id x).const_add 4).mul ((hasDerivAt_id x).const_mul 2)).deriv
      simp only [dx]
      refine (h.trans ?_)
      simp
      ring
    simp only [strongDefect, d1, d2, d3]
    simp [dy]
    ring
  have hosc : Oscillation demoCells
      (strongDefect (fun z => 4 + z.1) (fun z : ℝ × ℝ => z.1 ^ 2) (0, 0) 0 fun _ _ => -1) 12 := by
    intro c hc z hz y hy
    obtain ⟨x0, hw⟩ := demo_width
    have h1 := hw z ⟨c, hc, hz⟩
    have h2 := hw y ⟨c, hc, hy⟩
    rw [e1, e1, abs_le]
    constructor <;> linarith [h1.1, h1.2, h2.1, h2.2]
  obtain ⟨out, h1, h2, -⟩ := C97_field (s := defectSettings) (by decide)
    ⟨hcells, hψ, fun _ _ => continuousOn_const⟩ hS bdv (fun _ : Fin 1 => ((1 / 2, 1 / 2) : ℝ × ℝ)) (fun _ => w)
    (some [("b_x", 0), ("b_y", 0), ("c", 0)]) (0, 0) 0 ⟨_, rfl, rfl⟩ ⟨_, rfl, rfl⟩ ⟨_, rfl, rfl⟩ _ _ _ field_setting _
    field_factor 0 1 12 le_rfl one_pos
    (integrandsNear_polynomial (f := fun _ _ => -1) field_polynomial square_polynomial hf (0, 0) 0 hcells hψ (by decide))
    demo_area hosc fieldNet (fun _ _ _ _ => by rename_i j; fin_cases j <;> rfl) beta
  exact ⟨nq, S, D, out, hS, h1, fun B hB0 hB z hz => by simpa [defectSettings] using h2 B hB0 hB z hz⟩

/-- A space on the internal mesh of `2 × 3` cells of the unit square. -/
lemma internal_space (f : ℝ → ℝ → ℝ) (g : Geometry2D) (smp : Fin 4 → Fin (8 / 4) → ℝ) :
    ∃ nq, ∃ S : Fespace2D (ℝ → ℝ → ℝ) ℝ (defectSettings.feOrder.toNat ^ 2) nq, ∃ D,
      Discretised (generateQuadMeshInternal g (0, 1) (0, 1) 2 3 8 smp).cells f defectSettings S D := by
  obtain ⟨ext, h1, -⟩ := quadRoutines_exist
  have hr : RoutinesOK ext 6 "gauss-legendre" := ⟨fun _ => h1 _ (by decide), fun h => absurd h (by decide)⟩
  have hlen := (C02_internal_cells g (0, 1) (0, 1) (by norm_num) (by norm_num) 2 3 8 smp).1
  obtain ⟨nq, S, h⟩ := (C63_constructor ext [(0, 0), (1, 1)] (generateQuadMeshInternal g (0, 1) (0, 1) 2 3 8 smp).cells
    demoBoundary defectSettings demoDict f).2 ⟨rfl, fun h0 => by rw [h0] at hlen; simp at hlen,
      by simp [defectSettings], by simp [defectSettings, supportedFeType], by simp [defectSettings], Or.inl rfl,
      Or.inl rfl, by
        intro e he _
        simp only [demoBoundary, List.mem_cons, List.not_mem_nil, or_false] at he
        rcases he with rfl | rfl
        · exact ⟨fun x y => x * y, rfl⟩
        · exact ⟨fun x _ => x, rfl⟩⟩
  obtain ⟨-, D, S', hD, -⟩ := C41_layout ext _ _ _ _ _ _ _ S h
  exact ⟨nq, S, D, ⟨ext, _, _, _, _, S', h, hr, hD⟩, fun h => absurd h (by decide)⟩

/-- The same network and solution on the internal mesh of `2 × 3` cells of the unit square; the second bound is that of
`C97_first_order` with `h = 1 / 2` and `σ = 2 / 3`. -/
example (κ beta : ℝ) (bdv : List (ℝ × ℝ) × List ℝ) (g : Geometry2D) (smp : Fin 4 → Fin (8 / 4) → ℝ) :
    ∃ nq, ∃ S : Fespace2D (ℝ → ℝ → ℝ) ℝ (defectSettings.feOrder.toNat ^ 2) nq, ∃ D, ∃ out : TrainOut 1,
      Discretised (generateQuadMeshInternal g (0, 1) (0, 1) 2 3 8 smp).cells (fun _ _ => κ) defectSettings S D ∧
      trainStepDense (lossOf .poisson _ _ _) (modelDataOf D bdv S.nCells) squareNet beta
        (some [("eps", 1)]) = .ok out ∧
      ∀ B, 0 ≤ B → (∀ z ∈ frontier (domain (0, 1) (0, 1)), |z.1 ^ 2 - (-κ / 2) * z.1 ^ 2| ≤ B) →
        ∀ z ∈ domain (0, 1) (0, 1), |z.1 ^ 2 - (-κ / 2) * z.1 ^ 2|
          ≤ B + 1 / 2 * ((5 * Real.sqrt out.lossPde + 8 * 0) * 6) ∧
        (out.lossPde ≤ (1 / 2) ^ 6 → |z.1 ^ 2 - (-κ / 2) * z.1 ^ 2|
          ≤ B + 1 / 2 * ((5 + 8) / (2 / 3) + 0) * (1 / 2)) := by
  have hx : ((0, 1) : ℝ × ℝ).1 < ((0, 1) : ℝ × ℝ).2 := by norm_num
  have hgrid := internal_grid g hx hx 2 3 8 smp
  have hmesh : meshSet (generateQuadMeshInternal g (0, 1) (0, 1) 2 3 8 smp).cells = domain (0, 1) (0, 1) := by
    ext z
    rw [(C03_tiling g (0, 1) (0, 1) hx hx 2 3 8 (by norm_num) (by norm_num) smp).1 z]
    rfl
  have hcells : ∀ c ∈ (generateQuadMeshInternal g (0, 1) (0, 1) 2 3 8 smp).cells, ConvexCCW c := fun c hc => by
    obtain ⟨i, -, j, -, rfl⟩ := hgrid c hc
    exact convexCCW_gridCell hx hx i j (by norm_num) (by norm_num)
  obtain ⟨nq, S, D, hS⟩ := internal_space (fun _ _ => κ) g smp
  obtain ⟨ψ, hψ⟩ := testFunctions_exist _ hcells defectSettings.feType defectSettings.feOrder.toNat
  have hA : StabilityFactor (domain (0, 1) (0, 1)) 1 (0, 0) 0 (1 / 2) :=
    Or.inl ⟨1, ⟨0, fun z hz => ⟨hz.1.1, by simpa using hz.1.2⟩⟩, Or.inl (by norm_num)⟩
  have hd : ∀ z y : ℝ × ℝ, |strongDefect (fun _ => 1) (fun z : ℝ × ℝ => z.1 ^ 2) (0, 0) 0 (fun _ _ => κ) z.1 z.2
      - strongDefect (fun _ => 1) (fun z : ℝ × ℝ => z.1 ^ 2) (0, 0) 0 (fun _ _ => κ) y.1 y.2| ≤ 0 * dist z y := by
    intro z y
    rw [square_defect, square_defect]
    simp
  obtain ⟨out, outH, h1, h2, h3⟩ := C97_internal g (0, 1) (0, 1) hx hx 2 3 8 (by norm_num) (by norm_num) smp _ rfl
    (s := defectSettings) (by decide) ⟨hcells, hψ, fun _ _ => continuousOn_const⟩ hS bdv .poisson (Or.inl rfl)
    (some [("eps", 1)]) 1 (0, 0) 0 ⟨1, ⟨_, rfl, rfl⟩, rfl, rfl, rfl⟩ _ _ (square_setting κ _) (1 / 2) hA 0 0 le_rfl
    le_rfl (fun z _ y _ => hd z y) (square_integrands κ hcells hψ) squareNet (fun _ _ _ _ => rfl) beta
  obtain ⟨out', outH', h1', h2', h3'⟩ := C97_first_order (s := defectSettings) (by decide)
    ⟨hcells, hψ, fun _ _ => continuousOn_const⟩ hS bdv .poisson (Or.inl rfl)
    (some [("eps", 1)]) 1 (0, 0) 0 ⟨1, ⟨_, rfl, rfl⟩, rfl, rfl, rfl⟩ _ _ (square_setting κ _) (1 / 2) (hmesh ▸ hA)
    (1 / 2) (2 / 3) 0 (by norm_num) (by norm_num) le_rfl (fun c hc k l => by
      obtain ⟨i, -, j, -, rfl⟩ := hgrid c hc
      refine (gridCell_dist hx hx 2 3 i j k l).trans ?_
      norm_num) (fun c hc => by
      obtain ⟨i, -, j, -, rfl⟩ := hgrid c hc
      rw [gridCell_area]
      norm_num) (fun c _ z _ y _ => hd z y) (fun k c hk t ht => by
      obtain ⟨P, hP, h⟩ := square_integrands κ hcells hψ k c hk t ht
      exact ⟨P, hP, fun ξ hξ η hη => (h ξ hξ η hη).trans (by norm_num)⟩) squareNet (fun _ _ _ _ => rfl) beta
  have hN : (defectSettings.feOrder.toNat : ℝ) = 5 := by simp [defectSettings]
  obtain rfl : out = out' := Except.ok.inj (h1.symm.trans h1')
  refine ⟨nq, S, D, out, hS, h1, fun B hB0 hB z hz => ⟨?_, fun hl => ?_⟩⟩
  · have := (h3 B hB0 hB z hz).1
    rw [hN] at this
    norm_num at this ⊢
    linarith
  · have := h3' B hB0 (by rw [hmesh]; exact hB) (Or.inl hl) z (by rw [hmesh]; exact hz)
    rw [hN] at this
    norm_num at this ⊢
    linarith

end FastVPINNs
