import Verif.Lemmas.MaxPrinciple
import Verif.Lemmas.MomentBound

/-! # C90: a small loss means a small error of the solution -/

namespace FastVPINNs

open Spec Topology

/-- `v` is a classical solution on `Ω` of the equation with constant coefficients, and `u` has the defect `ρ`. -/
structure Spec.ErrorSetting (Ω : Set (ℝ × ℝ)) (e : ℝ) (b : ℝ × ℝ) (r : ℝ) (f ρ : ℝ → ℝ → ℝ) (u v : ℝ × ℝ → ℝ) :
    Prop where
  diffusion : 0 < e
  reaction : 0 ≤ r
  defect : IsDefect Ω (fun _ => e) u b r f ρ
  solution : ClassicalSolution Ω (fun _ => e) v b r f
  diffU : ∀ z ∈ interior Ω, DifferentiableAt ℝ u z
  diffV : ∀ z ∈ interior Ω, DifferentiableAt ℝ v z

lemma Spec.ClassicalSolution.mono {K K' : Set (ℝ × ℝ)} (h : K' ⊆ K) {a u : ℝ × ℝ → ℝ} {b : ℝ × ℝ} {r : ℝ}
    {f : ℝ → ℝ → ℝ} (hu : ClassicalSolution K a u b r f) : ClassicalSolution K' a u b r f :=
  ⟨⟨hu.smooth.val.mono h, hu.smooth.dx.mono h, hu.smooth.dy.mono h⟩, hu.coefficient.mono h,
    fun z hz => hu.fluxX z (interior_mono h hz), fun z hz => hu.fluxY z (interior_mono h hz),
    fun z hz => hu.solves z (interior_mono h hz)⟩

lemma Spec.IsDefect.mono {K K' : Set (ℝ × ℝ)} (h : K' ⊆ K) {a u : ℝ × ℝ → ℝ} {b : ℝ × ℝ} {r : ℝ}
    {f ρ : ℝ → ℝ → ℝ} (hu : IsDefect K a u b r f ρ) : IsDefect K' a u b r f ρ :=
  ⟨hu.continuous.mono h, hu.solves.mono h⟩

lemma cellSet_subset_meshSet {cells : List Quad} {c : Quad} (hc : c ∈ cells) : cellSet c ⊆ meshSet cells :=
  fun _ hz => ⟨c, hc, hz⟩

lemma meshSet_compact (cells : List Quad) : IsCompact (meshSet cells) := by
  rw [meshSet_eq]
  exact isCompact_iUnion fun k => cellSet_compact _

/-- The partial derivatives of a classical solution are differentiable. -/
lemma partials_differentiable {K : Set (ℝ × ℝ)} {e : ℝ} (he : 0 < e) {u : ℝ × ℝ → ℝ} {b : ℝ × ℝ} {r : ℝ}
    {f : ℝ → ℝ → ℝ} (hu : ClassicalSolution K (fun _ => e) u b r f) {z : ℝ × ℝ} (hz : z ∈ interior K) :
    DifferentiableAt ℝ (dx u) z ∧ DifferentiableAt ℝ (dy u) z := by
  have e1 : ∀ w : ℝ × ℝ → ℝ, (fun z => e⁻¹ * (e * w z)) = w := fun w => by
    funext z
    rw [inv_mul_cancel_left₀ he.ne']
  exact ⟨by rw [← e1 (dx u)]; exact (hu.fluxX z hz).const_mul _, by rw [← e1 (dy u)]; exact (hu.fluxY z hz).const_mul _⟩

lemma solves_operator {K : Set (ℝ × ℝ)} {e : ℝ} {u : ℝ × ℝ → ℝ} {b : ℝ × ℝ} {r : ℝ}
    {f : ℝ → ℝ → ℝ} (hu : ClassicalSolution K (fun _ => e) u b r f) {z : ℝ × ℝ} (hz : z ∈ interior K) :
    operator e b r u z = f z.1 z.2 := by
  rw [← hu.solves z hz, operator]
  have e1 : dx (fun z => e * dx u z) z = e * dx (dx u) z := deriv_const_mul_field _
  have e2 : dy (fun z => e * dy u z) z = e * dy (dy u) z := deriv_const_mul_field _
  rw [e1, e2]
  ring

lemma dx_sub_at {u v : ℝ × ℝ → ℝ} {z : ℝ × ℝ} (hu : DifferentiableAt ℝ u z) (hv : DifferentiableAt ℝ v z) :
    dx (fun z => u z - v z) z = dx u z - dx v z :=
  ((hasDerivAt_slice_x hu).sub (hasDerivAt_slice_x hv)).deriv

lemma dy_sub_at {u v : ℝ × ℝ → ℝ} {z : ℝ × ℝ} (hu : DifferentiableAt ℝ u z) (hv : DifferentiableAt ℝ v z) :
    dy (fun z => u z - v z) z = dy u z - dy v z :=
  ((hasDerivAt_slice_y hu).sub (hasDerivAt_slice_y hv)).deriv

/-- The error solves the equation with the defect as right-hand side. -/
lemma error_operator {Ω : Set (ℝ × ℝ)} {e : ℝ} {b : ℝ × ℝ} {r : ℝ} {f ρ : ℝ → ℝ → ℝ} {u v : ℝ × ℝ → ℝ}
    (h : ErrorSetting Ω e b r f ρ u v) : TwiceOn (interior Ω) (fun z => u z - v z) ∧
      ∀ z ∈ interior Ω, operator e b r (fun z => u z - v z) z = ρ z.1 z.2 := by
  have hU : IsOpen (interior Ω) := isOpen_interior
  have hx : ∀ z ∈ interior Ω, dx (fun z => u z - v z) =ᶠ[𝓝 z] fun z => dx u z - dx v z := fun z hz => by
    filter_upwards [hU.mem_nhds hz] with y hy
    exact dx_sub_at (h.diffU y hy) (h.diffV y hy)
  have hy : ∀ z ∈ interior Ω, dy (fun z => u z - v z) =ᶠ[𝓝 z] fun z => dy u z - dy v z := fun z hz => by
    filter_upwards [hU.mem_nhds hz] with y hy
    exact dy_sub_at (h.diffU y hy) (h.diffV y hy)
  have pu : ∀ z ∈ interior Ω, DifferentiableAt ℝ (dx u) z ∧ DifferentiableAt ℝ (dy u) z := fun z hz =>
    partials_differentiable h.diffusion h.defect.solves hz
  have pv : ∀ z ∈ interior Ω, DifferentiableAt ℝ (dx v) z ∧ DifferentiableAt ℝ (dy v) z := fun z hz =>
    partials_differentiable h.diffusion h.solution hz
  refine ⟨⟨fun z hz => (h.diffU z hz).sub (h.diffV z hz), fun z hz => ?_, fun z hz => ?_⟩, fun z hz => ?_⟩
  · exact ((pu z hz).1.sub (pv z hz).1).congr_of_eventuallyEq (hx z hz)
  · exact ((pu z hz).2.sub (pv z hz).2).congr_of_eventuallyEq (hy z hz)
  · have e1 : dx (dx fun z => u z - v z) z = dx (dx u) z - dx (dx v) z := by
      rw [← dx_sub_at (pu z hz).1 (pv z hz).1]
      refine Filter.EventuallyEq.deriv_eq ?_
      filter_upwards [slice_x_eventually hU hz] with s hs
      exact dx_sub_at (h.diffU _ hs) (h.diffV _ hs)
    have e2 : dy (dy fun z => u z - v z) z = dy (dy u) z - dy (dy v) z := by
      rw [← dy_sub_at (pu z hz).2 (pv z hz).2]
      refine Filter.EventuallyEq.deriv_eq ?_
      filter_upwards [slice_y_eventually hU hz] with s hs
      exact dy_sub_at (h.diffU _ hs) (h.diffV _ hs)
    have o1 := solves_operator h.defect.solves hz
    have o2 := solves_operator h.solution hz
    have e3 := dx_sub_at (h.diffU z hz) (h.diffV z hz)
    have e4 := dy_sub_at (h.diffU z hz) (h.diffV z hz)
    rw [operator] at o1 o2 ⊢
    rw [e1, e2, e3, e4]
    linarith

/-- **C90** (the continuous problem).  If the defect is at most `σ` and the error at the boundary at most `B`, then
the error is at most `B + A σ` on the whole domain, where `A` is any of the stability factors. -/
theorem C90_stability (Ω : Set (ℝ × ℝ)) (hΩ : IsCompact Ω) (e : ℝ) (b : ℝ × ℝ) (r : ℝ) (f ρ : ℝ → ℝ → ℝ)
    (u v : ℝ × ℝ → ℝ) (h : ErrorSetting Ω e b r f ρ u v) (A : ℝ) (hA : StabilityFactor Ω e b r A) (B σ : ℝ)
    (hB0 : 0 ≤ B) (hσ0 : 0 ≤ σ) (hB : ∀ z ∈ frontier Ω, |u z - v z| ≤ B)
    (hσ : ∀ z ∈ interior Ω, |ρ z.1 z.2| ≤ σ) : ∀ z ∈ Ω, |u z - v z| ≤ B + A * σ := fun z hz => by
  obtain ⟨hd, hop⟩ := error_operator h
  refine max_principle hΩ (w := fun z => u z - v z) (h.defect.solves.smooth.val.sub h.solution.smooth.val) hd
    h.diffusion h.reaction hA hB0 hσ0 (fun z hz hi => hB z ?_) (fun z hz => ?_) hz
  · rw [hΩ.isClosed.frontier_eq]
    exact ⟨hz, hi⟩
  · rw [hop z hz]
    exact hσ z hz

/-- The error from residuals that are near the weak forms. -/
lemma error_le_residuals {cells : List Quad} (hcells : ∀ c ∈ cells, ConvexCCW c) {ty : String}
    (hty : ty ≠ "jacobi_plain") (N : ℕ) : ∃ C : ℝ, 0 ≤ C ∧
    ∀ (ψ : ℕ → ℕ → ℝ × ℝ → ℝ) (f ρ : ℝ → ℝ → ℝ), VariationalSetup cells ty N ψ f →
      ∀ (e : ℝ) (b : ℝ × ℝ) (r : ℝ) (u v : ℝ × ℝ → ℝ), ErrorSetting (meshSet cells) e b r f ρ u v →
      ∀ A, StabilityFactor (meshSet cells) e b r A → ∀ δ τ : ℝ, 0 ≤ δ → 0 ≤ τ → DensityNear cells N ρ τ →
      ∀ R : Fin cells.length → Fin (N ^ 2) → ℝ,
      ResidualsNear cells N ψ (fun _ => e) u b r f (fun _ _ => δ) R →
      ∀ B, 0 ≤ B → (∀ z ∈ frontier (meshSet cells), |u z - v z| ≤ B) →
      ∀ z ∈ meshSet cells, |u z - v z| ≤ B + A * (C * (Real.sqrt (∑ k, meanSq (R k)) + δ + τ)) := by
  obtain ⟨C, hC, hb⟩ := defect_bound hcells hty N
  refine ⟨C * (N + 8), by positivity, ?_⟩
  intro ψ f ρ hV e b r u v h A hA δ τ hδ hτ hτP R hR B hB0 hB
  set L := Real.sqrt (∑ k, meanSq (R k)) with hL
  have hL0 : 0 ≤ L := Real.sqrt_nonneg _
  have h1 := hb ψ f ρ hV (fun _ => e) u b r (fun c hc => h.defect.mono (cellSet_subset_meshSet hc))
    (N * L + 8 * δ) τ (by positivity) hτ hτP fun k c hk t ht => weak_le_loss hR hk ht
  have hN : (0 : ℝ) ≤ N := Nat.cast_nonneg N
  refine C90_stability _ (meshSet_compact cells) e b r f ρ u v h A hA B _ hB0 (by positivity) hB fun z hz =>
    (h1 z (interior_subset hz)).trans ?_
  rw [mul_assoc]
  refine mul_le_mul_of_nonneg_left ?_ hC
  nlinarith [mul_nonneg hN hδ, mul_nonneg hN hτ]

lemma abs_le_meanSq {n : ℕ} (x : Fin n → ℝ) (i : Fin n) : |x i| ≤ Real.sqrt (n * meanSq x) := by
  have hpos : (0 : ℝ) < n := by exact_mod_cast i.pos
  rw [← Real.sqrt_sq_eq_abs]
  refine Real.sqrt_le_sqrt ?_
  unfold meanSq
  rw [mul_div_cancel₀ _ hpos.ne', sq]
  exact Finset.single_le_sum (f := fun t => x t * x t) (fun _ _ => mul_self_nonneg _) (Finset.mem_univ i)

lemma width_nonneg {Ω : Set (ℝ × ℝ)} {s : ℝ × ℝ → ℝ} {X : ℝ} (h : Width Ω s X) (hne : Ω.Nonempty) : 0 ≤ X := by
  obtain ⟨x₀, h⟩ := h
  obtain ⟨z, hz⟩ := hne
  linarith [h z hz]

lemma stability_nonneg {Ω : Set (ℝ × ℝ)} {e : ℝ} (he : 0 < e) {b : ℝ × ℝ} {r A : ℝ}
    (hA : StabilityFactor Ω e b r A) (hne : Ω.Nonempty) : 0 ≤ A := by
  rcases hA with ⟨X, hX, rfl | ⟨-, rfl⟩⟩ | ⟨X, hX, rfl | ⟨-, rfl⟩⟩ | ⟨hr, rfl⟩
  · positivity
  · have := width_nonneg hX hne
    positivity
  · positivity
  · have := width_nonneg hX hne
    positivity
  · positivity

/-- The error at the points of the boundary is within `ω` of the error at one of the boundary points of the
training, where the boundary values are those of the solution. -/
def Spec.BoundarySampled (Ω : Set (ℝ × ℝ)) (bdv : List (ℝ × ℝ) × List ℝ) (u v : ℝ × ℝ → ℝ) (ω : ℝ) : Prop :=
  (∀ i : Fin bdv.1.length, bdv.2.getD i.val 0 = v (bdv.1.get i)) ∧
  ∀ z ∈ frontier Ω, ∃ i : Fin bdv.1.length, |(u z - v z) - (u (bdv.1.get i) - v (bdv.1.get i))| ≤ ω

lemma boundary_error {Ω : Set (ℝ × ℝ)} {bdv : List (ℝ × ℝ) × List ℝ} {u v : ℝ × ℝ → ℝ} {ω : ℝ}
    (h : BoundarySampled Ω bdv u v ω) {z : ℝ × ℝ} (hz : z ∈ frontier Ω) : |u z - v z| ≤ ω
      + Real.sqrt (bdv.1.length * meanSq fun i : Fin bdv.1.length => u (bdv.1.get i) - bdv.2.getD i.val 0) := by
  obtain ⟨i, hi⟩ := h.2 z hz
  have h1 := abs_le_meanSq (fun i : Fin bdv.1.length => u (bdv.1.get i) - bdv.2.getD i.val 0) i
  simp only [h.1] at h1 ⊢
  have h2 := abs_sub_abs_le_abs_sub (u z - v z) (u (bdv.1.get i) - v (bdv.1.get i))
  linarith

/-- **C90.**  For strictly convex cells and a test space that vanishes on the edges there is a constant `C`, which
depends only on the cells, the family and the order of the test space, with the following property.  Let the
network be a function `u` with a continuous defect, and `v` a classical solution on the whole mesh, of an equation
with constant coefficients, `e > 0` and `r ≥ 0`.  If `u` is within `B` of `v` on the boundary of the mesh, then
`u` is within `B + A C (√L + δ + τ)` of `v` everywhere.  Here `L` is the PDE loss that `DenseModel` reports or the
loss that `DenseModel_Hard` reports, `A` is any stability factor of the domain, `δ` is the distance of the
integrands from the polynomials that the rule integrates exactly, and `τ` is the distance of the defect from the
polynomials of degree less than the order of the test space. -/
theorem C90_train_step (cells : List Quad) (hcells : ∀ c ∈ cells, ConvexCCW c) (ty : String)
    (hty : ty ≠ "jacobi_plain") (N : ℕ) : ∃ C : ℝ, 0 ≤ C ∧
    ∀ {V : Type} (s : FESettings), s.feType = ty → s.feOrder.toNat = N → ∀ (ψ : ℕ → ℕ → ℝ × ℝ → ℝ)
      (f ρ : ℝ → ℝ → ℝ), VariationalSetup cells s.feType s.feOrder.toNat ψ f → ∀ {nq : ℕ}
      (S : Fespace2D (ℝ → ℝ → ℝ) V (s.feOrder.toNat ^ 2) nq) (D : DataHandler2D (s.feOrder.toNat ^ 2) nq),
      Discretised cells f s S D → ∀ (bdv : List (ℝ × ℝ) × List ℝ) (kind : LossKind), kind.forward →
      ∀ (p : ParamDict) (e : ℝ) (b : ℝ × ℝ) (r : ℝ), ConstantCoefficients kind p e b r →
      ∀ (u v : ℝ × ℝ → ℝ), ErrorSetting (meshSet cells) e b r f ρ u v →
      ∀ A, StabilityFactor (meshSet cells) e b r A → ∀ δ τ : ℝ, 0 ≤ δ → 0 ≤ τ →
      IntegrandsNear (ruleDegree s.quadType s.quadOrder) cells s.feOrder.toNat ψ (fun _ => e) u b r f
        (fun _ _ => δ) → DensityNear cells s.feOrder.toNat ρ τ →
      ∀ (net : Network 1), RowWise net (fun _ => u) → ∀ beta : ℝ,
      ∃ out outH, trainStepDense (lossOf kind _ _ _) (modelDataOf D bdv S.nCells) net beta p = .ok out ∧
        trainStepHard (lossOf kind _ _ _) (modelDataOf D bdv S.nCells) net beta p = .ok outH ∧
        (∀ B, 0 ≤ B → (∀ z ∈ frontier (meshSet cells), |u z - v z| ≤ B) → ∀ z ∈ meshSet cells,
          |u z - v z| ≤ B + A * (C * (Real.sqrt out.lossPde + δ + τ)) ∧
          |u z - v z| ≤ B + A * (C * (Real.sqrt outH.loss + δ + τ))) ∧
        (∀ ω, 0 ≤ ω → BoundarySampled (meshSet cells) bdv u v ω → ∀ z ∈ meshSet cells,
          |u z - v z| ≤ ω + Real.sqrt (bdv.1.length * out.lossDirichlet 0)
            + A * (C * (Real.sqrt out.lossPde + δ + τ)) ∧
          (0 < beta → |u z - v z| ≤ ω + Real.sqrt (bdv.1.length * (out.loss 0 / beta))
            + A * (C * (Real.sqrt (out.loss 0) + δ + τ)))) := by
  obtain ⟨C, hC, hb⟩ := error_le_residuals hcells hty N
  refine ⟨C, hC, ?_⟩
  rintro V s rfl rfl ψ f ρ hV nq S D hR bdv kind hk p e b r hco u v h A hA δ τ hδ0 hτ0 hδ hτ net hnet beta
  have hsm : ∀ c ∈ cells, SmoothOn (cellSet c) u := fun c hc =>
    (h.defect.mono (cellSet_subset_meshSet hc)).solves.smooth
  obtain ⟨out, outH, R, h1, h2, h3, h4, h5⟩ := C69_train_step hV hR bdv kind hk p e b r hco u hsm _ hδ net hnet beta
  obtain ⟨pt, -, hsh, -⟩ := pdeLoss_close hV hR bdv (fun _ _ => continuousOn_const) hsm hδ
  obtain ⟨-, -, -, -, -, e2, e3, -⟩ := (C47_dense _ pt hsh beta p kind hk net (fun _ => u) hnet).2 out h1
  have key := hb ψ f ρ hV e b r u v h A hA δ τ hδ0 hτ0 hτ R h5
  refine ⟨out, outH, h1, h2, fun B hB0 hB z hz => ?_, fun ω hω hbd z hz => ?_⟩
  · rw [h3, h4]
    exact ⟨key B hB0 hB z hz, key B hB0 hB z hz⟩
  · have h6 := key (ω + Real.sqrt (bdv.1.length * out.lossDirichlet 0)) (by positivity)
      (fun y hy => by rw [e2]; exact boundary_error hbd hy) z hz
    rw [← h3] at h6
    refine ⟨h6, fun hbeta => h6.trans ?_⟩
    have hd0 : 0 ≤ out.lossDirichlet 0 := by rw [e2]; exact meanSq_nonneg _
    have hp0 : 0 ≤ out.lossPde := by rw [h3]; exact Finset.sum_nonneg fun _ _ => meanSq_nonneg _
    have g1 : out.lossPde ≤ out.loss 0 := by rw [e3]; nlinarith
    have g2 : out.lossDirichlet 0 ≤ out.loss 0 / beta := by
      rw [le_div_iff₀ hbeta, e3]
      nlinarith
    have hA0 : 0 ≤ A := stability_nonneg h.diffusion hA ⟨z, hz⟩
    gcongr

/-- **C90** (inverse problems, constant coefficient).  The same for `DenseModel_Inverse`, with the solution `v` of
the problem for the current value of the parameter. -/
theorem C90_inverse (cells : List Quad) (hcells : ∀ c ∈ cells, ConvexCCW c) (ty : String)
    (hty : ty ≠ "jacobi_plain") (N : ℕ) : ∃ C : ℝ, 0 ≤ C ∧
    ∀ {V : Type} (s : FESettings), s.feType = ty → s.feOrder.toNat = N → ∀ (ψ : ℕ → ℕ → ℝ × ℝ → ℝ)
      (f ρ : ℝ → ℝ → ℝ), VariationalSetup cells s.feType s.feOrder.toNat ψ f → ∀ {nq : ℕ}
      (S : Fespace2D (ℝ → ℝ → ℝ) V (s.feOrder.toNat ^ 2) nq) (D : DataHandler2D (s.feOrder.toNat ^ 2) nq),
      Discretised cells f s S D → ∀ (bdv : List (ℝ × ℝ) × List ℝ) {nS : ℕ} (sp : Fin nS → ℝ × ℝ) (sv : Fin nS → ℝ)
      (p ip : ParamDict) (e : ℝ), HasParam ip "eps" e →
      ∀ (u v : ℝ × ℝ → ℝ), ErrorSetting (meshSet cells) e (0, 0) 0 f ρ u v →
      ∀ A, StabilityFactor (meshSet cells) e (0, 0) 0 A → ∀ δ τ : ℝ, 0 ≤ δ → 0 ≤ τ →
      IntegrandsNear (ruleDegree s.quadType s.quadOrder) cells s.feOrder.toNat ψ (fun _ => e) u (0, 0) 0 f
        (fun _ _ => δ) → DensityNear cells s.feOrder.toNat ρ τ →
      ∀ (net : Network 1), RowWise net (fun _ => u) → ∀ beta : ℝ,
      ∃ out, trainStepInverse (lossPoissonInverse _ _ _) (modelDataOf D bdv S.nCells) sp sv ip net beta p
          = .ok out ∧
        (∀ B, 0 ≤ B → (∀ z ∈ frontier (meshSet cells), |u z - v z| ≤ B) → ∀ z ∈ meshSet cells,
          |u z - v z| ≤ B + A * (C * (Real.sqrt out.lossPde + δ + τ))) ∧
        (∀ ω, 0 ≤ ω → BoundarySampled (meshSet cells) bdv u v ω → ∀ z ∈ meshSet cells,
          |u z - v z| ≤ ω + Real.sqrt (bdv.1.length * out.lossDirichlet 0)
            + A * (C * (Real.sqrt out.lossPde + δ + τ)) ∧
          (0 < beta → |u z - v z| ≤ ω + Real.sqrt (bdv.1.length * (out.loss 0 / beta))
            + A * (C * (Real.sqrt (out.loss 0) + δ + τ)))) := by
  obtain ⟨C, hC, hb⟩ := error_le_residuals hcells hty N
  refine ⟨C, hC, ?_⟩
  rintro V s rfl rfl ψ f ρ hV nq S D hR bdv nS sp sv p ip e he u v h A hA δ τ hδ0 hτ0 hδ hτ net hnet beta
  have hsm : ∀ c ∈ cells, SmoothOn (cellSet c) u := fun c hc =>
    (h.defect.mono (cellSet_subset_meshSet hc)).solves.smooth
  obtain ⟨out, R, h1, h3, h5⟩ := C69_inverse hV hR bdv e u hsm _ hδ sp sv net hnet beta p ip he
  obtain ⟨pt, -, hsh, -⟩ := pdeLoss_close hV hR bdv (fun _ _ => continuousOn_const) hsm hδ
  obtain ⟨-, -, -, e2, e4, -, e3, -⟩ := (C47_inverse _ pt hsh beta p ip sp sv net (fun _ => u) hnet).2 out h1
  have key := hb ψ f ρ hV e (0, 0) 0 u v h A hA δ τ hδ0 hτ0 hτ R h5
  refine ⟨out, h1, fun B hB0 hB z hz => ?_, fun ω hω hbd z hz => ?_⟩
  · rw [h3]
    exact key B hB0 hB z hz
  · have h6 := key (ω + Real.sqrt (bdv.1.length * out.lossDirichlet 0)) (by positivity)
      (fun y hy => by rw [e2]; exact boundary_error hbd hy) z hz
    rw [← h3] at h6
    refine ⟨h6, fun hbeta => h6.trans ?_⟩
    have hd0 : 0 ≤ out.lossDirichlet 0 := by rw [e2]; exact meanSq_nonneg _
    have hs0 : 0 ≤ out.sensorLoss 0 := by rw [e4]; exact meanSq_nonneg _
    have hp0 : 0 ≤ out.lossPde := by rw [h3]; exact Finset.sum_nonneg fun _ _ => meanSq_nonneg _
    have g1 : out.lossPde ≤ out.loss 0 := by rw [e3]; nlinarith
    have g2 : out.lossDirichlet 0 ≤ out.loss 0 / beta := by
      rw [le_div_iff₀ hbeta, e3]
      nlinarith
    have hA0 : 0 ≤ A := stability_nonneg h.diffusion hA ⟨z, hz⟩
    gcongr

/-! ### Example -/

lemma demo_width : Width (meshSet demoCells) Prod.fst 3 := by
  refine ⟨0, ?_⟩
  rintro z ⟨c, hc, hz⟩
  have hcv : Convex ℝ {z : ℝ × ℝ | 0 ≤ z.1 ∧ z.1 ≤ 0 + 3} := by
    have : {z : ℝ × ℝ | 0 ≤ z.1 ∧ z.1 ≤ 0 + 3} = (LinearMap.fst ℝ ℝ ℝ) ⁻¹' Set.Icc 0 (0 + 3) := rfl
    rw [this]
    exact (convex_Icc _ _).linear_preimage _
  have hsub : Set.range c ⊆ {z : ℝ × ℝ | 0 ≤ z.1 ∧ z.1 ≤ 0 + 3} := by
    rintro _ ⟨i, rfl⟩
    simp only [demoCells, List.mem_cons, List.not_mem_nil, or_false] at hc
    rcases hc with rfl | rfl <;> fin_cases i <;> simp [squareCell, kiteCell]
    norm_num
  exact convexHull_min hsub hcv hz

/-- For the network `x²` and the forcing function `κ` the solution `-κ x² / 2` of Poisson's equation meets the
hypotheses on the mesh of a unit square and a kite, with stability factor `9 / 2` and `δ = τ = 0`. -/
example (κ beta : ℝ) (bdv : List (ℝ × ℝ) × List ℝ) : ∃ C : ℝ, 0 ≤ C ∧
    ∃ nq, ∃ S : Fespace2D (ℝ → ℝ → ℝ) ℝ (defectSettings.feOrder.toNat ^ 2) nq, ∃ D, ∃ out : TrainOut 1,
      Discretised demoCells (fun _ _ => κ) defectSettings S D ∧
      trainStepDense (lossOf .poisson _ _ _) (modelDataOf D bdv S.nCells) squareNet beta
        (some [("eps", 1)]) = .ok out ∧
      ∀ B, 0 ≤ B → (∀ z ∈ frontier (meshSet demoCells), |z.1 ^ 2 - (-κ / 2) * z.1 ^ 2| ≤ B) →
        ∀ z ∈ meshSet demoCells, |z.1 ^ 2 - (-κ / 2) * z.1 ^ 2| ≤ B + 9 / 2 * (C * (Real.sqrt out.lossPde + 0 + 0)) := by
  have hcells : ∀ c ∈ demoCells, ConvexCCW c := fun c hc => (demo_cells_ok c hc).1
  obtain ⟨C, hC, h⟩ := C90_train_step demoCells hcells "jacobi" (by decide) 5
  obtain ⟨nq, S, D, hS⟩ := defect_space fun _ _ => κ
  obtain ⟨ψ, hψ⟩ := testFunctions_exist demoCells hcells defectSettings.feType defectSettings.feOrder.toNat
  have ha : IsPolynomial (fun i j => i + j ≤ 0) fun _ : ℝ × ℝ => (1 : ℝ) := const_polynomial 0 1
  have hf : IsPolynomial (fun i j => i + j ≤ 0 + 2) fun _ : ℝ × ℝ => κ := const_polynomial _ κ
  have hv : IsPolynomial (fun i j => i + j ≤ 2) fun z : ℝ × ℝ => (-κ / 2) * z.1 ^ 2 :=
    square_polynomial.const_mul _
  have hsol : ClassicalSolution (meshSet demoCells) (fun _ => 1) (fun z => (-κ / 2) * z.1 ^ 2) (0, 0) 0 fun _ _ => κ := by
    have h1 := polynomial_defect (f := fun _ _ => κ) ha hv hf (0, 0) 0 (meshSet demoCells)
    have e1 : strongDefect (fun _ => 1) (fun z => (-κ / 2) * z.1 ^ 2) (0, 0) 0 (fun _ _ => κ) = fun _ _ => 0 := by
      funext x y
      have d1 : dx (fun z : ℝ × ℝ => (-κ / 2) * z.1 ^ 2) = fun z => -κ * z.1 := by
        funext z
        simp [dx]
        ring
      have d2 : dy (fun z : ℝ × ℝ => (-κ / 2) * z.1 ^ 2) = fun _ => 0 := by
        funext z
        simp [dy]
      simp only [strongDefect, d1, d2]
      simp [dx, dy]
    rw [e1] at h1
    simpa using h1.solves
  obtain ⟨out, _, h1, -, h2, -⟩ := h defectSettings rfl rfl ψ (fun _ _ => κ) _
    ⟨hcells, hψ, fun _ _ => continuousOn_const⟩ S D hS bdv .poisson (Or.inl rfl) (some [("eps", 1)]) 1 (0, 0) 0
    ⟨1, ⟨_, rfl, rfl⟩, rfl, rfl, rfl⟩ (fun z => z.1 ^ 2) (fun z => (-κ / 2) * z.1 ^ 2)
    ⟨one_pos, le_rfl, polynomial_defect (f := fun _ _ => κ) ha square_polynomial hf (0, 0) 0 _, hsol,
      fun z _ => square_polynomial.differentiable z, fun z _ => hv.differentiable z⟩
    (9 / 2) (Or.inl ⟨3, demo_width, Or.inl (by norm_num)⟩) 0 0 le_rfl le_rfl
    (integrandsNear_polynomial (f := fun _ _ => κ) ha square_polynomial hf (0, 0) 0 hcells hψ (by decide))
    (fun c _ => ⟨_, (density_isQ (f := fun _ _ => κ) ha square_polynomial hf (0, 0) 0 c).mono'
      (fun i j h => ⟨by show i < 5; omega, by show j < 5; omega⟩), fun p _ => by
        have : density c (strongDefect (fun _ => 1) (fun z : ℝ × ℝ => z.1 ^ 2) (0, 0) 0 fun _ _ => κ) p
          - density c (strongDefect (fun _ => 1) (fun z : ℝ × ℝ => z.1 ^ 2) (0, 0) 0 fun _ _ => κ) p = 0 := sub_self _
        exact (abs_eq_zero.2 this).le⟩)
    squareNet (fun _ _ _ _ => rfl) beta
  exact ⟨C, hC, nq, S, D, out, hS, h1, fun B hB0 hB z hz => (h2 B hB0 hB z hz).1⟩

end FastVPINNs
