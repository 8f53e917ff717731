import Verif.Props.ErrorBound
import Verif.Spec.Identify

/-! # C95: what the losses of the inverse problem say about the unknown parameter -/

namespace FastVPINNs

open Spec Topology Filter

/-! ### The comparison principle -/

lemma barrier_exists {K : Set (ℝ × ℝ)} {e r : ℝ} (he : 0 < e) (hr : 0 ≤ r) {b : ℝ × ℝ} {A : ℝ}
    (hA : StabilityFactor K e b r A) : ∃ g g' g'' h h' h'' : ℝ → ℝ, Barrier K e b r A g g' g'' h h' h'' := by
  rcases hA with ⟨X, ⟨x₀, hX⟩, hA⟩ | ⟨Y, ⟨y₀, hY⟩, hA⟩ | ⟨hr', rfl⟩
  · obtain ⟨p, q, s, h⟩ := quadratic_barrier (I := Prod.fst '' K) (x₀ := x₀) (X := X)
      (by rintro _ ⟨z, hz, rfl⟩; exact hX z hz) he hr hA
    refine ⟨fun x => p + q * x + s * x ^ 2, fun x => q + 2 * s * x, fun _ => 2 * s, fun _ => 0, fun _ => 0, fun _ => 0,
      (quadratic_derivs p q s).1, (quadratic_derivs p q s).2, fun x => hasDerivAt_const x _,
        fun x => hasDerivAt_const x _, fun z hz => ?_, fun z hz => ?_, fun z hz => ?_⟩
    · simpa using (h z.1 ⟨z, hz, rfl⟩).1
    · simpa using (h z.1 ⟨z, hz, rfl⟩).2.1
    · simpa using (h z.1 ⟨z, hz, rfl⟩).2.2
  · obtain ⟨p, q, s, h⟩ := quadratic_barrier (I := Prod.snd '' K) (x₀ := y₀) (X := Y)
      (by rintro _ ⟨z, hz, rfl⟩; exact hY z hz) he hr hA
    refine ⟨fun _ => 0, fun _ => 0, fun _ => 0, fun x => p + q * x + s * x ^ 2, fun x => q + 2 * s * x, fun _ => 2 * s,
      fun x => hasDerivAt_const x _, fun x => hasDerivAt_const x _, (quadratic_derivs p q s).1,
        (quadratic_derivs p q s).2, fun z hz => ?_, fun z hz => ?_, fun z hz => ?_⟩
    · simpa using (h z.2 ⟨z, hz, rfl⟩).1
    · simpa using (h z.2 ⟨z, hz, rfl⟩).2.1
    · simpa using (h z.2 ⟨z, hz, rfl⟩).2.2
  · refine ⟨fun _ => 1 / r, fun _ => 0, fun _ => 0, fun _ => 0, fun _ => 0, fun _ => 0, fun x => hasDerivAt_const x _,
      fun x => hasDerivAt_const x _, fun x => hasDerivAt_const x _,
      fun x => hasDerivAt_const x _, fun z hz => ?_, fun z hz => ?_, fun z hz => ?_⟩
    · simpa using hr
    · simp
    · simp [mul_inv_cancel₀ hr'.ne']

lemma dx_comb {u v : ℝ × ℝ → ℝ} {z : ℝ × ℝ} (hu : DifferentiableAt ℝ u z) (hv : DifferentiableAt ℝ v z) (α β : ℝ) :
    dx (fun z => α * u z + β * v z) z = α * dx u z + β * dx v z :=
  (((hasDerivAt_slice_x hu).const_mul α).add ((hasDerivAt_slice_x hv).const_mul β)).deriv

lemma dy_comb {u v : ℝ × ℝ → ℝ} {z : ℝ × ℝ} (hu : DifferentiableAt ℝ u z) (hv : DifferentiableAt ℝ v z) (α β : ℝ) :
    dy (fun z => α * u z + β * v z) z = α * dy u z + β * dy v z :=
  (((hasDerivAt_slice_y hu).const_mul α).add ((hasDerivAt_slice_y hv).const_mul β)).deriv

/-- The operator is linear. -/
lemma operator_comb {U : Set (ℝ × ℝ)} (hU : IsOpen U) {u v : ℝ × ℝ → ℝ} (hu : TwiceOn U u) (hv : TwiceOn U v)
    (α β : ℝ) : TwiceOn U (fun z => α * u z + β * v z) ∧ ∀ (e : ℝ) (b : ℝ × ℝ) (r : ℝ), ∀ z ∈ U,
      operator e b r (fun z => α * u z + β * v z) z = α * operator e b r u z + β * operator e b r v z := by
  have hx : ∀ z ∈ U, dx (fun z => α * u z + β * v z) =ᶠ[𝓝 z] fun z => α * dx u z + β * dx v z := fun z hz => by
    filter_upwards [hU.mem_nhds hz] with y hy
    exact dx_comb (hu.diff y hy) (hv.diff y hy) α β
  have hy : ∀ z ∈ U, dy (fun z => α * u z + β * v z) =ᶠ[𝓝 z] fun z => α * dy u z + β * dy v z := fun z hz => by
    filter_upwards [hU.mem_nhds hz] with y hy
    exact dy_comb (hu.diff y hy) (hv.diff y hy) α β
  refine ⟨⟨fun z hz => ((hu.diff z hz).const_mul α).add ((hv.diff z hz).const_mul β), fun z hz => ?_, fun z hz => ?_⟩,
    fun e b r z hz => ?_⟩
  · exact (((hu.diffX z hz).const_mul α).add ((hv.diffX z hz).const_mul β)).congr_of_eventuallyEq (hx z hz)
  · exact (((hu.diffY z hz).const_mul α).add ((hv.diffY z hz).const_mul β)).congr_of_eventuallyEq (hy z hz)
  · have e1 : dx (dx fun z => α * u z + β * v z) z = α * dx (dx u) z + β * dx (dx v) z := by
      rw [← dx_comb (hu.diffX z hz) (hv.diffX z hz)]
      refine Filter.EventuallyEq.deriv_eq ?_
      filter_upwards [slice_x_eventually hU hz] with s hs
      exact dx_comb (hu.diff _ hs) (hv.diff _ hs) α β
    have e2 : dy (dy fun z => α * u z + β * v z) z = α * dy (dy u) z + β * dy (dy v) z := by
      rw [← dy_comb (hu.diffY z hz) (hv.diffY z hz)]
      refine Filter.EventuallyEq.deriv_eq ?_
      filter_upwards [slice_y_eventually hU hz] with s hs
      exact dy_comb (hu.diff _ hs) (hv.diff _ hs) α β
    have e3 := dx_comb (hu.diff z hz) (hv.diff z hz) α β
    have e4 := dy_comb (hu.diff z hz) (hv.diff z hz) α β
    rw [operator, operator, operator, e1, e2, e3, e4]
    ring

/-! ### The continuous problem -/

/-- `u` has the defect `ρ` in Poisson's equation with the diffusion parameter `e`; `v` is a classical solution of the
same equation with the true parameter `e₀`. -/
structure Spec.InverseSetting (Ω : Set (ℝ × ℝ)) (e e₀ : ℝ) (f ρ : ℝ → ℝ → ℝ) (u v : ℝ × ℝ → ℝ) : Prop where
  current : 0 < e
  true_ : 0 < e₀
  defect : IsDefect Ω (fun _ => e) u (0, 0) 0 f ρ
  solution : ClassicalSolution Ω (fun _ => e₀) v (0, 0) 0 f
  diffU : ∀ z ∈ interior Ω, DifferentiableAt ℝ u z
  diffV : ∀ z ∈ interior Ω, DifferentiableAt ℝ v z

/-- **C95** (the continuous problem).  The distance of the parameter from the true parameter, measured by
`|1/e - 1/e₀|`, is at most the error at a point `s` plus the error at the boundary plus the stability factor times the
defect, divided by the amount `Q` with which the forcing function shows at `s`. -/
theorem C95_continuous (Ω : Set (ℝ × ℝ)) (hΩ : IsCompact Ω) (e e₀ : ℝ) (f ρ : ℝ → ℝ → ℝ) (u v : ℝ × ℝ → ℝ)
    (h : InverseSetting Ω e e₀ f ρ u v) (A : ℝ) (hA : StabilityFactor Ω e (0, 0) 0 A) (B σ : ℝ) (hB0 : 0 ≤ B)
    (hσ0 : 0 ≤ σ) (hB : ∀ z ∈ frontier Ω, |u z - v z| ≤ B) (hσ : ∀ z ∈ interior Ω, |ρ z.1 z.2| ≤ σ)
    (s : ℝ × ℝ) (hs : s ∈ Ω) (Q : ℝ) (hQ : ShowsAt Ω f s Q) :
    |1 / e - 1 / e₀| * Q ≤ |u s - v s| + B + A * σ := by
  obtain ⟨θ, hθ, q, hqc, hq, hqB, hqs⟩ := hQ
  obtain ⟨g, g', g'', k, k', k'', hG⟩ := barrier_exists h.current le_rfl hA
  have hU : IsOpen (interior Ω) := isOpen_interior
  have tu : TwiceOn (interior Ω) u := ⟨h.diffU, fun z hz => (partials_differentiable h.current h.defect.solves hz).1,
    fun z hz => (partials_differentiable h.current h.defect.solves hz).2⟩
  have tv : TwiceOn (interior Ω) v := ⟨h.diffV, fun z hz => (partials_differentiable h.true_ h.solution hz).1,
    fun z hz => (partials_differentiable h.true_ h.solution hz).2⟩
  have tq : TwiceOn (interior Ω) q := ⟨fun z hz => (hq z hz).1, fun z hz => (hq z hz).2.1, fun z hz => (hq z hz).2.2.1⟩
  set κ := 1 / e - 1 / e₀ with hκ
  -- the sign of the error that is compared with `|κ| q`
  obtain ⟨ε, hε, hεκ⟩ : ∃ ε : ℝ, (ε = 1 ∨ ε = -1) ∧ ε * κ = -|κ| * θ := by
    rcases hθ with rfl | rfl <;> rcases abs_cases κ with ⟨h1, -⟩ | ⟨h1, -⟩
    · exact ⟨-1, Or.inr rfl, by rw [h1]; ring⟩
    · exact ⟨1, Or.inl rfl, by rw [h1]; ring⟩
    · exact ⟨1, Or.inl rfl, by rw [h1]; ring⟩
    · exact ⟨-1, Or.inr rfl, by rw [h1]; ring⟩
  have hεabs : ∀ x : ℝ, ε * x ≤ |x| ∧ -(ε * x) ≤ |x| := fun x => by
    rcases hε with rfl | rfl
    · exact ⟨by simpa using le_abs_self x, by simpa using neg_le_abs x⟩
    · exact ⟨by simpa using neg_le_abs x, by simpa using le_abs_self x⟩
  obtain ⟨tw, ow⟩ := operator_comb hU tu tv 1 (-1)
  obtain ⟨tW, oW⟩ := operator_comb hU tq tw |κ| ε
  have hmain : |κ| * q s + ε * (1 * u s + -1 * v s) ≤ B + A * σ := by
    refine barrier_le hΩ (w := fun z => |κ| * q z + ε * (1 * u z + -1 * v z)) ?_ tW h.current.le le_rfl hG hB0 hσ0 ?_ ?_ hs
    · exact (continuousOn_const.mul hqc).add (continuousOn_const.mul
        ((continuousOn_const.mul h.defect.solves.smooth.val).add (continuousOn_const.mul h.solution.smooth.val)))
    · intro z hz hi
      have hf : z ∈ frontier Ω := by
        rw [hΩ.isClosed.frontier_eq]
        exact ⟨hz, hi⟩
      have h1 := mul_le_mul_of_nonneg_left (hqB z hf) (abs_nonneg κ)
      have h2 := (hεabs (u z - v z)).1.trans (hB z hf)
      have h3 : (1 * u z + -1 * v z) = u z - v z := by ring
      rw [h3]
      linarith
    · intro z hz
      rw [oW _ _ _ z hz, ow _ _ _ z hz, solves_operator h.defect.solves hz]
      have o2 := solves_operator h.solution hz
      have o3 : operator e (0, 0) 0 v z = e / e₀ * f z.1 z.2 := by
        rw [← o2, operator, operator]
        have := h.true_.ne'
        field_simp
        ring
      have o4 : operator e (0, 0) 0 q z ≤ e * (θ * f z.1 z.2) := by
        have := mul_le_mul_of_nonneg_left (hq z hz).2.2.2 h.current.le
        rw [operator]
        linarith
      rw [o3]
      have h1 := mul_le_mul_of_nonneg_left o4 (abs_nonneg κ)
      have h2 := (hεabs (ρ z.1 z.2)).1.trans (hσ z hz)
      have h3 : ε * (1 * (f z.1 z.2 + ρ z.1 z.2) + -1 * (e / e₀ * f z.1 z.2))
          = (ε * κ) * (e * f z.1 z.2) + ε * ρ z.1 z.2 := by
        rw [hκ]
        have := h.current.ne'
        field_simp
        ring
      rw [h3, hεκ]
      nlinarith
  have h1 := mul_le_mul_of_nonneg_left hqs (abs_nonneg κ)
  have h2 := (hεabs (u s - v s)).2
  have h3 : (1 * u s + -1 * v s) = u s - v s := by ring
  rw [h3] at hmain
  linarith

/-- **C95** (forcing functions of one sign).  If the forcing function is at least `m ≥ 0` everywhere in the domain, or
at most `-m`, then it shows with the amount `m R² / 4` at every point whose distance from the boundary is at least
`R`. -/
theorem C95_one_sign (Ω : Set (ℝ × ℝ)) (f : ℝ → ℝ → ℝ) (m R : ℝ) (hm : 0 ≤ m)
    (hf : (∀ z ∈ interior Ω, m ≤ f z.1 z.2) ∨ ∀ z ∈ interior Ω, f z.1 z.2 ≤ -m) (s : ℝ × ℝ)
    (hR : ∀ z ∈ frontier Ω, R ^ 2 ≤ sqDist z s) : ShowsAt Ω f s (m * R ^ 2 / 4) := by
  have hdx : dx (fun z : ℝ × ℝ => m / 4 * (R ^ 2 - sqDist z s)) = fun z => m / 4 * (-(2 * (z.1 - s.1))) := by
    funext z
    have h1 : HasDerivAt (fun t : ℝ => m / 4 * (R ^ 2 - ((t - s.1) ^ 2 + (z.2 - s.2) ^ 2)))
        (m / 4 * (-(2 * (z.1 - s.1)))) z.1 := by
      have := (((((hasDerivAt_id z.1).sub_const s.1).pow 2).add_const ((z.2 - s.2) ^ 2)).const_sub (R ^ 2)).const_mul (m / 4)
      exact this.congr_deriv (by simp)
    exact h1.deriv
  have hdy : dy (fun z : ℝ × ℝ => m / 4 * (R ^ 2 - sqDist z s)) = fun z => m / 4 * (-(2 * (z.2 - s.2))) := by
    funext z
    have h1 : HasDerivAt (fun t : ℝ => m / 4 * (R ^ 2 - ((z.1 - s.1) ^ 2 + (t - s.2) ^ 2)))
        (m / 4 * (-(2 * (z.2 - s.2)))) z.2 := by
      have := (((((hasDerivAt_id z.2).sub_const s.2).pow 2).const_add ((z.1 - s.1) ^ 2)).const_sub (R ^ 2)).const_mul (m / 4)
      exact this.congr_deriv (by simp)
    exact h1.deriv
  have hdxx : ∀ z, dx (dx (fun z : ℝ × ℝ => m / 4 * (R ^ 2 - sqDist z s))) z = -(m / 2) := fun z => by
    rw [hdx]
    simp [dx]
    ring
  have hdyy : ∀ z, dy (dy (fun z : ℝ × ℝ => m / 4 * (R ^ 2 - sqDist z s))) z = -(m / 2) := fun z => by
    rw [hdy]
    simp [dy]
    ring
  have hcont : Continuous (fun z : ℝ × ℝ => m / 4 * (R ^ 2 - sqDist z s)) := by
    unfold sqDist
    fun_prop
  have main : ∀ θ : ℝ, (θ = 1 ∨ θ = -1) → (∀ z ∈ interior Ω, m ≤ θ * f z.1 z.2) → ShowsAt Ω f s (m * R ^ 2 / 4) := by
    intro θ hθ hf
    refine ⟨θ, hθ, _, hcont.continuousOn, fun z hz => ⟨?_, ?_, ?_, ?_⟩, fun z hz => ?_, ?_⟩
    · unfold sqDist
      fun_prop
    · rw [hdx]
      fun_prop
    · rw [hdy]
      fun_prop
    · rw [hdxx, hdyy]
      have := hf z hz
      linarith
    · exact mul_nonpos_of_nonneg_of_nonpos (by positivity) (by linarith [hR z hz])
    · simp [sqDist]
      linarith
  rcases hf with h | h
  · exact main 1 (Or.inl rfl) fun z hz => by linarith [h z hz]
  · exact main (-1) (Or.inr rfl) fun z hz => by linarith [h z hz]

/-! ### The training step -/

/-- **C95.**  For strictly convex cells and a test space that vanishes on the edges there is a constant `C`, which
depends only on the cells, the family and the order of the test space, with the following property.  Let the network be
a function `u` with a continuous defect for the present value `e` of the parameter, and `v` the classical solution for
the true value `e₀`, the boundary values those of `v` and the sensor values those of `v` up to noise `η`.  At every
sensor where the forcing function shows with the amount `Q`, the three losses that `DenseModel_Inverse` reports bound
`|1/e - 1/e₀|` times `Q`.  (`ω` is the distance of the boundary error from its values at the boundary points, `δ` and `τ`
are as in C90.) -/
theorem C95_identified (cells : List Quad) (hcells : ∀ c ∈ cells, ConvexCCW c) (ty : String)
    (hty : ty ≠ "jacobi_plain") (N : ℕ) : ∃ C : ℝ, 0 ≤ C ∧
    ∀ {V : Type} (s : FESettings), s.feType = ty → s.feOrder.toNat = N → ∀ (ψ : ℕ → ℕ → ℝ × ℝ → ℝ)
      (f ρ : ℝ → ℝ → ℝ), VariationalSetup cells s.feType s.feOrder.toNat ψ f → ∀ {nq : ℕ}
      (S : Fespace2D (ℝ → ℝ → ℝ) V (s.feOrder.toNat ^ 2) nq) (D : DataHandler2D (s.feOrder.toNat ^ 2) nq),
      Discretised cells f s S D → ∀ (bdv : List (ℝ × ℝ) × List ℝ) {nS : ℕ} (sp : Fin nS → ℝ × ℝ) (sv : Fin nS → ℝ)
      (p ip : ParamDict) (e e₀ : ℝ), HasParam ip "eps" e →
      ∀ (u v : ℝ × ℝ → ℝ), InverseSetting (meshSet cells) e e₀ f ρ u v →
      ∀ A, StabilityFactor (meshSet cells) e (0, 0) 0 A → ∀ δ τ ω η : ℝ, 0 ≤ δ → 0 ≤ τ → 0 ≤ ω →
      IntegrandsNear (ruleDegree s.quadType s.quadOrder) cells s.feOrder.toNat ψ (fun _ => e) u (0, 0) 0 f
        (fun _ _ => δ) → DensityNear cells s.feOrder.toNat ρ τ →
      BoundarySampled (meshSet cells) bdv u v ω → (∀ i, |sv i - v (sp i)| ≤ η) →
      ∀ (net : Network 1), RowWise net (fun _ => u) → ∀ beta : ℝ,
      ∃ out, trainStepInverse (lossPoissonInverse _ _ _) (modelDataOf D bdv S.nCells) sp sv ip net beta p
          = .ok out ∧ out.inverseParams = ip ∧
        ∀ (i : Fin nS) (Q : ℝ), sp i ∈ meshSet cells → ShowsAt (meshSet cells) f (sp i) Q →
          |1 / e - 1 / e₀| * Q ≤ Real.sqrt (nS * out.sensorLoss 0) + η
            + (ω + Real.sqrt (bdv.1.length * out.lossDirichlet 0))
            + A * (C * (Real.sqrt out.lossPde + δ + τ)) := by
  obtain ⟨C, hC, hb⟩ := defect_bound hcells hty N
  refine ⟨C * (N + 8), by positivity, ?_⟩
  rintro V s rfl rfl ψ f ρ hV nq S D hR bdv nS sp sv p ip e e₀ he u v h A hA δ τ ω η hδ0 hτ0 hω hδ hτ hbd hη net hnet
    beta
  have hsm : ∀ c ∈ cells, SmoothOn (cellSet c) u := fun c hc =>
    (h.defect.mono (cellSet_subset_meshSet hc)).solves.smooth
  obtain ⟨out, R, h1, h3, h5⟩ := C69_inverse hV hR bdv e u hsm _ hδ sp sv net hnet beta p ip he
  obtain ⟨pt, -, hsh, -⟩ := pdeLoss_close hV hR bdv (fun _ _ => continuousOn_const) hsm hδ
  obtain ⟨-, -, -, e2, e4, e5, -, -⟩ := (C47_inverse _ pt hsh beta p ip sp sv net (fun _ => u) hnet).2 out h1
  refine ⟨out, h1, e5, fun i Q hi hQ => ?_⟩
  set L := Real.sqrt (∑ k, meanSq (R k)) with hL
  have hL0 : 0 ≤ L := Real.sqrt_nonneg _
  have hN : (0 : ℝ) ≤ s.feOrder.toNat := Nat.cast_nonneg _
  have hdef := hb ψ f ρ hV (fun _ => e) u (0, 0) 0 (fun c hc => h.defect.mono (cellSet_subset_meshSet hc))
    (s.feOrder.toNat * L + 8 * δ) τ (by positivity) hτ0 hτ fun k c hk t ht => weak_le_loss h5 hk ht
  have key := C95_continuous _ (meshSet_compact cells) e e₀ f ρ u v h A hA
    (ω + Real.sqrt (bdv.1.length * out.lossDirichlet 0)) (C * (s.feOrder.toNat + 8) * (L + δ + τ)) (by positivity)
    (by positivity) (fun y hy => by rw [e2]; exact boundary_error hbd hy) (fun z hz =>
      (hdef z (interior_subset hz)).trans (by
        rw [mul_assoc]
        refine mul_le_mul_of_nonneg_left ?_ hC
        nlinarith [mul_nonneg hN hδ0, mul_nonneg hN hτ0])) (sp i) hi Q hQ
  have hsens := abs_le_meanSq (fun i => u (sp i) - sv i) i
  rw [← e4] at hsens
  have h6 : |u (sp i) - v (sp i)| ≤ |u (sp i) - sv i| + |sv i - v (sp i)| := abs_sub_le _ _ _
  rw [h3]
  linarith [hη i]

/-- **C95** (loss zero).  If the quadrature and the test space resolve the integrands and the defect, the boundary and
sensor values are exact and the forcing function shows at one of the sensors, then a training step of
`DenseModel_Inverse` with loss zero (and `beta > 0`) has found the true parameter and the solution. -/
theorem C95_zero_loss (cells : List Quad) (hcells : ∀ c ∈ cells, ConvexCCW c) {V : Type} (s : FESettings)
    (hty : s.feType ≠ "jacobi_plain") (ψ : ℕ → ℕ → ℝ × ℝ → ℝ) (f ρ : ℝ → ℝ → ℝ)
    (hV : VariationalSetup cells s.feType s.feOrder.toNat ψ f) {nq : ℕ}
    (S : Fespace2D (ℝ → ℝ → ℝ) V (s.feOrder.toNat ^ 2) nq) (D : DataHandler2D (s.feOrder.toNat ^ 2) nq)
    (hR : Discretised cells f s S D) (bdv : List (ℝ × ℝ) × List ℝ) {nS : ℕ} (sp : Fin nS → ℝ × ℝ) (sv : Fin nS → ℝ)
    (p ip : ParamDict) (e e₀ : ℝ) (he : HasParam ip "eps" e) (u v : ℝ × ℝ → ℝ)
    (h : InverseSetting (meshSet cells) e e₀ f ρ u v)
    (hδ : IntegrandsNear (ruleDegree s.quadType s.quadOrder) cells s.feOrder.toNat ψ (fun _ => e) u (0, 0) 0 f
      (fun _ _ => 0)) (hτ : DensityNear cells s.feOrder.toNat ρ 0)
    (hbd : BoundarySampled (meshSet cells) bdv u v 0) (hsv : ∀ i, sv i = v (sp i)) (net : Network 1)
    (hnet : RowWise net (fun _ => u)) (beta : ℝ) (hbeta : 0 < beta) (i : Fin nS) (hi : sp i ∈ meshSet cells) (Q : ℝ)
    (hQ0 : 0 < Q) (hQ : ShowsAt (meshSet cells) f (sp i) Q) :
    ∃ out, trainStepInverse (lossPoissonInverse _ _ _) (modelDataOf D bdv S.nCells) sp sv ip net beta p = .ok out ∧
      (out.loss 0 = 0 → e = e₀ ∧ ∀ z ∈ meshSet cells, u z = v z) := by
  obtain ⟨X, hX⟩ : ∃ X, Width (meshSet cells) Prod.fst X := by
    obtain ⟨a, ha⟩ := ((meshSet_compact cells).image continuous_fst).bddBelow
    obtain ⟨b, hb⟩ := ((meshSet_compact cells).image continuous_fst).bddAbove
    refine ⟨b - a, a, fun z hz => ⟨ha ⟨z, hz, rfl⟩, ?_⟩⟩
    have := hb ⟨z, hz, rfl⟩
    linarith
  have hA : StabilityFactor (meshSet cells) e (0, 0) 0 (X ^ 2 / (2 * e)) := Or.inl ⟨X, hX, Or.inl rfl⟩
  obtain ⟨C, -, key⟩ := C95_identified cells hcells s.feType hty s.feOrder.toNat
  obtain ⟨C', -, key'⟩ := C90_inverse cells hcells s.feType hty s.feOrder.toNat
  obtain ⟨out, h1, -, h2⟩ := key s rfl rfl ψ f ρ hV S D hR bdv sp sv p ip e e₀ he u v h _ hA 0 0 0 0 le_rfl le_rfl le_rfl hδ
    hτ hbd (fun i => by rw [hsv i, sub_self, abs_zero]) net hnet beta
  refine ⟨out, h1, fun h0 => ?_⟩
  have hsm : ∀ c ∈ cells, SmoothOn (cellSet c) u := fun c hc =>
    (h.defect.mono (cellSet_subset_meshSet hc)).solves.smooth
  obtain ⟨pt, -, hsh, -⟩ := pdeLoss_close hV hR bdv (fun _ _ => continuousOn_const) hsm hδ
  obtain ⟨_, _, e1, e2, e4, -, e3, -⟩ := (C47_inverse _ pt hsh beta p ip sp sv net (fun _ => u) hnet).2 out h1
  have hd0 : 0 ≤ out.lossDirichlet 0 := by rw [e2]; exact meanSq_nonneg _
  have hs0 : 0 ≤ out.sensorLoss 0 := by rw [e4]; exact meanSq_nonneg _
  have hp0 : 0 ≤ out.lossPde := by rw [e1]; exact Finset.sum_nonneg fun _ _ => meanSq_nonneg _
  have hbd0 := mul_nonneg hbeta.le hd0
  rw [h0] at e3
  have z1 : out.lossPde = 0 := by linarith
  have z2 : out.lossDirichlet 0 = 0 := by
    have : beta * out.lossDirichlet 0 = 0 := by linarith
    exact (mul_eq_zero.1 this).resolve_left hbeta.ne'
  have z3 : out.sensorLoss 0 = 0 := by linarith
  have h3 := h2 i Q hi hQ
  rw [z1, z2, z3] at h3
  simp only [mul_zero, Real.sqrt_zero, add_zero] at h3
  have h4 : |1 / e - 1 / e₀| = 0 := by
    refine le_antisymm ?_ (abs_nonneg _)
    exact nonpos_of_mul_nonpos_left h3 hQ0
  have h5 : e = e₀ := by
    have := sub_eq_zero.1 (abs_eq_zero.1 h4)
    simpa using this
  refine ⟨h5, fun z hz => ?_⟩
  obtain ⟨out', g1, -, g2⟩ := key' s rfl rfl ψ f ρ hV S D hR bdv sp sv p ip e he u v
    ⟨h.current, le_rfl, h.defect, by rw [h5]; exact h.solution, h.diffU, h.diffV⟩ _ hA 0 0 le_rfl le_rfl hδ hτ net hnet
    beta
  obtain rfl : out = out' := by
    rw [h1] at g1
    cases g1
    rfl
  have h6 := (g2 0 le_rfl hbd z hz).1
  rw [z1, z2] at h6
  simp only [mul_zero, Real.sqrt_zero, add_zero] at h6
  have := abs_eq_zero.1 (le_antisymm h6 (abs_nonneg _))
  linarith

/-! ### Where the losses say nothing about the parameter -/

section
variable {nc nt nq nIn nBd nS : ℕ} (M : ModelData nc nt nq nIn nBd) (pt : Fin nc → Fin nq → ℝ × ℝ) (hM : Shaped M pt)
  (sp : Fin nS → ℝ × ℝ) (sv : Fin nS → ℝ) (beta : ℝ) (p : ParamDict)

lemma meanSq_scale {n : ℕ} (l : ℝ) (x y : Fin n → ℝ) (h : ∀ i, y i = l * x i) : meanSq y = l ^ 2 * meanSq x := by
  unfold meanSq
  rw [← mul_div_assoc, Finset.mul_sum]
  congr 1
  refine Finset.sum_congr rfl fun i _ => ?_
  rw [h]
  ring

include hM in
/-- **C95** (scaling).  The PDE loss of the network `l u` with the parameter `e / l` is that of the network `u` with the
parameter `e`.  If all boundary and sensor values are zero, then the other two losses are multiplied by `l²`.  Hence
with such data (or without sensors and with zero boundary values) a loss of zero is a loss of zero for every other
parameter, too, with another network. -/
theorem C95_scaling (l e : ℝ) (hl : l ≠ 0) (net net' : Network 1) (u : ℝ × ℝ → ℝ) (hu : RowWise net (fun _ => u))
    (hu' : RowWise net' (fun _ z => l * u z)) (ip ip' : ParamDict) (he : HasParam ip "eps" e)
    (he' : HasParam ip' "eps" (e / l)) :
    ∃ out out', trainStepInverse (lossPoissonInverse nc nt nq) M sp sv ip net beta p = .ok out ∧
      trainStepInverse (lossPoissonInverse nc nt nq) M sp sv ip' net' beta p = .ok out' ∧
      out'.lossPde = out.lossPde ∧
      ((∀ i, M.dirichletActual i = 0) → out'.lossDirichlet 0 = l ^ 2 * out.lossDirichlet 0) ∧
      ((∀ i, sv i = 0) → out'.sensorLoss 0 = l ^ 2 * out.sensorLoss 0) := by
  have k1 := C47_inverse M pt hM beta p ip sp sv net (fun _ => u) hu
  have k2 := C47_inverse M pt hM beta p ip' sp sv net' (fun _ z => l * u z) hu'
  obtain ⟨out, h1⟩ := k1.1.2 ⟨e, he⟩
  obtain ⟨out', h2⟩ := k2.1.2 ⟨_, he'⟩
  obtain ⟨e1, g1, a1, a2, a3, -⟩ := k1.2 out h1
  obtain ⟨e2, g2, b1, b2, b3, -⟩ := k2.2 out' h2
  obtain rfl := hasParam_unique g1 he
  obtain rfl := hasParam_unique g2 he'
  refine ⟨out, out', h1, h2, ?_, fun hd => ?_, fun hs => ?_⟩
  · rw [a1, b1]
    unfold pdeLoss
    refine Finset.sum_congr rfl fun c _ => ?_
    congr 1
    funext t
    unfold testedResidual
    have hdx : ∀ z, dx (fun z => l * u z) z = l * dx u z := fun z => deriv_const_mul_field _
    have hdy : ∀ z, dy (fun z => l * u z) z = l * dy u z := fun z => deriv_const_mul_field _
    simp only [hdx, hdy, zero_mul, add_zero]
    congr 1
    refine Finset.sum_congr rfl fun q _ => ?_
    field_simp
  · rw [a2, b2]
    exact meanSq_scale l _ _ fun i => by rw [hd]; ring
  · rw [a3, b3]
    exact meanSq_scale l _ _ fun i => by rw [hs]; ring

include hM in
/-- **C95** (no forcing).  If the forcing function is zero, then for one and the same network the PDE loss is
proportional to the square of the parameter, and the other losses do not depend on it.  So the parameter zero is the
best for every network, and if the loss is zero for one parameter other than zero, it is zero for all. -/
theorem C95_no_forcing (e e' : ℝ) (net : Network 1) (u : ℝ × ℝ → ℝ) (hu : RowWise net (fun _ => u))
    (hF : ∀ t c, M.forceMatrix t c = 0) (ip ip' : ParamDict) (he : HasParam ip "eps" e) (he' : HasParam ip' "eps" e') :
    ∃ out out', trainStepInverse (lossPoissonInverse nc nt nq) M sp sv ip net beta p = .ok out ∧
      trainStepInverse (lossPoissonInverse nc nt nq) M sp sv ip' net beta p = .ok out' ∧
      e ^ 2 * out'.lossPde = e' ^ 2 * out.lossPde ∧ out'.lossDirichlet 0 = out.lossDirichlet 0 ∧
      out'.sensorLoss 0 = out.sensorLoss 0 ∧ (e' = 0 → out'.loss 0 ≤ out.loss 0) ∧
      (e ≠ 0 → out.lossPde = 0 → out'.loss 0 = out.loss 0) := by
  have k1 := C47_inverse M pt hM beta p ip sp sv net (fun _ => u) hu
  have k2 := C47_inverse M pt hM beta p ip' sp sv net (fun _ => u) hu
  obtain ⟨out, h1⟩ := k1.1.2 ⟨e, he⟩
  obtain ⟨out', h2⟩ := k2.1.2 ⟨_, he'⟩
  obtain ⟨e1, g1, a1, a2, a3, -, a4, -⟩ := k1.2 out h1
  obtain ⟨e2, g2, b1, b2, b3, -, b4, -⟩ := k2.2 out' h2
  obtain rfl := hasParam_unique g1 he
  obtain rfl := hasParam_unique g2 he'
  have main : ∀ d : ℝ, pdeLoss M pt u (fun _ _ => d) (0, 0) 0 = d ^ 2 * pdeLoss M pt u (fun _ _ => 1) (0, 0) 0 := by
    intro d
    unfold pdeLoss
    rw [Finset.mul_sum]
    refine Finset.sum_congr rfl fun c _ => meanSq_scale d _ _ fun t => ?_
    unfold testedResidual
    rw [hF, sub_zero, sub_zero, Finset.mul_sum]
    refine Finset.sum_congr rfl fun q _ => ?_
    ring
  have hnn : 0 ≤ pdeLoss M pt u (fun _ _ => 1) (0, 0) 0 := Finset.sum_nonneg fun _ _ => meanSq_nonneg _
  rw [main] at a1 b1
  refine ⟨out, out', h1, h2, by rw [a1, b1]; ring, by rw [a2, b2], by rw [a3, b3], fun h0 => ?_, fun hne h0 => ?_⟩
  · rw [a4, b4, a1, b1, a2, b2, a3, b3, h0]
    have := mul_nonneg (sq_nonneg e1) hnn
    linarith
  · rw [a1] at h0
    have h3 := (mul_eq_zero.1 h0).resolve_left (pow_ne_zero 2 hne)
    rw [a4, b4, a1, b1, a2, b2, a3, b3, h3]
    ring

end

/-! ### Example -/

/-- The points at distance less than `1/2` from the middle of the unit square are in the interior of the mesh. -/
lemma demo_distance : ∀ z ∈ frontier (meshSet demoCells), (1 / 2 : ℝ) ^ 2 ≤ sqDist z (1 / 2, 1 / 2) := by
  intro z hz
  by_contra hlt
  push Not at hlt
  refine Set.disjoint_left.1 disjoint_interior_frontier ?_ hz
  have hsub : Set.Ioo (0 : ℝ) 1 ×ˢ Set.Ioo (0 : ℝ) 1 ⊆ meshSet demoCells := by
    rintro ⟨x, y⟩ ⟨⟨hx0, hx1⟩, hy0, hy1⟩
    refine ⟨squareCell 1, by simp [demoCells], ?_⟩
    have hT : assignFeTransformation "quadrilateral" "bilinear" (squareCell 1) = .ok (quadBilinear (squareCell 1)) := by
      simp [assignFeTransformation]
    have himg := (C25_square_onto_cell (squareCell 1) _ hT).2.2.2 (demo_cells_ok _ (by simp [demoCells])).1
    rw [cellSet, ← himg]
    simp only at hx0 hx1 hy0 hy1
    refine ⟨(2 * x - 1, 2 * y - 1), ?_, ?_⟩
    · refine ⟨?_, ?_, ?_, ?_⟩ <;> dsimp only <;> linarith
    · ext <;> simp [quadBilinear, QuadBilinear.getOriginalFromRef, QuadBilinear.xc0, QuadBilinear.xc1,
        QuadBilinear.xc2, QuadBilinear.xc3, QuadBilinear.yc0, QuadBilinear.yc1, QuadBilinear.yc2, QuadBilinear.yc3,
        squareCell] <;> ring
  refine interior_maximal hsub (isOpen_Ioo.prod isOpen_Ioo) ?_
  unfold sqDist at hlt
  simp only at hlt
  have h1 : (z.1 - 1 / 2) ^ 2 < (1 / 2) ^ 2 := by nlinarith [sq_nonneg (z.2 - 1 / 2)]
  have h2 : (z.2 - 1 / 2) ^ 2 < (1 / 2) ^ 2 := by nlinarith [sq_nonneg (z.1 - 1 / 2)]
  have h3 := abs_lt.1 (abs_lt_of_sq_lt_sq h1 (by norm_num))
  have h4 := abs_lt.1 (abs_lt_of_sq_lt_sq h2 (by norm_num))
  exact ⟨⟨by linarith, by linarith⟩, by linarith, by linarith⟩

/-- On the mesh of a unit square and a kite with the constant forcing `κ > 0`, `-κ x² / 2` is a solution for the
parameter 1. -/
lemma demo_solution (κ : ℝ) : ClassicalSolution (meshSet demoCells) (fun _ => 1) (fun z => (-κ / 2) * z.1 ^ 2) (0, 0) 0
    fun _ _ => κ := by
  have ha : IsPolynomial (fun i j => i + j ≤ 0) fun _ : ℝ × ℝ => (1 : ℝ) := const_polynomial 0 1
  have hf : IsPolynomial (fun i j => i + j ≤ 0 + 2) fun _ : ℝ × ℝ => κ := const_polynomial _ κ
  have hv : IsPolynomial (fun i j => i + j ≤ 2) fun z : ℝ × ℝ => (-κ / 2) * z.1 ^ 2 := square_polynomial.const_mul _
  have h1 := polynomial_defect (f := fun _ _ => κ) ha hv hf (0, 0) 0 (meshSet demoCells)
  have e1 : strongDefect (fun _ => 1) (fun z => (-κ / 2) * z.1 ^ 2) (0, 0) 0 (fun _ _ => κ) = fun _ _ => 0 := by
    funext x y
    have d1 : dx (fun z : ℝ × ℝ => (-κ / 2) * z.1 ^ 2) = fun z => -κ * z.1 := by
      funext z
      simp [dx]
      ring
    have d2 : dy (fun z : ℝ × ℝ => (-κ / 2) * z.1 ^ 2) = fun _ => 0 := by
      funext z
      simp [dy]
    simp only [strongDefect, d1, d2]
    simp [dx, dy]
  rw [e1] at h1
  simpa using h1.solves

/-- The forcing function shows at the middle of the unit square. -/
lemma demo_shows (κ : ℝ) (hκ : 0 < κ) : ShowsAt (meshSet demoCells) (fun _ _ => κ) (1 / 2, 1 / 2) (κ / 16) := by
  have := C95_one_sign (meshSet demoCells) (fun _ _ => κ) κ (1 / 2) hκ.le (Or.inl fun _ _ => le_rfl) (1 / 2, 1 / 2)
    demo_distance
  have e : κ * (1 / 2 : ℝ) ^ 2 / 4 = κ / 16 := by ring
  rwa [e] at this

lemma demo_middle : ((1 / 2, 1 / 2) : ℝ × ℝ) ∈ meshSet demoCells := by
  refine ⟨squareCell 1, by simp [demoCells], ?_⟩
  have h1 : ((0, 0) : ℝ × ℝ) ∈ cellSet (squareCell 1) := subset_convexHull ℝ _ ⟨0, by simp [squareCell]⟩
  have h2 : ((1, 1) : ℝ × ℝ) ∈ cellSet (squareCell 1) := subset_convexHull ℝ _ ⟨2, by simp [squareCell]⟩
  have := (convex_convexHull ℝ (Set.range (squareCell 1))) h1 h2 (a := 1 / 2) (b := 1 / 2) (by norm_num) (by norm_num)
    (by norm_num)
  simpa [cellSet] using this

/-- The network `x²` with any positive parameter, the true parameter 1, one sensor in the middle of the unit square and
one boundary point meet the hypotheses of `C95_identified`. -/
example (κ e beta : ℝ) (hκ : 0 < κ) (he : 0 < e) : ∃ C : ℝ, 0 ≤ C ∧
    ∃ nq, ∃ S : Fespace2D (ℝ → ℝ → ℝ) ℝ (defectSettings.feOrder.toNat ^ 2) nq, ∃ D, ∃ out : TrainOutInverse 1,
      Discretised demoCells (fun _ _ => κ) defectSettings S D ∧
      trainStepInverse (lossPoissonInverse _ _ _) (modelDataOf D ([(0, 0)], [0]) S.nCells)
        (fun _ : Fin 1 => (1 / 2, 1 / 2)) (fun _ => -κ / 8) (some [("eps", e)]) squareNet beta none = .ok out ∧
      |1 / e - 1 / 1| * (κ / 16) ≤ Real.sqrt ((1 : ℕ) * out.sensorLoss 0) + 0
        + ((1 + κ / 2) * 9 + Real.sqrt ((1 : ℕ) * out.lossDirichlet 0))
        + 3 ^ 2 / (2 * e) * (C * (Real.sqrt out.lossPde + 0 + 0)) := by
  have hcells : ∀ c ∈ demoCells, ConvexCCW c := fun c hc => (demo_cells_ok c hc).1
  obtain ⟨C, hC, h⟩ := C95_identified demoCells hcells "jacobi" (by decide) 5
  obtain ⟨nq, S, D, hS⟩ := defect_space fun _ _ => κ
  obtain ⟨ψ, hψ⟩ := testFunctions_exist demoCells hcells defectSettings.feType defectSettings.feOrder.toNat
  have ha : IsPolynomial (fun i j => i + j ≤ 0) fun _ : ℝ × ℝ => e := const_polynomial 0 e
  have hf : IsPolynomial (fun i j => i + j ≤ 0 + 2) fun _ : ℝ × ℝ => κ := const_polynomial _ κ
  have hv : IsPolynomial (fun i j => i + j ≤ 2) fun z : ℝ × ℝ => (-κ / 2) * z.1 ^ 2 := square_polynomial.const_mul _
  obtain ⟨x₀, hx₀⟩ := demo_width
  obtain ⟨out, h1, -, h2⟩ := h defectSettings rfl rfl ψ (fun _ _ => κ) _
    ⟨hcells, hψ, fun _ _ => continuousOn_const⟩ S D hS ([(0, 0)], [0]) (fun _ : Fin 1 => (1 / 2, 1 / 2))
    (fun _ => -κ / 8) none (some [("eps", e)]) e 1 ⟨_, rfl, rfl⟩ (fun z => z.1 ^ 2) (fun z => (-κ / 2) * z.1 ^ 2)
    ⟨he, one_pos, polynomial_defect (f := fun _ _ => κ) ha square_polynomial hf (0, 0) 0 _, demo_solution κ,
      fun z _ => square_polynomial.differentiable z, fun z _ => hv.differentiable z⟩
    (3 ^ 2 / (2 * e)) (Or.inl ⟨3, demo_width, Or.inl rfl⟩) 0 0 ((1 + κ / 2) * 9) 0 le_rfl le_rfl (by positivity)
    (integrandsNear_polynomial (f := fun _ _ => κ) ha square_polynomial hf (0, 0) 0 hcells hψ (by decide))
    (fun c _ => ⟨_, (density_isQ (f := fun _ _ => κ) ha square_polynomial hf (0, 0) 0 c).mono'
      (fun i j h => ⟨by show i < 5; omega, by show j < 5; omega⟩), fun p _ => by
        have : density c (strongDefect (fun _ => e) (fun z : ℝ × ℝ => z.1 ^ 2) (0, 0) 0 fun _ _ => κ) p
          - density c (strongDefect (fun _ => e) (fun z : ℝ × ℝ => z.1 ^ 2) (0, 0) 0 fun _ _ => κ) p = 0 := sub_self _
        exact (abs_eq_zero.2 this).le⟩)
    ⟨fun i => by simp, fun z hz => ⟨⟨0, by simp⟩, by
      have hz' : z ∈ meshSet demoCells := (meshSet_compact demoCells).isClosed.frontier_subset hz
      have h0 : ((0, 0) : ℝ × ℝ) ∈ meshSet demoCells :=
        ⟨squareCell 1, by simp [demoCells], subset_convexHull ℝ _ ⟨0, by simp [squareCell]⟩⟩
      have h3 := hx₀ z hz'
      have h4 := hx₀ _ h0
      simp only at h4
      have h5 : z.1 ^ 2 ≤ 9 := by nlinarith
      have e1 : z.1 ^ 2 - -κ / 2 * z.1 ^ 2 - (((0 : ℝ), (0 : ℝ)).1 ^ 2 - -κ / 2 * ((0 : ℝ), (0 : ℝ)).1 ^ 2)
          = (1 + κ / 2) * z.1 ^ 2 := by
        simp only
        ring
      simp only [List.get_eq_getElem, List.getElem_cons_zero]
      rw [e1, abs_of_nonneg (by positivity)]
      exact mul_le_mul_of_nonneg_left h5 (by positivity)⟩⟩
    (fun i => by
      have : -κ / 8 - -κ / 2 * (1 / 2 : ℝ) ^ 2 = 0 := by ring
      exact (abs_eq_zero.2 this).le)
    squareNet (fun _ _ _ _ => rfl) beta
  exact ⟨C, hC, nq, S, D, out, hS, h1, h2 0 (κ / 16) demo_middle (demo_shows κ hκ)⟩

/-- The solution itself with the true parameter meets the hypotheses of `C95_zero_loss`. -/
example (κ beta : ℝ) (hκ : 0 < κ) (hbeta : 0 < beta) :
    ∃ nq, ∃ S : Fespace2D (ℝ → ℝ → ℝ) ℝ (defectSettings.feOrder.toNat ^ 2) nq, ∃ D, ∃ out : TrainOutInverse 1,
      Discretised demoCells (fun _ _ => κ) defectSettings S D ∧
      trainStepInverse (lossPoissonInverse _ _ _) (modelDataOf D ([(0, 0)], [0]) S.nCells)
        (fun _ : Fin 1 => (1 / 2, 1 / 2)) (fun _ => -κ / 8) (some [("eps", 1)])
        (fun _ X i _ => -κ / 2 * (X i).1 ^ 2) beta none = .ok out ∧ (out.loss 0 = 0 → (1 : ℝ) = 1 ∧
          ∀ z ∈ meshSet demoCells, -κ / 2 * z.1 ^ 2 = -κ / 2 * z.1 ^ 2) := by
  have hcells : ∀ c ∈ demoCells, ConvexCCW c := fun c hc => (demo_cells_ok c hc).1
  obtain ⟨nq, S, D, hS⟩ := defect_space fun _ _ => κ
  obtain ⟨ψ, hψ⟩ := testFunctions_exist demoCells hcells defectSettings.feType defectSettings.feOrder.toNat
  have ha : IsPolynomial (fun i j => i + j ≤ 0) fun _ : ℝ × ℝ => (1 : ℝ) := const_polynomial 0 1
  have hf : IsPolynomial (fun i j => i + j ≤ 0 + 2) fun _ : ℝ × ℝ => κ := const_polynomial _ κ
  have hv : IsPolynomial (fun i j => i + j ≤ 2) fun z : ℝ × ℝ => (-κ / 2) * z.1 ^ 2 := square_polynomial.const_mul _
  obtain ⟨out, h1, h2⟩ := C95_zero_loss demoCells hcells defectSettings (by decide) ψ (fun _ _ => κ) (fun _ _ => 0)
    ⟨hcells, hψ, fun _ _ => continuousOn_const⟩ S D hS ([(0, 0)], [0]) (fun _ : Fin 1 => (1 / 2, 1 / 2))
    (fun _ => -κ / 8) none (some [("eps", 1)]) 1 1 ⟨_, rfl, rfl⟩ (fun z => (-κ / 2) * z.1 ^ 2)
    (fun z => (-κ / 2) * z.1 ^ 2)
    ⟨one_pos, one_pos, ⟨continuousOn_const, by simpa using demo_solution κ⟩, demo_solution κ,
      fun z _ => hv.differentiable z, fun z _ => hv.differentiable z⟩
    (integrandsNear_polynomial (f := fun _ _ => κ) ha hv hf (0, 0) 0 hcells hψ (by decide))
    (fun c _ => ⟨fun _ => 0, ⟨[], by simp, by simp⟩, fun p _ => by simp⟩)
    ⟨fun i => by simp, fun z _ => ⟨⟨0, by simp⟩, by simp⟩⟩ (fun i => by ring)
    (fun _ X i _ => -κ / 2 * (X i).1 ^ 2) (fun _ _ _ _ => rfl) beta hbeta 0 demo_middle (κ / 16) (by positivity)
    (demo_shows κ hκ)
  exact ⟨nq, S, D, out, hS, h1, h2⟩

end FastVPINNs
