import Verif.Props.Identify
import Verif.Lemmas.MaxPrincipleField

/-! # C96: what the losses of the inverse problem with a coefficient field say -/

namespace FastVPINNs

open Spec Topology Filter

/-- `v` is a classical solution on `Ω` of the equation with the coefficient field `a`, and `u` has the defect `ρ`. -/
structure Spec.FieldSetting (Ω : Set (ℝ × ℝ)) (a : ℝ × ℝ → ℝ) (b : ℝ × ℝ) (r : ℝ) (f ρ : ℝ → ℝ → ℝ)
    (u v : ℝ × ℝ → ℝ) : Prop where
  positive : ∀ z ∈ interior Ω, 0 < a z
  diffA : ∀ z ∈ interior Ω, DifferentiableAt ℝ a z
  reaction : 0 ≤ r
  defect : IsDefect Ω a u b r f ρ
  solution : ClassicalSolution Ω a v b r f
  diffU : ∀ z ∈ interior Ω, DifferentiableAt ℝ u z
  diffV : ∀ z ∈ interior Ω, DifferentiableAt ℝ v z

lemma partials_differentiable_field {K : Set (ℝ × ℝ)} {a : ℝ × ℝ → ℝ} (ha : ∀ z ∈ interior K, 0 < a z)
    (hd : ∀ z ∈ interior K, DifferentiableAt ℝ a z) {u : ℝ × ℝ → ℝ} {b : ℝ × ℝ} {r : ℝ} {f : ℝ → ℝ → ℝ}
    (hu : ClassicalSolution K a u b r f) {z : ℝ × ℝ} (hz : z ∈ interior K) :
    DifferentiableAt ℝ (dx u) z ∧ DifferentiableAt ℝ (dy u) z := by
  have hU : IsOpen (interior K) := isOpen_interior
  have e1 : ∀ w : ℝ × ℝ → ℝ, w =ᶠ[𝓝 z] fun z => (a z * w z) * (a z)⁻¹ := fun w => by
    filter_upwards [hU.mem_nhds hz] with y hy
    rw [← div_eq_mul_inv, mul_div_cancel_left₀ _ (ha y hy).ne']
  exact ⟨((hu.fluxX z hz).mul ((hd z hz).inv (ha z hz).ne')).congr_of_eventuallyEq (e1 _),
    ((hu.fluxY z hz).mul ((hd z hz).inv (ha z hz).ne')).congr_of_eventuallyEq (e1 _)⟩

lemma solves_operatorField {K : Set (ℝ × ℝ)} {a u : ℝ × ℝ → ℝ} {b : ℝ × ℝ} {r : ℝ} {f : ℝ → ℝ → ℝ}
    (hu : ClassicalSolution K a u b r f) {z : ℝ × ℝ} (hz : z ∈ interior K) :
    operatorField a b r u z = f z.1 z.2 := by
  rw [← hu.solves z hz, operatorField]

/-- The error solves the equation with the defect as right-hand side. -/
lemma error_operatorField {Ω : Set (ℝ × ℝ)} {a : ℝ × ℝ → ℝ} {b : ℝ × ℝ} {r : ℝ} {f ρ : ℝ → ℝ → ℝ}
    {u v : ℝ × ℝ → ℝ} (h : FieldSetting Ω a b r f ρ u v) : TwiceOn (interior Ω) (fun z => u z - v z) ∧
      ∀ z ∈ interior Ω, operatorField a b r (fun z => u z - v z) z = ρ z.1 z.2 := by
  have hU : IsOpen (interior Ω) := isOpen_interior
  have hx : ∀ z ∈ interior Ω, dx (fun z => u z - v z) =ᶠ[𝓝 z] fun z => dx u z - dx v z := fun z hz => by
    filter_upwards [hU.mem_nhds hz] with y hy
    exact dx_sub_at (h.diffU y hy) (h.diffV y hy)
  have hy : ∀ z ∈ interior Ω, dy (fun z => u z - v z) =ᶠ[𝓝 z] fun z => dy u z - dy v z := fun z hz => by
    filter_upwards [hU.mem_nhds hz] with y hy
    exact dy_sub_at (h.diffU y hy) (h.diffV y hy)
  have pu := fun z hz => partials_differentiable_field h.positive h.diffA h.defect.solves (z := z) hz
  have pv := fun z hz => partials_differentiable_field h.positive h.diffA h.solution (z := z) hz
  refine ⟨⟨fun z hz => (h.diffU z hz).sub (h.diffV z hz), fun z hz => ?_, fun z hz => ?_⟩, fun z hz => ?_⟩
  · exact ((pu z hz).1.sub (pv z hz).1).congr_of_eventuallyEq (hx z hz)
  · exact ((pu z hz).2.sub (pv z hz).2).congr_of_eventuallyEq (hy z hz)
  · have e1 : dx (fun z => a z * dx (fun z => u z - v z) z) z
        = dx (fun z => a z * dx u z) z - dx (fun z => a z * dx v z) z := by
      rw [← dx_sub_at (h.defect.solves.fluxX z hz) (h.solution.fluxX z hz)]
      refine Filter.EventuallyEq.deriv_eq ?_
      filter_upwards [slice_x_eventually hU hz] with s hs
      rw [dx_sub_at (h.diffU _ hs) (h.diffV _ hs)]
      ring
    have e2 : dy (fun z => a z * dy (fun z => u z - v z) z) z
        = dy (fun z => a z * dy u z) z - dy (fun z => a z * dy v z) z := by
      rw [← dy_sub_at (h.defect.solves.fluxY z hz) (h.solution.fluxY z hz)]
      refine Filter.EventuallyEq.deriv_eq ?_
      filter_upwards [slice_y_eventually hU hz] with s hs
      rw [dy_sub_at (h.diffU _ hs) (h.diffV _ hs)]
      ring
    have o1 := solves_operatorField h.defect.solves hz
    have o2 := solves_operatorField h.solution hz
    have e3 := dx_sub_at (h.diffU z hz) (h.diffV z hz)
    have e4 := dy_sub_at (h.diffU z hz) (h.diffV z hz)
    rw [operatorField] at o1 o2 ⊢
    rw [e1, e2, e3, e4]
    linarith

/-- **C96** (the continuous problem).  If the defect is at most `σ` and the error at the boundary at most `B`, then
the error is at most `B + A σ` on the whole domain, where `A` is any of the stability factors for the field. -/
theorem C96_stability (Ω : Set (ℝ × ℝ)) (hΩ : IsCompact Ω) (a : ℝ × ℝ → ℝ) (b : ℝ × ℝ) (r : ℝ) (f ρ : ℝ → ℝ → ℝ)
    (u v : ℝ × ℝ → ℝ) (h : FieldSetting Ω a b r f ρ u v) (A : ℝ) (hA : StabilityFactorField Ω a b r A) (B σ : ℝ)
    (hB0 : 0 ≤ B) (hσ0 : 0 ≤ σ) (hB : ∀ z ∈ frontier Ω, |u z - v z| ≤ B)
    (hσ : ∀ z ∈ interior Ω, |ρ z.1 z.2| ≤ σ) : ∀ z ∈ Ω, |u z - v z| ≤ B + A * σ := fun z hz => by
  obtain ⟨hd, hop⟩ := error_operatorField h
  refine max_principle_field hΩ (w := fun z => u z - v z) (h.defect.solves.smooth.val.sub h.solution.smooth.val) hd
    (fun z hz => ⟨(h.positive z hz).le, h.diffA z hz⟩) h.reaction hA hB0 hσ0 (fun z hz hi => hB z ?_)
    (fun z hz => ?_) hz
  · rw [hΩ.isClosed.frontier_eq]
    exact ⟨hz, hi⟩
  · rw [hop z hz]
    exact hσ z hz

/-- **C96.**  For strictly convex cells and a test space that vanishes on the edges there is a constant `C`, which
depends only on the cells, the family and the order of the test space, with the following property.  Let the two
outputs of the network be a function `u` and a coefficient field `a`, positive and differentiable in the mesh, such that
`u` has a continuous defect, and let `v` be the classical solution of the equation with the coefficient `a`.  Then the
losses that `DenseModel_Inverse_Domain` reports bound the error `u - v` in the whole mesh, and they bound the misfit of
`v` at the sensors: the coefficient that has been found explains the measurements.  (`A`, `δ`, `τ` and `ω` are as in
C90, with the stability factors for the field.) -/
theorem C96_field (cells : List Quad) (hcells : ∀ c ∈ cells, ConvexCCW c) (ty : String)
    (hty : ty ≠ "jacobi_plain") (N : ℕ) : ∃ C : ℝ, 0 ≤ C ∧
    ∀ {V : Type} (s : FESettings), s.feType = ty → s.feOrder.toNat = N → ∀ (ψ : ℕ → ℕ → ℝ × ℝ → ℝ)
      (f ρ : ℝ → ℝ → ℝ), VariationalSetup cells s.feType s.feOrder.toNat ψ f → ∀ {nq : ℕ}
      (S : Fespace2D (ℝ → ℝ → ℝ) V (s.feOrder.toNat ^ 2) nq) (D : DataHandler2D (s.feOrder.toNat ^ 2) nq),
      Discretised cells f s S D → ∀ (bdv : List (ℝ × ℝ) × List ℝ) {nS : ℕ} (sp : Fin nS → ℝ × ℝ) (sv : Fin nS → ℝ)
      (p : ParamDict) (b : ℝ × ℝ) (r : ℝ), HasParam p "b_x" b.1 → HasParam p "b_y" b.2 → HasParam p "c" r →
      ∀ (a u v : ℝ × ℝ → ℝ), FieldSetting (meshSet cells) a b r f ρ u v →
      ∀ A, StabilityFactorField (meshSet cells) a b r A → ∀ δ τ : ℝ, 0 ≤ δ → 0 ≤ τ →
      IntegrandsNear (ruleDegree s.quadType s.quadOrder) cells s.feOrder.toNat ψ a u b r f
        (fun _ _ => δ) → DensityNear cells s.feOrder.toNat ρ τ →
      ∀ (net : Network 2), RowWise net ![u, a] → ∀ beta : ℝ,
      ∃ out, trainStepInverseDomain (lossCd2dInverseDomain _ _ _) (modelDataOf D bdv S.nCells) sp sv net beta p
          = .ok out ∧
        (∀ B, 0 ≤ B → (∀ z ∈ frontier (meshSet cells), |u z - v z| ≤ B) →
          (∀ z ∈ meshSet cells, |u z - v z| ≤ B + A * (C * (Real.sqrt out.lossPde + δ + τ))) ∧
          ∀ i, sp i ∈ meshSet cells → |v (sp i) - sv i| ≤ B + A * (C * (Real.sqrt out.lossPde + δ + τ))
            + Real.sqrt (nS * out.sensorLoss 0)) ∧
        (∀ ω, 0 ≤ ω → BoundarySampled (meshSet cells) bdv u v ω →
          (∀ z ∈ meshSet cells, |u z - v z| ≤ ω + Real.sqrt (bdv.1.length * out.lossDirichlet 0)
            + A * (C * (Real.sqrt out.lossPde + δ + τ))) ∧
          ∀ i, sp i ∈ meshSet cells → |v (sp i) - sv i| ≤ ω + Real.sqrt (bdv.1.length * out.lossDirichlet 0)
            + A * (C * (Real.sqrt out.lossPde + δ + τ)) + Real.sqrt (nS * out.sensorLoss 0)) := by
  obtain ⟨C, hC, hb⟩ := defect_bound hcells hty N
  refine ⟨C * (N + 8), by positivity, ?_⟩
  rintro V s rfl rfl ψ f ρ hV nq S D hR bdv nS sp sv p b r hbx hby hbr a u v h A hA δ τ hδ0 hτ0 hδ hτ net hnet beta
  have hsm : ∀ c ∈ cells, SmoothOn (cellSet c) u := fun c hc =>
    (h.defect.mono (cellSet_subset_meshSet hc)).solves.smooth
  have hac : ∀ c ∈ cells, ContinuousOn a (cellSet c) := fun c hc =>
    (h.defect.mono (cellSet_subset_meshSet hc)).solves.coefficient
  obtain ⟨out, R, h1, h3, h5⟩ := C69_inverse_domain hV hR bdv a u b r hac hsm _ hδ sp sv net hnet beta p hbx hby hbr
  obtain ⟨pt, -, hsh, -⟩ := pdeLoss_close hV hR bdv hac hsm hδ
  obtain ⟨-, -, -, -, -, -, -, e2, e4, -⟩ :=
    (C47_inverse_domain _ pt hsh beta p sp sv le_rfl net ![u, a] hnet).2 out h1
  have e2 : out.lossDirichlet 0 = meanSq (fun i => u (bdv.1.get i) - bdv.2.getD i.val 0) := e2
  have e4 : out.sensorLoss 0 = meanSq (fun i => u (sp i) - sv i) := e4
  set L := Real.sqrt (∑ k, meanSq (R k)) with hL
  have hL0 : 0 ≤ L := Real.sqrt_nonneg _
  have hN : (0 : ℝ) ≤ s.feOrder.toNat := Nat.cast_nonneg _
  have hdef := hb ψ f ρ hV a u b r (fun c hc => h.defect.mono (cellSet_subset_meshSet hc))
    (s.feOrder.toNat * L + 8 * δ) τ (by positivity) hτ0 hτ fun k c hk t ht => weak_le_loss h5 hk ht
  have key : ∀ B, 0 ≤ B → (∀ z ∈ frontier (meshSet cells), |u z - v z| ≤ B) → ∀ z ∈ meshSet cells,
      |u z - v z| ≤ B + A * (C * (s.feOrder.toNat + 8) * (Real.sqrt out.lossPde + δ + τ)) := by
    intro B hB0 hB
    rw [h3]
    refine C96_stability _ (meshSet_compact cells) a b r f ρ u v h A hA B _ hB0 (by positivity) hB fun z hz =>
      (hdef z (interior_subset hz)).trans ?_
    rw [mul_assoc]
    refine mul_le_mul_of_nonneg_left ?_ hC
    nlinarith [mul_nonneg hN hδ0, mul_nonneg hN hτ0]
  have sens : ∀ T, (∀ z ∈ meshSet cells, |u z - v z| ≤ T) → ∀ i, sp i ∈ meshSet cells →
      |v (sp i) - sv i| ≤ T + Real.sqrt (nS * out.sensorLoss 0) := by
    intro T hT i hi
    have h6 := hT (sp i) hi
    have h7 := abs_le_meanSq (fun i => u (sp i) - sv i) i
    rw [← e4] at h7
    have h8 : |v (sp i) - sv i| ≤ |v (sp i) - u (sp i)| + |u (sp i) - sv i| := abs_sub_le _ _ _
    rw [abs_sub_comm (v (sp i)) (u (sp i))] at h8
    linarith
  refine ⟨out, h1, fun B hB0 hB => ⟨key B hB0 hB, sens _ (key B hB0 hB)⟩, fun ω hω hbd => ?_⟩
  have h6 := key (ω + Real.sqrt (bdv.1.length * out.lossDirichlet 0)) (by positivity)
    (fun y hy => by rw [e2]; exact boundary_error hbd hy)
  exact ⟨h6, sens _ h6⟩

/-- **C96** (what cannot be seen).  The coefficient has no influence on any of the losses at points where the gradient
of the solution vanishes: two networks with the same solution whose coefficients agree at all quadrature points where
the gradient is not zero have the same losses. -/
theorem C96_invisible {nc nt nq nIn nBd nS : ℕ} (M : ModelData nc nt nq nIn nBd) (pt : Fin nc → Fin nq → ℝ × ℝ)
    (hM : Shaped M pt) (sp : Fin nS → ℝ × ℝ) (sv : Fin nS → ℝ) (beta : ℝ) (p : ParamDict) (net net' : Network 2)
    (u a a' : ℝ × ℝ → ℝ) (hu : RowWise net ![u, a]) (hu' : RowWise net' ![u, a'])
    (heq : ∀ c q, (dx u (pt c q) ≠ 0 ∨ dy u (pt c q) ≠ 0) → a (pt c q) = a' (pt c q))
    (out : TrainOutInverse 1)
    (h : trainStepInverseDomain (lossCd2dInverseDomain nc nt nq) M sp sv net beta p = .ok out) :
    ∃ out', trainStepInverseDomain (lossCd2dInverseDomain nc nt nq) M sp sv net' beta p = .ok out' ∧
      out'.lossPde = out.lossPde ∧ out'.lossDirichlet 0 = out.lossDirichlet 0 ∧
      out'.sensorLoss 0 = out.sensorLoss 0 ∧ out'.loss 0 = out.loss 0 := by
  obtain ⟨bx, b2, r, k1, k2, k3, a1, a2, a3, a4, -⟩ :=
    (C47_inverse_domain M pt hM beta p sp sv le_rfl net ![u, a] hu).2 out h
  obtain ⟨out', h'⟩ := (C47_inverse_domain M pt hM beta p sp sv le_rfl net' ![u, a'] hu').1.2 ⟨bx, b2, r, k1, k2, k3⟩
  obtain ⟨bx', b2', r', l1, l2, l3, c1, c2, c3, c4, -⟩ :=
    (C47_inverse_domain M pt hM beta p sp sv le_rfl net' ![u, a'] hu').2 out' h'
  obtain rfl := hasParam_unique k1 l1
  obtain rfl := hasParam_unique k2 l2
  obtain rfl := hasParam_unique k3 l3
  have e1 : out'.lossPde = out.lossPde := by
    rw [a1, c1]
    unfold pdeLoss
    refine Finset.sum_congr rfl fun c _ => ?_
    congr 1
    funext t
    unfold testedResidual
    congr 1
    refine Finset.sum_congr rfl fun q _ => ?_
    by_cases hz : dx u (pt c q) = 0 ∧ dy u (pt c q) = 0
    · simp [hz.1, hz.2]
    · have := heq c q (by tauto)
      simp [this]
  have e2 : out'.lossDirichlet 0 = out.lossDirichlet 0 := a2 ▸ c2
  have e3 : out'.sensorLoss 0 = out.sensorLoss 0 := a3 ▸ c3
  exact ⟨out', h', e1, e2, e3, by rw [a4, c4, e1, e2, e3]⟩

/-! ### Examples -/

/-- The network with the outputs `x²` and `4 + x`. -/
def fieldNet : Network 2 := fun _ X i j => ![(X i).1 ^ 2, 4 + (X i).1] j

lemma field_polynomial : IsPolynomial (fun i j => i + j ≤ 1) fun z : ℝ × ℝ => 4 + z.1 :=
  ⟨[(4, 0, 0), (1, 1, 0)], by simp, by simp⟩

lemma demo_right : ∀ z ∈ meshSet demoCells, 0 ≤ z.1 := by
  rintro z ⟨c, hc, hz⟩
  have hcv : Convex ℝ {z : ℝ × ℝ | 0 ≤ z.1} := by
    have : {z : ℝ × ℝ | 0 ≤ z.1} = (LinearMap.fst ℝ ℝ ℝ) ⁻¹' Set.Ici 0 := rfl
    rw [this]
    exact (convex_Ici _).linear_preimage _
  have hsub : Set.range c ⊆ {z : ℝ × ℝ | 0 ≤ z.1} := by
    rintro _ ⟨i, rfl⟩
    simp only [demoCells, List.mem_cons, List.not_mem_nil, or_false] at hc
    rcases hc with rfl | rfl <;> fin_cases i <;> simp [squareCell, kiteCell]
  exact convexHull_min hsub hcv hz

/-- `x` solves the equation with the coefficient `4 + x` and the forcing function `-1`. -/
lemma field_setting : FieldSetting (meshSet demoCells) (fun z => 4 + z.1) (0, 0) 0 (fun _ _ => -1)
    (strongDefect (fun z => 4 + z.1) (fun z => z.1 ^ 2) (0, 0) 0 fun _ _ => -1) (fun z => z.1 ^ 2) fun z => z.1 := by
  have ha := field_polynomial
  have hf : IsPolynomial (fun i j => i + j ≤ 1 + 2) fun _ : ℝ × ℝ => (-1 : ℝ) := const_polynomial _ _
  have hv : IsPolynomial (fun i j => i + j ≤ 2) fun z : ℝ × ℝ => z.1 := ⟨[(1, 1, 0)], by simp, by simp⟩
  have hsol : ClassicalSolution (meshSet demoCells) (fun z => 4 + z.1) (fun z => z.1) (0, 0) 0 fun _ _ => -1 := by
    have h1 := polynomial_defect (f := fun _ _ => -1) ha hv hf (0, 0) 0 (meshSet demoCells)
    have e1 : strongDefect (fun z => 4 + z.1) (fun z => z.1) (0, 0) 0 (fun _ _ => -1) = fun _ _ => 0 := by
      funext x y
      have d1 : dx (fun z : ℝ × ℝ => z.1) = fun _ => 1 := by
        funext z
        simp [dx]
      have d2 : dy (fun z : ℝ × ℝ => z.1) = fun _ => 0 := by
        funext z
        simp [dy]
      simp only [strongDefect, d1, d2]
      simp [dx, dy]
    rw [e1] at h1
    simpa using h1.solves
  exact ⟨fun z hz => by linarith [demo_right z (interior_subset hz)], fun z _ => ha.differentiable z, le_rfl,
    polynomial_defect (f := fun _ _ => -1) ha square_polynomial hf (0, 0) 0 _, hsol,
    fun z _ => square_polynomial.differentiable z, fun z _ => hv.differentiable z⟩

lemma field_factor : StabilityFactorField (meshSet demoCells) (fun z => 4 + z.1) (0, 0) 0 ((Real.exp 3 - 1) / 3) :=
  Or.inl ⟨3, 1, 4, 1, demo_width, one_pos, fun z hz =>
    ⟨by linarith [demo_right z (interior_subset hz)], by simp [dx]⟩, by norm_num, by norm_num⟩

/-- For the outputs `x²` and `4 + x` and the forcing function `-1` the solution `x` for this coefficient meets the
hypotheses on the mesh of a unit square and a kite, with the stability factor `(exp 3 - 1) / 3`, `δ = τ = 0` and one
sensor in the middle of the square. -/
example (beta w : ℝ) (bdv : List (ℝ × ℝ) × List ℝ) : ∃ C : ℝ, 0 ≤ C ∧
    ∃ nq, ∃ S : Fespace2D (ℝ → ℝ → ℝ) ℝ (defectSettings.feOrder.toNat ^ 2) nq, ∃ D, ∃ out : TrainOutInverse 1,
      Discretised demoCells (fun _ _ => -1) defectSettings S D ∧
      trainStepInverseDomain (lossCd2dInverseDomain _ _ _) (modelDataOf D bdv S.nCells)
        (fun _ : Fin 1 => ((1 / 2, 1 / 2) : ℝ × ℝ)) (fun _ => w) fieldNet beta
        (some [("b_x", 0), ("b_y", 0), ("c", 0)]) = .ok out ∧
      ∀ B, 0 ≤ B → (∀ z ∈ frontier (meshSet demoCells), |z.1 ^ 2 - z.1| ≤ B) →
        |(1 / 2 : ℝ) - w| ≤ B + (Real.exp 3 - 1) / 3 * (C * (Real.sqrt out.lossPde + 0 + 0))
          + Real.sqrt ((1 : ℕ) * out.sensorLoss 0) := by
  have hcells : ∀ c ∈ demoCells, ConvexCCW c := fun c hc => (demo_cells_ok c hc).1
  obtain ⟨C, hC, h⟩ := C96_field demoCells hcells "jacobi" (by decide) 5
  obtain ⟨nq, S, D, hS⟩ := defect_space fun _ _ => -1
  obtain ⟨ψ, hψ⟩ := testFunctions_exist demoCells hcells defectSettings.feType defectSettings.feOrder.toNat
  have hf : IsPolynomial (fun i j => i + j ≤ 1 + 2) fun _ : ℝ × ℝ => (-1 : ℝ) := const_polynomial _ _
  obtain ⟨out, h1, h2, -⟩ := h defectSettings rfl rfl ψ (fun _ _ => -1) _
    ⟨hcells, hψ, fun _ _ => continuousOn_const⟩ S D hS bdv (fun _ : Fin 1 => ((1 / 2, 1 / 2) : ℝ × ℝ)) (fun _ => w)
    (some [("b_x", 0), ("b_y", 0), ("c", 0)]) (0, 0) 0 ⟨_, rfl, rfl⟩ ⟨_, rfl, rfl⟩ ⟨_, rfl, rfl⟩
    (fun z => 4 + z.1) (fun z => z.1 ^ 2) (fun z => z.1) field_setting ((Real.exp 3 - 1) / 3) field_factor
    0 0 le_rfl le_rfl
    (integrandsNear_polynomial (f := fun _ _ => -1) field_polynomial square_polynomial hf (0, 0) 0 hcells hψ (by decide))
    (fun c _ => ⟨_, (density_isQ (f := fun _ _ => -1) field_polynomial square_polynomial hf (0, 0) 0 c).mono'
      (fun i j h => ⟨by show i < 5; omega, by show j < 5; omega⟩), fun p _ => by
        have : density c (strongDefect (fun z => 4 + z.1) (fun z : ℝ × ℝ => z.1 ^ 2) (0, 0) 0 fun _ _ => -1) p
          - density c (strongDefect (fun z => 4 + z.1) (fun z : ℝ × ℝ => z.1 ^ 2) (0, 0) 0 fun _ _ => -1) p = 0 :=
          sub_self _
        exact (abs_eq_zero.2 this).le⟩)
    fieldNet (fun _ _ _ _ => by rename_i j; fin_cases j <;> rfl) beta
  exact ⟨C, hC, nq, S, D, out, hS, h1, fun B hB0 hB => (h2 B hB0 hB).2 0 demo_middle⟩

/-- The solution `x²` on the four points `(0, 1), …, (3, 1)`: a coefficient that vanishes at the first point cannot be
told from the constant one. -/
example (beta : ℝ) : ∃ out out' : TrainOutInverse 1,
    trainStepInverseDomain (lossCd2dInverseDomain 2 1 2) demoModel (fun _ : Fin 1 => ((1, 1) : ℝ × ℝ)) (fun _ => 2)
      (fun _ X i j => ![(X i).1 ^ 2, 1] j) beta (some [("b_x", 0), ("b_y", 0), ("c", 0)]) = .ok out ∧
    trainStepInverseDomain (lossCd2dInverseDomain 2 1 2) demoModel (fun _ : Fin 1 => ((1, 1) : ℝ × ℝ)) (fun _ => 2)
      (fun _ X i j => ![(X i).1 ^ 2, 1 + ((X i).1 - 1) * ((X i).1 - 2) * ((X i).1 - 3) / 6] j) beta
      (some [("b_x", 0), ("b_y", 0), ("c", 0)]) = .ok out' ∧ out'.lossPde = out.lossPde ∧ out'.loss 0 = out.loss 0 ∧
    (1 : ℝ) + (0 - 1) * (0 - 2) * (0 - 3) / 6 = 0 := by
  have hS : Shaped demoModel (fun c q => ((c.val * 2 + q.val : ℕ), 1)) := ⟨rfl, rfl, fun c q r hr => by simp [demoModel, hr]⟩
  have h1 : RowWise (dout := 2) (fun _ X i j => ![(X i).1 ^ 2, 1] j) ![fun z => z.1 ^ 2, fun _ => 1] :=
    fun _ _ _ j => by fin_cases j <;> rfl
  have h2 : RowWise (dout := 2) (fun _ X i j => ![(X i).1 ^ 2, 1 + ((X i).1 - 1) * ((X i).1 - 2) * ((X i).1 - 3) / 6] j)
      ![fun z => z.1 ^ 2, fun z => 1 + (z.1 - 1) * (z.1 - 2) * (z.1 - 3) / 6] :=
    fun _ _ _ j => by fin_cases j <;> rfl
  obtain ⟨out, h⟩ := (C47_inverse_domain demoModel _ hS beta (some [("b_x", 0), ("b_y", 0), ("c", 0)])
    (fun _ : Fin 1 => ((1, 1) : ℝ × ℝ)) (fun _ => 2) le_rfl _ _ h1).1.2
    ⟨0, 0, 0, ⟨_, rfl, rfl⟩, ⟨_, rfl, rfl⟩, ⟨_, rfl, rfl⟩⟩
  obtain ⟨out', h', e1, -, -, e2⟩ := C96_invisible demoModel _ hS _ _ beta _ _ _ _ _ _ h1 h2 (fun c q hne => by
    have d1 : ∀ z : ℝ × ℝ, dx (fun z : ℝ × ℝ => z.1 ^ 2) z = 2 * z.1 := fun z => by simp [dx]
    have d2 : ∀ z : ℝ × ℝ, dy (fun z : ℝ × ℝ => z.1 ^ 2) z = 0 := fun z => by simp [dy]
    rw [d1, d2] at hne
    fin_cases c <;> fin_cases q <;> first | (norm_num; done) | norm_num at hne) out h
  exact ⟨out, out', h, h', e1, e2, by norm_num⟩

end FastVPINNs
