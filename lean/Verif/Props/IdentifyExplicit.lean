import Verif.Props.Identify
import Verif.Props.Refine

/-! # C97: the error of the unknown parameter with explicit constants -/

namespace FastVPINNs

open Spec

/-- **C97** (the unknown parameter).  The bound of `C95_identified` with explicit constants.  On cells of area at least
`m`, with test functions of order `N` that vanish on the edges, for a network `u` whose defect varies by at most `ω` on
each cell: at every sensor where the forcing function shows with the amount `Q`, the error of the reciprocal of the
parameter times `Q` is at most the sum of the square roots of sensor and boundary loss (times the square roots of the
numbers of points), the noise `η` of the sensors, the sampling error `κ` of the boundary, and
`A ((N √L + 8 δ) / m + ω)` with the reported PDE loss `L`. -/
theorem C97_identified {V : Type} {cells : List Quad} {s : FESettings} {ψ : ℕ → ℕ → ℝ × ℝ → ℝ} {f ρ : ℝ → ℝ → ℝ}
    {nq : ℕ} {S : Fespace2D (ℝ → ℝ → ℝ) V (s.feOrder.toNat ^ 2) nq} {D : DataHandler2D (s.feOrder.toNat ^ 2) nq}
    (hty : s.feType ≠ "jacobi_plain") (hV : VariationalSetup cells s.feType s.feOrder.toNat ψ f)
    (hR : Discretised cells f s S D) (bdv : List (ℝ × ℝ) × List ℝ) {nS : ℕ} (sp : Fin nS → ℝ × ℝ) (sv : Fin nS → ℝ)
    (p ip : ParamDict) (e e₀ : ℝ) (he : HasParam ip "eps" e) (u v : ℝ × ℝ → ℝ)
    (h : InverseSetting (meshSet cells) e e₀ f ρ u v) (A : ℝ) (hA : StabilityFactor (meshSet cells) e (0, 0) 0 A)
    (δ m ω κ η : ℝ) (hδ0 : 0 ≤ δ) (hm : 0 < m) (hκ : 0 ≤ κ)
    (hδ : IntegrandsNear (ruleDegree s.quadType s.quadOrder) cells s.feOrder.toNat ψ (fun _ => e) u (0, 0) 0 f
      (fun _ _ => δ)) (harea : AreaAtLeast cells m) (hω : Oscillation cells ρ ω)
    (hbd : BoundarySampled (meshSet cells) bdv u v κ) (hη : ∀ i, |sv i - v (sp i)| ≤ η) (net : Network 1)
    (hnet : RowWise net (fun _ => u)) (beta : ℝ) :
    ∃ out, trainStepInverse (lossPoissonInverse _ _ _) (modelDataOf D bdv S.nCells) sp sv ip net beta p = .ok out ∧
      (∀ (i : Fin nS) (Q : ℝ), sp i ∈ meshSet cells → ShowsAt (meshSet cells) f (sp i) Q →
        |1 / e - 1 / e₀| * Q ≤ Real.sqrt (nS * out.sensorLoss 0) + η
          + (κ + Real.sqrt (bdv.1.length * out.lossDirichlet 0))
          + A * ((s.feOrder.toNat * Real.sqrt out.lossPde + 8 * δ) / m + ω)) ∧
      ∀ (i : Fin nS) (q r : ℝ), 0 < q → 0 < r →
        ((∀ z ∈ interior (meshSet cells), q ≤ f z.1 z.2) ∨ ∀ z ∈ interior (meshSet cells), f z.1 z.2 ≤ -q) →
        sp i ∈ meshSet cells → (∀ z ∈ frontier (meshSet cells), r ^ 2 ≤ sqDist z (sp i)) →
        |e - e₀| ≤ 4 * e * e₀ / (q * r ^ 2) * (Real.sqrt (nS * out.sensorLoss 0) + η
          + (κ + Real.sqrt (bdv.1.length * out.lossDirichlet 0))
          + A * ((s.feOrder.toNat * Real.sqrt out.lossPde + 8 * δ) / m + ω)) := by
  have hsm : ∀ c ∈ cells, SmoothOn (cellSet c) u := fun c hc =>
    (h.defect.mono (cellSet_subset_meshSet hc)).solves.smooth
  obtain ⟨out, R, h1, h3, h5⟩ := C69_inverse hV hR bdv e u hsm _ hδ sp sv net hnet beta p ip he
  obtain ⟨pt, -, hsh, -⟩ := pdeLoss_close hV hR bdv (fun _ _ => continuousOn_const) hsm hδ
  obtain ⟨-, -, -, e2, e4, -⟩ := (C47_inverse _ pt hsh beta p ip sp sv net (fun _ => u) hnet).2 out h1
  have hd := defect_le_residuals hty hV hR h.defect hδ0 hm harea hω h5
  have hω0 := oscillation_nonneg hR hω
  have key : ∀ (i : Fin nS) (Q : ℝ), sp i ∈ meshSet cells → ShowsAt (meshSet cells) f (sp i) Q →
      |1 / e - 1 / e₀| * Q ≤ Real.sqrt (nS * out.sensorLoss 0) + η
        + (κ + Real.sqrt (bdv.1.length * out.lossDirichlet 0))
        + A * ((s.feOrder.toNat * Real.sqrt out.lossPde + 8 * δ) / m + ω) := by
    intro i Q hi hQ
    have key := C95_continuous _ (meshSet_compact cells) e e₀ f ρ u v h A hA
      (κ + Real.sqrt (bdv.1.length * out.lossDirichlet 0)) _ (by positivity) (by positivity)
      (fun y hy => by rw [e2]; exact boundary_error hbd hy) (fun z hz => hd z (interior_subset hz)) (sp i) hi Q hQ
    have hsens := abs_le_meanSq (fun i => u (sp i) - sv i) i
    rw [← e4] at hsens
    have h6 : |u (sp i) - v (sp i)| ≤ |u (sp i) - sv i| + |sv i - v (sp i)| := abs_sub_le _ _ _
    rw [h3]
    linarith [hη i]
  refine ⟨out, h1, key, fun i q r hq hr hf hi hdist => ?_⟩
  have hk := key i _ hi (C95_one_sign _ f q r hq.le hf _ hdist)
  obtain ⟨he0, he1, -⟩ := h
  have e6 : |e - e₀| = e * e₀ * |1 / e - 1 / e₀| := by
    have : e - e₀ = -(e * e₀ * (1 / e - 1 / e₀)) := by field_simp; ring
    rw [this, abs_neg, abs_mul, abs_of_pos (mul_pos he0 he1)]
  rw [e6]
  have e7 : e * e₀ * |1 / e - 1 / e₀| = 4 * e * e₀ / (q * r ^ 2) * (|1 / e - 1 / e₀| * (q * r ^ 2 / 4)) := by
    field_simp
  rw [e7]
  exact mul_le_mul_of_nonneg_left hk (by positivity)

lemma square_defect_scaled (e κ x y : ℝ) :
    strongDefect (fun _ => e) (fun z => z.1 ^ 2) (0, 0) 0 (fun _ _ => κ) x y = -(e * 2) - κ := by
  have e1 : dx (fun z : ℝ × ℝ => z.1 ^ 2) = fun z => 2 * z.1 := by
    funext z
    simp [dx]
  have e2 : dy (fun z : ℝ × ℝ => z.1 ^ 2) = fun _ => 0 := by
    funext z
    simp [dy]
  simp only [strongDefect, e1, e2]
  simp [dx, dy]

/-- The network `x²` with any positive parameter, the true parameter 1, one sensor in the middle of the unit square and
one boundary point, on a mesh with areas of at least 1 and with a defect that is constant. -/
example (κ e beta : ℝ) (hκ : 0 < κ) (he : 0 < e) :
    ∃ nq, ∃ S : Fespace2D (ℝ → ℝ → ℝ) ℝ (defectSettings.feOrder.toNat ^ 2) nq, ∃ D, ∃ out : TrainOutInverse 1,
      Discretised demoCells (fun _ _ => κ) defectSettings S D ∧
      trainStepInverse (lossPoissonInverse _ _ _) (modelDataOf D ([(0, 0)], [0]) S.nCells)
        (fun _ : Fin 1 => (1 / 2, 1 / 2)) (fun _ => -κ / 8) (some [("eps", e)]) squareNet beta none = .ok out ∧
      |e - 1| ≤ 4 * e * 1 / (κ * (1 / 2) ^ 2) * (Real.sqrt ((1 : ℕ) * out.sensorLoss 0) + 0
        + ((1 + κ / 2) * 9 + Real.sqrt ((1 : ℕ) * out.lossDirichlet 0))
        + 3 ^ 2 / (2 * e) * (((5 : ℕ) * Real.sqrt out.lossPde + 8 * 0) / 1 + 0)) := by
  have hcells : ∀ c ∈ demoCells, ConvexCCW c := fun c hc => (demo_cells_ok c hc).1
  obtain ⟨nq, S, D, hS⟩ := defect_space fun _ _ => κ
  obtain ⟨ψ, hψ⟩ := testFunctions_exist demoCells hcells defectSettings.feType defectSettings.feOrder.toNat
  have ha : IsPolynomial (fun i j => i + j ≤ 0) fun _ : ℝ × ℝ => e := const_polynomial 0 e
  have hf : IsPolynomial (fun i j => i + j ≤ 0 + 2) fun _ : ℝ × ℝ => κ := const_polynomial _ κ
  have hv : IsPolynomial (fun i j => i + j ≤ 2) fun z : ℝ × ℝ => (-κ / 2) * z.1 ^ 2 := square_polynomial.const_mul _
  obtain ⟨x₀, hx₀⟩ := demo_width
  obtain ⟨out, h1, -, h2⟩ := C97_identified (s := defectSettings) (by decide)
    ⟨hcells, hψ, fun _ _ => continuousOn_const⟩ hS ([(0, 0)], [0]) (fun _ : Fin 1 => (1 / 2, 1 / 2))
    (fun _ => -κ / 8) none (some [("eps", e)]) e 1 ⟨_, rfl, rfl⟩ (fun z => z.1 ^ 2) (fun z => (-κ / 2) * z.1 ^ 2)
    ⟨he, one_pos, polynomial_defect (f := fun _ _ => κ) ha square_polynomial hf (0, 0) 0 _, demo_solution κ,
      fun z _ => square_polynomial.differentiable z, fun z _ => hv.differentiable z⟩
    (3 ^ 2 / (2 * e)) (Or.inl ⟨3, demo_width, Or.inl rfl⟩) 0 1 0 ((1 + κ / 2) * 9) 0 le_rfl one_pos (by positivity)
    (integrandsNear_polynomial (f := fun _ _ => κ) ha square_polynomial hf (0, 0) 0 hcells hψ (by decide))
    demo_area (fun c _ z _ y _ => by rw [square_defect_scaled, square_defect_scaled]; simp)
    ⟨fun i => by simp, fun z hz => ⟨⟨0, by simp⟩, by
      have hz' : z ∈ meshSet demoCells := (meshSet_compact demoCells).isClosed.frontier_subset hz
      have h0 : ((0, 0) : ℝ × ℝ) ∈ meshSet demoCells :=
        ⟨squareCell 1, by simp [demoCells], subset_convexHull ℝ _ ⟨0, by simp [squareCell]⟩⟩
      have h3 := hx₀ z hz'
      have h4 := hx₀ _ h0
      simp only at h4
      have h5 : z.1 ^ 2 ≤ 9 := by nlinarith
      have e1 : z.1 ^ 2 - -κ / 2 * z.1 ^ 2 - (((0 : ℝ), (0 : ℝ)).1 ^ 2 - -κ / 2 * ((0 : ℝ), (0 : ℝ)).1 ^ 2)
          = (1 + κ / 2) * z.1 ^ 2 := by
        simp only
        ring
      simp only [List.get_eq_getElem, List.getElem_cons_zero]
      rw [e1, abs_of_nonneg (by positivity)]
      exact mul_le_mul_of_nonneg_left h5 (by positivity)⟩⟩
    (fun i => by
      have : -κ / 8 - -κ / 2 * (1 / 2 : ℝ) ^ 2 = 0 := by ring
      exact (abs_eq_zero.2 this).le)
    squareNet (fun _ _ _ _ => rfl) beta
  exact ⟨nq, S, D, out, hS, h1, h2 0 κ (1 / 2) hκ (by norm_num) (Or.inl fun _ _ => le_rfl) demo_middle demo_distance⟩

end FastVPINNs
