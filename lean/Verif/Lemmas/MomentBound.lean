import Verif.Props.Defect
import Verif.Spec.Stability
import Mathlib.Analysis.Normed.Module.FiniteDimension
import Mathlib.LinearAlgebra.Matrix.ToLin

/-! # A polynomial is bounded by its moments -/

namespace FastVPINNs

open Spec MeasureTheory Topology

/-- The polynomial with these coefficients. -/
noncomputable def polyOf {N : ℕ} (κ : Fin N × Fin N → ℝ) (z : ℝ × ℝ) : ℝ :=
  ∑ ij, κ ij * (z.1 ^ ij.1.val * z.2 ^ ij.2.val)

lemma polyOf_exists {N : ℕ} {P : ℝ × ℝ → ℝ} (hP : IsPolynomial (fun i j => i < N ∧ j < N) P) :
    ∃ κ : Fin N × Fin N → ℝ, P = polyOf κ := by
  refine IsPolynomial.induct (p := fun P => ∃ κ : Fin N × Fin N → ℝ, P = polyOf κ) ?_ ?_ hP
  · exact ⟨0, by funext z; simp [polyOf]⟩
  · rintro a i j P ⟨hi, hj⟩ ⟨κ, rfl⟩
    refine ⟨fun ij => (if ij = (⟨i, hi⟩, ⟨j, hj⟩) then a else 0) + κ ij, ?_⟩
    funext z
    simp only [polyOf, add_mul, Finset.sum_add_distrib, ite_mul, zero_mul]
    rw [Finset.sum_ite_eq' Finset.univ]
    simp [mul_assoc]

lemma polyOf_isPolynomial {N : ℕ} (κ : Fin N × Fin N → ℝ) : IsPolynomial (fun i j => i < N ∧ j < N) (polyOf κ) := by
  refine ⟨(Finset.univ : Finset (Fin N × Fin N)).toList.map fun ij => (κ ij, ij.1.val, ij.2.val), ?_, fun z => ?_⟩
  · intro t ht
    obtain ⟨ij, -, rfl⟩ := List.mem_map.1 ht
    exact ⟨ij.1.2, ij.2.2⟩
  · rw [List.map_map, polyOf, ← Finset.sum_map_toList]
    congr 1
    exact List.map_congr_left fun ij _ => by simp [mul_assoc]

/-- A polynomial in one variable that is zero on the interval has no coefficients. -/
lemma coefficients_zero {N : ℕ} {a : Fin N → ℝ} (h : ∀ x ∈ Set.Icc (-1 : ℝ) 1, ∑ i, a i * x ^ i.val = 0)
    (i : Fin N) : a i = 0 := by
  have h0 : (∑ i, Polynomial.monomial i.val (a i) : Polynomial ℝ) = 0 := by
    refine Polynomial.eq_zero_of_infinite_isRoot _ ((Set.Icc_infinite (by norm_num : (-1 : ℝ) < 1)).mono ?_)
    intro x hx
    simpa [Polynomial.IsRoot, Polynomial.eval_finsetSum] using h x hx
  have := congrArg (fun q => Polynomial.coeff q i.val) h0
  simpa [Polynomial.finsetSum_coeff, Polynomial.coeff_monomial, Fin.val_inj] using this

lemma polyOf_zero {N : ℕ} {κ : Fin N × Fin N → ℝ} (h : ∀ p ∈ refSquare, polyOf κ p = 0) : κ = 0 := by
  have h1 : ∀ y ∈ Set.Icc (-1 : ℝ) 1, ∀ i, ∑ j : Fin N, κ (i, j) * y ^ j.val = 0 := by
    intro y hy
    refine coefficients_zero fun x hx => ?_
    have := h (x, y) ⟨hx.1, hx.2, hy.1, hy.2⟩
    rw [polyOf, Fintype.sum_prod_type] at this
    rw [← this]
    refine Finset.sum_congr rfl fun i _ => ?_
    rw [Finset.sum_mul]
    exact Finset.sum_congr rfl fun j _ => by ring
  funext ij
  exact coefficients_zero (fun y hy => h1 y hy ij.1) ij.2

/-- The moments as a linear map of the coefficients. -/
noncomputable def momentMap (ty : String) (N : ℕ) : (Fin N × Fin N → ℝ) →ₗ[ℝ] (Fin (N ^ 2) → ℝ) :=
  Matrix.toLin' fun t ij => ∫ p in refSquare, (p.1 ^ ij.1.val * p.2 ^ ij.2.val) * refTest ty (t.val / N) (t.val % N) p

lemma momentMap_apply (ty : String) (N : ℕ) (κ : Fin N × Fin N → ℝ) (t : Fin (N ^ 2)) :
    momentMap ty N κ t = ∫ p in refSquare, polyOf κ p * refTest ty (t.val / N) (t.val % N) p := by
  have hint : ∀ ij : Fin N × Fin N, IntegrableOn (fun p : ℝ × ℝ =>
      (p.1 ^ ij.1.val * p.2 ^ ij.2.val) * refTest ty (t.val / N) (t.val % N) p) refSquare := fun ij =>
    ((by fun_prop : Continuous fun p : ℝ × ℝ => p.1 ^ ij.1.val * p.2 ^ ij.2.val).mul
      (refTest_continuous ty _ _)).continuousOn.integrableOn_compact refSquare_compact
  simp only [momentMap, polyOf, Finset.sum_mul]
  rw [integral_finsetSum _ fun ij _ => by simpa only [mul_assoc] using (hint ij).const_mul (κ ij)]
  refine Finset.sum_congr rfl fun ij _ => ?_
  rw [mul_comm, ← integral_const_mul]
  exact integral_congr_ae (Filter.Eventually.of_forall fun p => by simp only; ring)

lemma momentMap_ker {ty : String} (hty : ty ≠ "jacobi_plain") (N : ℕ) : LinearMap.ker (momentMap ty N) = ⊥ := by
  rw [LinearMap.ker_eq_bot']
  intro κ hκ
  have hP := polyOf_isPolynomial κ
  obtain ⟨coef, hcoef⟩ := testExpansion_exists hty hP
  have hc : Continuous (polyOf κ) := hP.differentiable.continuous
  have := weightedSq_le hc hcoef hc.continuousOn (η := fun _ => 0) fun t ht => by
    rw [← momentMap_apply ty N κ ⟨t, ht⟩, hκ]
    simp
  refine polyOf_zero fun p hp => eq_zero_of_weightedSq hc.continuousOn ?_ hp
  simpa [weightedSq] using this

/-- Polynomials are bounded on the square by their moments. -/
lemma moment_bound {ty : String} (hty : ty ≠ "jacobi_plain") (N : ℕ) : ∃ C : ℝ, 0 ≤ C ∧
    ∀ P, IsPolynomial (fun i j => i < N ∧ j < N) P → ∀ η : ℝ, 0 ≤ η →
      (∀ t < N ^ 2, |∫ p in refSquare, P p * refTest ty (t / N) (t % N) p| ≤ η) →
      ∀ p ∈ refSquare, |P p| ≤ C * η := by
  obtain ⟨K, -, hK⟩ := LinearMap.exists_antilipschitzWith (momentMap ty N) (momentMap_ker hty N)
  refine ⟨(Fintype.card (Fin N × Fin N) : ℝ) * K, by positivity, fun P hP η hη hm p hp => ?_⟩
  obtain ⟨κ, rfl⟩ := polyOf_exists hP
  have h1 : ‖momentMap ty N κ‖ ≤ η := (pi_norm_le_iff_of_nonneg hη).2 fun t => by
    rw [Real.norm_eq_abs, momentMap_apply]
    exact hm t.val t.2
  have h2 : ‖κ‖ ≤ K * η := by
    have h3 := hK.le_mul_dist κ 0
    rw [map_zero, dist_zero_right, dist_zero_right] at h3
    exact h3.trans (mul_le_mul_of_nonneg_left h1 K.2)
  calc |polyOf κ p| ≤ ∑ ij, |κ ij * (p.1 ^ ij.1.val * p.2 ^ ij.2.val)| := Finset.abs_sum_le_sum_abs _ _
    _ ≤ ∑ _ij : Fin N × Fin N, K * η := Finset.sum_le_sum fun ij _ => by
        have hp1 : |p.1| ≤ 1 := abs_le.2 ⟨hp.1, hp.2.1⟩
        have hp2 : |p.2| ≤ 1 := abs_le.2 ⟨hp.2.2.1, hp.2.2.2⟩
        rw [abs_mul, abs_mul, abs_pow, abs_pow]
        have h4 : |p.1| ^ ij.1.val * |p.2| ^ ij.2.val ≤ 1 :=
          mul_le_one₀ (pow_le_one₀ (abs_nonneg _) hp1) (by positivity) (pow_le_one₀ (abs_nonneg _) hp2)
        have h5 : |κ ij| ≤ K * η := (norm_le_pi_norm κ ij).trans h2
        calc |κ ij| * (|p.1| ^ ij.1.val * |p.2| ^ ij.2.val) ≤ |κ ij| * 1 :=
              mul_le_mul_of_nonneg_left h4 (abs_nonneg _)
          _ ≤ K * η := by rw [mul_one]; exact h5
    _ = _ := by simp [mul_assoc]

/-- The defect on a cell is bounded by its moments and its distance from the polynomials. -/
lemma density_bound {ty : String} (hty : ty ≠ "jacobi_plain") (N : ℕ) : ∃ C : ℝ, 0 ≤ C ∧
    ∀ G, ContinuousOn G refSquare → ∀ P, IsPolynomial (fun i j => i < N ∧ j < N) P → ∀ η τ : ℝ, 0 ≤ η → 0 ≤ τ →
      (∀ t < N ^ 2, |∫ p in refSquare, G p * refTest ty (t / N) (t % N) p| ≤ η) →
      (∀ p ∈ refSquare, |G p - P p| ≤ τ) → ∀ p ∈ refSquare, |G p| ≤ C * (η + τ) := by
  obtain ⟨C, hC, hb⟩ := moment_bound hty N
  set M : ℝ := ∑ t ∈ Finset.range (N ^ 2), ∫ p in refSquare, |refTest ty (t / N) (t % N) p| with hM
  have hM0 : ∀ t, 0 ≤ ∫ p in refSquare, |refTest ty (t / N) (t % N) p| := fun t =>
    integral_nonneg fun p => abs_nonneg _
  have hMn : 0 ≤ M := Finset.sum_nonneg fun t _ => hM0 t
  refine ⟨C * (1 + M) + 1, by positivity, fun G hG P hP η τ hη hτ hm hd p hp => ?_⟩
  have hPc : Continuous P := hP.differentiable.continuous
  have h1 : ∀ t < N ^ 2, |∫ p in refSquare, P p * refTest ty (t / N) (t % N) p| ≤ η + τ * M := by
    intro t ht
    have hR := refTest_continuous ty (t / N) (t % N)
    have i1 : IntegrableOn (fun p => G p * refTest ty (t / N) (t % N) p) refSquare :=
      (hG.mul hR.continuousOn).integrableOn_compact refSquare_compact
    have i2 : IntegrableOn (fun p => P p * refTest ty (t / N) (t % N) p) refSquare :=
      (hPc.mul hR).continuousOn.integrableOn_compact refSquare_compact
    have i3 : IntegrableOn (fun p => τ * |refTest ty (t / N) (t % N) p|) refSquare :=
      (hR.abs.continuousOn.integrableOn_compact refSquare_compact).const_mul _
    have h2 : |(∫ p in refSquare, P p * refTest ty (t / N) (t % N) p)
        - ∫ p in refSquare, G p * refTest ty (t / N) (t % N) p|
        ≤ τ * ∫ p in refSquare, |refTest ty (t / N) (t % N) p| := by
      rw [← integral_sub i2 i1, ← integral_const_mul, ← Real.norm_eq_abs]
      refine (norm_integral_le_integral_norm _).trans (setIntegral_mono_on (i2.sub i1).norm i3
        refSquare_measurable fun p hp => ?_)
      rw [← sub_mul, norm_mul, Real.norm_eq_abs, Real.norm_eq_abs, abs_sub_comm]
      exact mul_le_mul_of_nonneg_right (hd p hp) (abs_nonneg _)
    have h3 : ∫ p in refSquare, |refTest ty (t / N) (t % N) p| ≤ M :=
      Finset.single_le_sum (f := fun t => ∫ p in refSquare, |refTest ty (t / N) (t % N) p|)
        (fun t _ => hM0 t) (Finset.mem_range.2 ht)
    have h4 := abs_sub_abs_le_abs_sub (∫ p in refSquare, P p * refTest ty (t / N) (t % N) p)
      (∫ p in refSquare, G p * refTest ty (t / N) (t % N) p)
    have h5 := mul_le_mul_of_nonneg_left h3 hτ
    have h6 := hm t ht
    linarith
  have h7 := hb P hP (η + τ * M) (by positivity) h1 p hp
  have h8 := hd p hp
  have h9 := abs_sub_abs_le_abs_sub (G p) (P p)
  have h10 : 0 ≤ C * (M * η) := by positivity
  have h11 : 0 ≤ C * τ := by positivity
  nlinarith

/-- The Jacobian of a strictly convex cell is bounded from below. -/
lemma bilinDet_lower {c : Quad} (hc : ConvexCCW c) : ∃ J : ℝ, 0 < J ∧ ∀ p ∈ refSquare, J ≤ bilinDet c p.1 p.2 := by
  have hne : refSquare.Nonempty := ⟨(0, 0), by norm_num [refSquare]⟩
  obtain ⟨m, hm, hmin⟩ := refSquare_compact.exists_isMinOn hne (bilinDet_continuous c).continuousOn
  exact ⟨_, bilinDet_pos hc hm, fun p hp => hmin hp⟩

/-- The same for a list of cells. -/
lemma bilinDet_lower_all {cells : List Quad} (hcells : ∀ c ∈ cells, ConvexCCW c) :
    ∃ J : ℝ, 0 < J ∧ ∀ c ∈ cells, ∀ p ∈ refSquare, J ≤ bilinDet c p.1 p.2 := by
  induction cells with
  | nil => exact ⟨1, one_pos, by simp⟩
  | cons c l ih =>
    obtain ⟨J, hJ, h⟩ := ih fun c hc => hcells c (List.mem_cons_of_mem _ hc)
    obtain ⟨J', hJ', h'⟩ := bilinDet_lower (hcells c List.mem_cons_self)
    refine ⟨min J J', lt_min hJ hJ', fun d hd p hp => ?_⟩
    rcases List.mem_cons.1 hd with rfl | hd
    · exact (min_le_right _ _).trans (h' p hp)
    · exact (min_le_left _ _).trans (h d hd p hp)

/-- The defect on the mesh is bounded by the weak forms and its distance from the polynomials. -/
lemma defect_bound {cells : List Quad} (hcells : ∀ c ∈ cells, ConvexCCW c) {ty : String} (hty : ty ≠ "jacobi_plain")
    (N : ℕ) : ∃ C : ℝ, 0 ≤ C ∧ ∀ (ψ : ℕ → ℕ → ℝ × ℝ → ℝ) (f ρ : ℝ → ℝ → ℝ), VariationalSetup cells ty N ψ f →
      ∀ (a u : ℝ × ℝ → ℝ) (b : ℝ × ℝ) (r : ℝ), (∀ c ∈ cells, IsDefect (cellSet c) a u b r f ρ) →
      ∀ η τ : ℝ, 0 ≤ η → 0 ≤ τ → DensityNear cells N ρ τ →
      (∀ k c, cells[k]? = some c → ∀ t < N ^ 2, |weakIntegral (cellSet c) a u b r f (ψ k t)| ≤ η) →
      ∀ z ∈ meshSet cells, |ρ z.1 z.2| ≤ C * (η + τ) := by
  obtain ⟨J, hJ, hdet⟩ := bilinDet_lower_all hcells
  obtain ⟨C, hC, hb⟩ := density_bound hty N
  refine ⟨C / J, by positivity, fun ψ f ρ hV a u b r hρ η τ hη hτ hτP hw z ⟨c, hc, hz⟩ => ?_⟩
  obtain ⟨k, hk⟩ := List.mem_iff_getElem?.1 hc
  obtain ⟨P, hP, hPd⟩ := hτP c hc
  have hT : assignFeTransformation "quadrilateral" "bilinear" c = .ok (quadBilinear c) := by
    simp [assignFeTransformation]
  have himg : bmap c '' refSquare = convexHull ℝ (Set.range c) := (C25_square_onto_cell c _ hT).2.2.2 (hcells c hc)
  rw [cellSet, ← himg] at hz
  obtain ⟨p, hp, rfl⟩ := hz
  have h1 := hb (density c ρ) (density_continuous (hcells c hc) (hρ c hc).continuous) P hP η τ hη hτ
    (fun t ht => by
      rw [← weakIntegral_density (hcells c hc) hty (hV.test k c hk t ht) (hV.forcing c hc) (hρ c hc)]
      exact hw k c hk t ht) hPd p hp
  rw [density_eq, abs_mul, abs_of_pos (bilinDet_pos (hcells c hc) hp)] at h1
  rw [div_mul_eq_mul_div, le_div_iff₀ hJ, mul_comm]
  exact (mul_le_mul_of_nonneg_right (hdet c hc p hp) (abs_nonneg _)).trans h1

end FastVPINNs
