import Verif.Props.Consistency
import Verif.Props.Examples
import Mathlib.Analysis.SpecialFunctions.Trigonometric.Basic
import Mathlib.Analysis.SpecialFunctions.Complex.Circle
import Mathlib.Analysis.Complex.Exponential

/-! # C71: the shipped examples at their exact solutions -/

namespace FastVPINNs

open Spec MeasureTheory Polynomial Topology

/-- Sine waves are close to polynomials. -/
lemma wave_near (α β : ℝ) (m : ℕ) (hβ : 2 * |β| ≤ m + 2) :
    ∃ P : ℝ[X], P.natDegree ≤ m ∧ ∀ ξ ∈ Set.Icc (-1 : ℝ) 1,
      |Real.sin (α + β * ξ) - P.eval ξ| ≤ 2 * |β| ^ (m + 1) / (m + 1).factorial := by
  refine ⟨∑ k ∈ Finset.range (m + 1), C (Complex.exp (α * Complex.I) * (β * Complex.I) ^ k
    / k.factorial).im * X ^ k, ?_, fun ξ hξ => ?_⟩
  · refine natDegree_sum_le_of_forall_le _ _ fun k hk => ?_
    have := Finset.mem_range.1 hk
    exact (natDegree_C_mul_X_pow_le _ _).trans (by omega)
  · have h1 : Real.sin (α + β * ξ)
        = (Complex.exp (α * Complex.I) * Complex.exp (β * ξ * Complex.I)).im := by
      rw [← Complex.exp_add, ← add_mul]
      have : ((α + β * ξ : ℝ) : ℂ) = (α : ℂ) + β * ξ := by push_cast; rfl
      rw [← this, Complex.exp_ofReal_mul_I_im]
    have h2 : (∑ k ∈ Finset.range (m + 1), C (Complex.exp (α * Complex.I) * (β * Complex.I) ^ k
          / k.factorial).im * X ^ k : ℝ[X]).eval ξ
        = (Complex.exp (α * Complex.I) * ∑ k ∈ Finset.range (m + 1),
            (β * ξ * Complex.I) ^ k / k.factorial).im := by
      rw [eval_finsetSum, Finset.mul_sum, Complex.im_sum]
      refine Finset.sum_congr rfl fun k _ => ?_
      have e : Complex.exp (α * Complex.I) * ((β * ξ * Complex.I) ^ k / k.factorial)
          = (Complex.exp (α * Complex.I) * (β * Complex.I) ^ k / k.factorial) * ((ξ ^ k : ℝ) : ℂ) := by
        push_cast
        rw [mul_pow, mul_pow, mul_pow]
        ring
      rw [e, Complex.im_mul_ofReal]
      simp
    have habs : |ξ| ≤ 1 := abs_le.2 hξ
    have hn : ‖(β * ξ * Complex.I : ℂ)‖ = |β| * |ξ| := by simp
    have hle : |β| * |ξ| ≤ |β| := mul_le_of_le_one_right (abs_nonneg _) habs
    have hb := Complex.exp_bound' (x := β * ξ * Complex.I) (n := m + 1) (by
      rw [hn, div_le_iff₀ (by positivity)]
      push_cast
      linarith)
    rw [h1, h2, ← Complex.sub_im, ← mul_sub]
    refine (Complex.abs_im_le_norm _).trans ?_
    rw [norm_mul, Complex.norm_exp_ofReal_mul_I, one_mul]
    refine hb.trans ?_
    rw [hn, div_mul_eq_mul_div, mul_comm]
    gcongr

lemma wave_near_cos (α β : ℝ) (m : ℕ) (hβ : 2 * |β| ≤ m + 2) :
    ∃ P : ℝ[X], P.natDegree ≤ m ∧ ∀ ξ ∈ Set.Icc (-1 : ℝ) 1,
      |Real.cos (α + β * ξ) - P.eval ξ| ≤ 2 * |β| ^ (m + 1) / (m + 1).factorial := by
  obtain ⟨P, h1, h2⟩ := wave_near (α + Real.pi / 2) β m hβ
  refine ⟨P, h1, fun ξ hξ => ?_⟩
  have := h2 ξ hξ
  rwa [show α + Real.pi / 2 + β * ξ = α + β * ξ + Real.pi / 2 by ring, Real.sin_add_pi_div_two] at this

/-- A function with two continuous derivatives that solves the equation is a classical solution. -/
lemma classical_of_contDiff {a u : ℝ × ℝ → ℝ} (ha : ContDiff ℝ 1 a) (hu : ContDiff ℝ 2 u) {b : ℝ × ℝ} {r : ℝ}
    {f : ℝ → ℝ → ℝ} (hs : SolvesOn Set.univ a u b r f) (K : Set (ℝ × ℝ)) : ClassicalSolution K a u b r f := by
  have hd : Differentiable ℝ u := hu.differentiable (by norm_num)
  have hf : ContDiff ℝ 1 (fderiv ℝ u) := hu.fderiv_right (by norm_num)
  have hx : ContDiff ℝ 1 (dx u) := by
    rw [show dx u = fun z => fderiv ℝ u z (1, 0) from funext fun z => dx_eq_fderiv (hd z)]
    exact hf.clm_apply contDiff_const
  have hy : ContDiff ℝ 1 (dy u) := by
    rw [show dy u = fun z => fderiv ℝ u z (0, 1) from funext fun z => dy_eq_fderiv (hd z)]
    exact hf.clm_apply contDiff_const
  exact ⟨⟨hu.continuous.continuousOn, hx.continuous.continuousOn, hy.continuous.continuousOn⟩,
    ha.continuous.continuousOn, fun z _ => (ha.mul hx).differentiable (by norm_num) z,
    fun z _ => (ha.mul hy).differentiable (by norm_num) z, fun z _ => hs z trivial⟩

/-! ### The three products -/

lemma product_near {A B P Q e₁ e₂ : ℝ} (hA : |A - P| ≤ e₁) (hB : |B - Q| ≤ e₂) (hA1 : |A| ≤ 1)
    (hB1 : |B| ≤ 1) : |A * B - P * Q| ≤ e₁ + e₂ + e₁ * e₂ := by
  have h1 : |P| ≤ 1 + e₁ := by
    have := abs_sub_abs_le_abs_sub P A
    rw [abs_sub_comm] at this
    linarith
  have h2 : A * B - P * Q = (A - P) * B + P * (B - Q) := by ring
  have h3 : |(A - P) * B| ≤ e₁ * 1 := by
    rw [abs_mul]
    exact mul_le_mul hA hB1 (abs_nonneg _) ((abs_nonneg _).trans hA)
  have h4 : |P * (B - Q)| ≤ (1 + e₁) * e₂ := by
    rw [abs_mul]
    exact mul_le_mul h1 hB (abs_nonneg _) ((abs_nonneg _).trans h1)
  rw [h2]
  refine (abs_add_le _ _).trans ?_
  linarith

lemma IsQ.sub {d : ℕ} {G H : ℝ × ℝ → ℝ} (hG : IsQ d G) (hH : IsQ d H) : IsQ d fun z => G z - H z := by
  have := hG.add ((isQ_const 0 (-1)).mul hH (zero_add d).le)
  refine (congrArg (IsQ d) ?_).mp this
  funext z
  ring

/-- The integrand of the weak form of the sine problem on a rectangle. -/
lemma sine_near (w a b c d : ℝ) (hw : 0 ≤ w) (hab : a < b) (hcd : c < d) (ty : String) (N t m : ℕ) (ht : t < N ^ 2)
    (M : ℝ) (hM : ∀ i < N, ∀ x ∈ Set.Icc (-1 : ℝ) 1,
      |(testFamily ty i).eval x| ≤ M ∧ |(derivative (testFamily ty i)).eval x| ≤ M)
    (h1 : w * (b - a) ≤ m + 2) (h2 : w * (d - c) ≤ m + 2) (ψ : ℝ × ℝ → ℝ)
    (hψ : IsTestFunction ty N (rectangle a b c d) t ψ) (e₁ e₂ : ℝ)
    (he₁ : e₁ = 2 * (w * (b - a) / 2) ^ (m + 1) / (m + 1).factorial)
    (he₂ : e₂ = 2 * (w * (d - c) / 2) ^ (m + 1) / (m + 1).factorial) :
    NearPolynomial (m + (N + 1)) (rectangle a b c d)
      (weakIntegrand (fun _ => 1.0) (fun z => -1.0 * Real.sin (w * z.1) * Real.sin (w * z.2)) (0, 0) 0
        (fun x y => -2.0 * w ^ 2 * (Real.sin (w * x) * Real.sin (w * y))) ψ)
      ((w * (b - a + (d - c)) / 2 + w ^ 2 * ((b - a) * (d - c)) / 2) * M ^ 2 * (e₁ + e₂ + e₁ * e₂)) := by
  have hc : ConvexCCW (rectangle a b c d) := rectangle_convex hab hcd
  have hN : 0 < N := Nat.pos_of_ne_zero fun h => by simp [h] at ht
  have hi : t / N < N := by rw [Nat.div_lt_iff_lt_mul hN, ← sq]; exact ht
  have hj : t % N < N := Nat.mod_lt _ hN
  set i := t / N with hi'
  set j := t % N with hj'
  set α₁ := w * ((a + b) / 2) with hα₁
  set α₂ := w * ((c + d) / 2) with hα₂
  set β₁ := w * (b - a) / 2 with hβ₁
  set β₂ := w * (d - c) / 2 with hβ₂
  have hb1 : 0 ≤ β₁ := by have := mul_nonneg hw (sub_nonneg.2 hab.le); positivity
  have hb2 : 0 ≤ β₂ := by have := mul_nonneg hw (sub_nonneg.2 hcd.le); positivity
  have hB1 : 2 * |β₁| ≤ m + 2 := by rw [abs_of_nonneg hb1, hβ₁]; linarith
  have hB2 : 2 * |β₂| ≤ m + 2 := by rw [abs_of_nonneg hb2, hβ₂]; linarith
  obtain ⟨S₁, s1, hS₁⟩ := wave_near α₁ β₁ m hB1
  obtain ⟨S₂, s2, hS₂⟩ := wave_near α₂ β₂ m hB2
  obtain ⟨C₁, c1, hC₁⟩ := wave_near_cos α₁ β₁ m hB1
  obtain ⟨C₂, c2, hC₂⟩ := wave_near_cos α₂ β₂ m hB2
  rw [abs_of_nonneg hb1, ← he₁] at hS₁ hC₁
  rw [abs_of_nonneg hb2, ← he₂] at hS₂ hC₂
  set A := testFamily ty i with hA
  set B := testFamily ty j with hB
  have dA : A.natDegree ≤ N + 1 := (testFamily_degree ty i).trans (by omega)
  have dB : B.natDegree ≤ N + 1 := (testFamily_degree ty j).trans (by omega)
  have dA' : (derivative A).natDegree ≤ N + 1 := (natDegree_derivative_le A).trans (by omega)
  have dB' : (derivative B).natDegree ≤ N + 1 := (natDegree_derivative_le B).trans (by omega)
  -- the polynomial
  refine ⟨fun p => (w ^ 2 * ((b - a) * (d - c)) / 2) * (S₁.eval p.1 * S₂.eval p.2) * (A.eval p.1 * B.eval p.2)
    - (w * (d - c) / 2) * (C₁.eval p.1 * S₂.eval p.2) * ((derivative A).eval p.1 * B.eval p.2)
    - (w * (b - a) / 2) * (S₁.eval p.1 * C₂.eval p.2) * (A.eval p.1 * (derivative B).eval p.2), ?_, ?_⟩
  · have q := fun (k : ℝ) {P Q R T : ℝ[X]} (hP : P.natDegree ≤ m) (hQ : Q.natDegree ≤ m)
        (hR : R.natDegree ≤ N + 1) (hT : T.natDegree ≤ N + 1) =>
      (((isQ_const 0 k).mul (isQ_eval P Q hP hQ) (zero_add m).le).mul (isQ_eval R T hR hT)
        (le_refl (m + (N + 1))))
    exact ((q _ s1 s2 dA dB).sub (q _ c1 s2 dA' dB)).sub (q _ s1 c2 dA dB')
  · intro ξ hξ η hη
    have e : (bilinearImage (rectangle a b c d) : ℝ × ℝ → ℝ × ℝ)
        = fun p => (quadBilinear (rectangle a b c d)).originalFromRef p.1 p.2 :=
      funext fun p => (bmap_eq _ p).symm
    have hw' := weakIntegrand_eq hc hψ (fun _ => 1.0)
      (fun z => -1.0 * Real.sin (w * z.1) * Real.sin (w * z.2)) (0, 0) 0
      (fun x y => -2.0 * w ^ 2 * (Real.sin (w * x) * Real.sin (w * y))) (p := (ξ, η)) ⟨hξ, hη⟩
    rw [← bmap_eq, e, bilin_jacobianDet]
    simp only at hw'
    rw [hw']
    have hmap : bmap (rectangle a b c d) (ξ, η)
        = ((a + b) / 2 + (b - a) / 2 * ξ, (c + d) / 2 + (d - c) / 2 * η) := by
      simp only [bmap, quadBilinear, QuadBilinear.getOriginalFromRef, QuadBilinear.xc0,
        QuadBilinear.xc1, QuadBilinear.xc2, QuadBilinear.xc3, QuadBilinear.yc0, QuadBilinear.yc1,
        QuadBilinear.yc2, QuadBilinear.yc3, rectangle]
      ext <;> simp <;> ring
    have hdet : bilinDet (rectangle a b c d) ξ η = (b - a) * (d - c) / 4 := by
      simp only [bilinDet, QuadBilinear.xc1, QuadBilinear.xc2, QuadBilinear.xc3, QuadBilinear.yc1,
        QuadBilinear.yc2, QuadBilinear.yc3, rectangle]
      simp
      ring
    have hgx : refGradX (rectangle a b c d) ty i j (ξ, η)
        = (d - c) / 2 * ((derivative A).eval ξ * B.eval η) := by
      simp only [refGradX, refTest_dx, refTest_dy, QuadBilinear.yc1, QuadBilinear.yc2, QuadBilinear.yc3, rectangle]
      simp
      ring
    have hgy : refGradY (rectangle a b c d) ty i j (ξ, η)
        = (b - a) / 2 * (A.eval ξ * (derivative B).eval η) := by
      simp only [refGradY, refTest_dx, refTest_dy, QuadBilinear.xc1, QuadBilinear.xc2, QuadBilinear.xc3, rectangle]
      simp
      ring
    have hdx : ∀ z : ℝ × ℝ, dx (fun z => -1.0 * Real.sin (w * z.1) * Real.sin (w * z.2)) z
        = -(w * (Real.cos (w * z.1) * Real.sin (w * z.2))) := fun z => by
      refine ((((hasDerivAt_sin_mul w z.1).const_mul _).mul_const (Real.sin (w * z.2))).deriv).trans ?_
      rw [lit_one]; ring
    have hdy : ∀ z : ℝ × ℝ, dy (fun z => -1.0 * Real.sin (w * z.1) * Real.sin (w * z.2)) z
        = -(w * (Real.sin (w * z.1) * Real.cos (w * z.2))) := fun z => by
      refine ((hasDerivAt_sin_mul w z.2).const_mul (-1.0 * Real.sin (w * z.1))).deriv.trans ?_
      rw [lit_one]; ring
    have x1 : w * ((a + b) / 2 + (b - a) / 2 * ξ) = α₁ + β₁ * ξ := by rw [hα₁, hβ₁]; ring
    have x2 : w * ((c + d) / 2 + (d - c) / 2 * η) = α₂ + β₂ * η := by rw [hα₂, hβ₂]; ring
    have hξ' : ξ ∈ Set.Icc (-1 : ℝ) 1 := Set.Ioo_subset_Icc_self hξ
    have hη' : η ∈ Set.Icc (-1 : ℝ) 1 := Set.Ioo_subset_Icc_self hη
    have n1 := product_near (hS₁ ξ hξ') (hS₂ η hη') (Real.abs_sin_le_one _) (Real.abs_sin_le_one _)
    have n2 := product_near (hC₁ ξ hξ') (hS₂ η hη') (Real.abs_cos_le_one _) (Real.abs_sin_le_one _)
    have n3 := product_near (hS₁ ξ hξ') (hC₂ η hη') (Real.abs_sin_le_one _) (Real.abs_cos_le_one _)
    obtain ⟨mA, mA'⟩ := hM i hi ξ hξ'
    obtain ⟨mB, mB'⟩ := hM j hj η hη'
    have hM0 : 0 ≤ M := (abs_nonneg _).trans mA
    set E := e₁ + e₂ + e₁ * e₂
    have hE : 0 ≤ E := (abs_nonneg _).trans n1
    have key : ∀ {k X Y T₁ T₂ : ℝ}, 0 ≤ k → |X - Y| ≤ E → |T₁| ≤ M → |T₂| ≤ M →
        |k * (X - Y) * (T₁ * T₂)| ≤ k * E * M ^ 2 := by
      intro k X Y T₁ T₂ hk hX h1 h2
      rw [abs_mul, abs_mul, abs_mul, abs_of_nonneg hk, sq]
      gcongr
    have hk1 : 0 ≤ w ^ 2 * ((b - a) * (d - c)) / 2 := by
      have := mul_nonneg (sub_nonneg.2 hab.le) (sub_nonneg.2 hcd.le); positivity
    have k1 := key hk1 n1 mA mB
    have k2 := key hb2 n2 mA' mB
    have k3 := key hb1 n3 mA mB'
    unfold refIntegrand
    rw [hmap, hdx, hdy, hgx, hgy, hdet]
    simp only [x1, x2, refTest]
    rw [← hA, ← hB, lit_one, lit_two]
    have : ∀ s₁ s₂ c₁ c₂ S₁ S₂ C₁ C₂ A A' B B' : ℝ,
        1 * (-(w * (c₁ * s₂)) * ((d - c) / 2 * (A' * B)) + -(w * (s₁ * c₂)) * ((b - a) / 2 * (A * B')))
          + (0 * -(w * (c₁ * s₂)) + 0 * -(w * (s₁ * c₂)) + 0 * (-1 * s₁ * s₂) - -2 * w ^ 2 * (s₁ * s₂))
            * ((b - a) * (d - c) / 4 * (A * B))
          - (w ^ 2 * ((b - a) * (d - c)) / 2 * (S₁ * S₂) * (A * B) - w * (d - c) / 2 * (C₁ * S₂) * (A' * B)
            - w * (b - a) / 2 * (S₁ * C₂) * (A * B'))
        = w ^ 2 * ((b - a) * (d - c)) / 2 * (s₁ * s₂ - S₁ * S₂) * (A * B)
          - w * (d - c) / 2 * (c₁ * s₂ - C₁ * S₂) * (A' * B)
          - w * (b - a) / 2 * (s₁ * c₂ - S₁ * C₂) * (A * B') := by
      intros; ring
    rw [this]
    refine (abs_sub _ _).trans ((add_le_add (abs_sub _ _) le_rfl).trans ?_)
    rw [← hβ₁, ← hβ₂]
    refine (add_le_add (add_le_add k1 k2) k3).trans (le_of_eq ?_)
    rw [hβ₁, hβ₂]
    ring

/-- The test functions and their derivatives are bounded on the reference interval. -/
lemma test_bound (ty : String) (N : ℕ) : ∃ M : ℝ, ∀ i < N, ∀ x ∈ Set.Icc (-1 : ℝ) 1,
    |(testFamily ty i).eval x| ≤ M ∧ |(derivative (testFamily ty i)).eval x| ≤ M := by
  have key : ∀ P : ℝ[X], ∃ M : ℝ, ∀ x ∈ Set.Icc (-1 : ℝ) 1, |P.eval x| ≤ M := fun P => by
    obtain ⟨M, hM⟩ := isCompact_Icc.exists_bound_of_continuousOn (s := Set.Icc (-1 : ℝ) 1)
      P.continuous.continuousOn
    exact ⟨M, hM⟩
  choose m hm using key
  have hm0 : ∀ P, 0 ≤ m P := fun P => (abs_nonneg _).trans (hm P 0 (by simp))
  refine ⟨∑ i ∈ Finset.range N, (m (testFamily ty i) + m (derivative (testFamily ty i))),
    fun i hi x hx => ?_⟩
  have := Finset.single_le_sum (f := fun i => m (testFamily ty i) + m (derivative (testFamily ty i)))
    (fun i _ => add_nonneg (hm0 _) (hm0 _)) (Finset.mem_range.2 hi)
  have h1 := hm0 (testFamily ty i)
  have h2 := hm0 (derivative (testFamily ty i))
  exact ⟨(hm _ x hx).trans (by linarith), (hm _ x hx).trans (by linarith)⟩

lemma dirichlet_agree {u : ℝ → ℝ → ℝ} {px : List (ℝ × ℝ)} {py : List ℝ}
    (h : py = px.map fun z => u z.1 z.2) (i : Fin px.length) :
    u (px.get i).1 (px.get i).2 = py.getD i.val 0 := by
  subst h
  simp [List.getD]

section Examples

variable {ext : QuadRoutines} {mp : List (ℝ × ℝ)} {s : FESettings} {plot : Bool} {nq : ℕ}
  {S S' : Fespace2D (ℝ → ℝ → ℝ) ℝ (s.feOrder.toNat ^ 2) nq} {D : DataHandler2D (s.feOrder.toNat ^ 2) nq}

omit ext mp plot nq S S' D in
/-- The variational setup of the uniform-mesh Poisson example, and the distance of its integrands from
polynomials. -/
lemma uniformPoisson_near (g : Geometry2D) (nx ny nb : ℕ) (hnx : 0 < nx) (hny : 0 < ny)
    (smp : Fin 4 → Fin (nb / 4) → ℝ) (m : ℕ)
    (hx : 4 * Real.pi / nx ≤ m + 2) (hy : 4 * Real.pi / ny ≤ m + 2) (M : ℝ)
    (hM : ∀ i < s.feOrder.toNat, ∀ x ∈ Set.Icc (-1 : ℝ) 1,
      |(testFamily s.feType i).eval x| ≤ M ∧ |(derivative (testFamily s.feType i)).eval x| ≤ M)
    (e₁ e₂ δ : ℝ) (he₁ : e₁ = 2 * (2 * Real.pi / nx) ^ (m + 1) / (m + 1).factorial)
    (he₂ : e₂ = 2 * (2 * Real.pi / ny) ^ (m + 1) / (m + 1).factorial)
    (hδ : δ = (2 * Real.pi / nx + 2 * Real.pi / ny + 8 * Real.pi ^ 2 / (nx * ny)) * M ^ 2
      * (e₁ + e₂ + e₁ * e₂)) :
    (∀ c ∈ (generateQuadMeshInternal g (0, 1) (0, 1) nx ny nb smp).cells, IsParallelogram c) ∧
    ∃ ψ, VariationalSetup (generateQuadMeshInternal g (0, 1) (0, 1) nx ny nb smp).cells s.feType
        s.feOrder.toNat ψ UniformPoisson.rhs ∧
      (∀ d, m + (s.feOrder.toNat + 1) ≤ d → IntegrandsNear d
        (generateQuadMeshInternal g (0, 1) (0, 1) nx ny nb smp).cells s.feOrder.toNat ψ (fun _ => 1.0)
        (fun z => UniformPoisson.exactSolution z.1 z.2) (0, 0) 0 UniformPoisson.rhs fun _ _ => δ) ∧
      ∀ K, ClassicalSolution K (fun _ => 1.0) (fun z => UniformPoisson.exactSolution z.1 z.2) (0, 0) 0
        UniformPoisson.rhs := by
  have hlen := (C02_internal_cells g (0, 1) (0, 1) zero_lt_one zero_lt_one nx ny nb smp).1
  have hgrid : ∀ (k : ℕ) c, (generateQuadMeshInternal g (0, 1) (0, 1) nx ny nb smp).cells[k]? = some c →
      ∃ i < nx, ∃ j < ny, c = gridCell (0, 1) (0, 1) nx ny i j := by
    intro k c hk
    obtain ⟨hk', -⟩ := List.getElem?_eq_some_iff.1 hk
    rw [hlen] at hk'
    obtain ⟨hi, hj, hkm⟩ := mem_internal_cells g (0, 1) (0, 1) zero_lt_one zero_lt_one nx ny nb smp k hk'
    rw [hk] at hkm
    exact ⟨_, hi, _, hj, Option.some.inj hkm⟩
  have hconv : ∀ c ∈ (generateQuadMeshInternal g (0, 1) (0, 1) nx ny nb smp).cells, ConvexCCW c ∧
      IsParallelogram c := by
    intro c hc
    obtain ⟨k, hk⟩ := List.mem_iff_getElem?.1 hc
    obtain ⟨i, hi, j, hj, rfl⟩ := hgrid k c hk
    exact ⟨convexCCW_gridCell zero_lt_one zero_lt_one i j hnx hny,
      by simp [IsParallelogram, gridCell, rectangle]⟩
  obtain ⟨ψ, hψ⟩ := testFunctions_exist _ (fun c hc => (hconv c hc).1) s.feType s.feOrder.toNat
  have hcd : ContDiff ℝ 2 fun z : ℝ × ℝ => UniformPoisson.exactSolution z.1 z.2 := by
    unfold UniformPoisson.exactSolution
    fun_prop
  have hV : VariationalSetup _ s.feType s.feOrder.toNat ψ UniformPoisson.rhs :=
    ⟨fun c hc => (hconv c hc).1, hψ, fun c _ => by
      refine Continuous.continuousOn ?_
      unfold UniformPoisson.rhs
      fun_prop⟩
  refine ⟨fun c hc => (hconv c hc).2, ψ, hV, ?_, fun K =>
    classical_of_contDiff contDiff_const hcd (sinSin_solves (4.0 * Real.pi) _) K⟩
  · intro d hm k c hk t ht
    obtain ⟨i, hi, j, hj, rfl⟩ := hgrid k c hk
    have hψ' := hψ k _ hk t ht
    have hl : ∀ n i : ℕ, 0 < n → gridLine 0 1 n (i + 1) - gridLine 0 1 n i = 1 / n := fun n i hn => by
      have : (n : ℝ) ≠ 0 := by positivity
      unfold gridLine
      push_cast
      field_simp
      ring
    have hwx : 4.0 * Real.pi * (gridLine 0 1 nx (i + 1) - gridLine 0 1 nx i) = 4 * Real.pi / nx := by
      rw [hl nx i hnx, lit_four]; ring
    have hwy : 4.0 * Real.pi * (gridLine 0 1 ny (j + 1) - gridLine 0 1 ny j) = 4 * Real.pi / ny := by
      rw [hl ny j hny, lit_four]; ring
    have hw0 : (0 : ℝ) ≤ 4.0 * Real.pi := by rw [lit_four]; positivity
    obtain ⟨P, hP, hnear⟩ := sine_near (4.0 * Real.pi) _ _ _ _ hw0 (gridLine_lt zero_lt_one hnx (Nat.lt_succ_self i))
      (gridLine_lt zero_lt_one hny (Nat.lt_succ_self j)) s.feType s.feOrder.toNat t m ht M hM
      (by rw [hwx]; exact hx) (by rw [hwy]; exact hy) (ψ k t) hψ' e₁ e₂
      (by rw [he₁, hwx]; ring_nf) (by rw [he₂, hwy]; ring_nf)
    refine ⟨P, hP.mono' fun i j hij => ⟨hij.1.trans hm, hij.2.trans hm⟩, fun ξ hξ η hη => ?_⟩
    refine (hnear ξ hξ η hη).trans (le_of_eq ?_)
    rw [hδ, hl nx i hnx, hl ny j hny, lit_four]
    ring

/-- **C71** (uniform-mesh Poisson example, also with hard constraints and Optuna).  On every internal mesh
of the unit square with `nx × ny` cells, with `N` test functions per direction and a rule of degree at
least `m + N + 1`, a network that is the exact solution has a loss of at most `64 δ²` per cell, where `δ`
decays like `(2π/nx)^(m+1)/(m+1)!`; `M` is a bound of the test functions and their derivatives. -/
theorem C71_uniform_poisson (g : Geometry2D) (nx ny nb : ℕ) (hnx : 0 < nx) (hny : 0 < ny)
    (smp : Fin 4 → Fin (nb / 4) → ℝ) (hs : ∀ a k, 0 ≤ smp a k ∧ smp a k ≤ 1)
    (h : fespace2D ext mp (generateQuadMeshInternal g (0, 1) (0, 1) nx ny nb smp).cells
      (generateQuadMeshInternal g (0, 1) (0, 1) nx ny nb smp).bdDict s
      UniformPoisson.boundaryFunctionDict UniformPoisson.rhs plot = .ok ⟨nq, S⟩)
    (hD : dataHandler2D S true = .ok (D, S')) (hr : RoutinesOK ext s.quadOrder s.quadType)
    (hty : s.feType ≠ "jacobi_plain") (m : ℕ)
    (hm : m + (s.feOrder.toNat + 1) ≤ ruleDegree s.quadType s.quadOrder)
    (hx : 4 * Real.pi / nx ≤ m + 2) (hy : 4 * Real.pi / ny ≤ m + 2) (M : ℝ)
    (hM : ∀ i < s.feOrder.toNat, ∀ x ∈ Set.Icc (-1 : ℝ) 1,
      |(testFamily s.feType i).eval x| ≤ M ∧ |(derivative (testFamily s.feType i)).eval x| ≤ M)
    (net : Network 1) (hnet : RowWise net fun _ z => UniformPoisson.exactSolution z.1 z.2) (beta : ℝ)
    (e₁ e₂ δ : ℝ) (he₁ : e₁ = 2 * (2 * Real.pi / nx) ^ (m + 1) / (m + 1).factorial)
    (he₂ : e₂ = 2 * (2 * Real.pi / ny) ^ (m + 1) / (m + 1).factorial)
    (hδ : δ = (2 * Real.pi / nx + 2 * Real.pi / ny + 8 * Real.pi ^ 2 / (nx * ny)) * M ^ 2
      * (e₁ + e₂ + e₁ * e₂)) :
    ∃ bdv out outH, getDirichletInput S = .ok bdv ∧
      trainStepDense (lossOf .poisson _ _ _) (modelDataOf D bdv S.nCells) net beta
        (some UniformPoisson.bilinearParamsDict) = .ok out ∧
      trainStepHard (lossOf .poisson _ _ _) (modelDataOf D bdv S.nCells) net beta
        (some UniformPoisson.bilinearParamsDict) = .ok outH ∧
      0 ≤ out.loss 0 ∧ out.loss 0 ≤ nx * ny * (8 * δ) ^ 2 ∧
      0 ≤ outH.loss ∧ outH.loss ≤ nx * ny * (8 * δ) ^ 2 := by
  obtain ⟨hpar, ψ, hV, hnear, hcl⟩ := uniformPoisson_near (s := s) g nx ny nb hnx hny smp m hx hy M hM e₁ e₂ δ he₁
    he₂ hδ
  have hlen := (C02_internal_cells g (0, 1) (0, 1) zero_lt_one zero_lt_one nx ny nb smp).1
  obtain ⟨px, py, hS, -, hpy⟩ := C60_uniform_boundary g nx ny nb smp hs h
  obtain ⟨out, outH, ho, hoH, -, -, n1, n2, n3⟩ := C70_smooth_solution hV
    ⟨⟨ext, mp, _, _, plot, S', h, hr, hD⟩, fun _ => hpar⟩ hty (px, py) .poisson (Or.inl rfl)
    (some UniformPoisson.bilinearParamsDict) 1.0 (0, 0) 0 ⟨1.0, ⟨_, rfl, rfl⟩, rfl, rfl, rfl⟩
    (fun z => UniformPoisson.exactSolution z.1 z.2) (fun c _ => hcl _) δ (hnear _ hm) net hnet beta
  obtain ⟨n4, n5⟩ := n3 (dirichlet_agree hpy)
  rw [hlen] at n2 n5
  push_cast at n2 n5
  exact ⟨_, out, outH, hS, ho, hoH, n4, n5, n1, n2⟩

/-- The settings of `uniform_mesh/poisson_2d/input.yaml` (4 boundary points instead of 400) meet the
hypotheses of the previous theorem, with `m = 10`. -/
example (g : Geometry2D) (beta : ℝ) : ∃ ext nq,
    ∃ S : Fespace2D (ℝ → ℝ → ℝ) ℝ (((6 : ℤ).toNat) ^ 2) nq, ∃ D S' M bdv out,
    fespace2D ext [] (generateQuadMeshInternal g (0, 1) (0, 1) 4 4 4 fun _ _ => 1 / 2).cells
      (generateQuadMeshInternal g (0, 1) (0, 1) 4 4 4 fun _ _ => 1 / 2).bdDict
      ⟨"quadrilateral", 6, "legendre", 10, "gauss-jacobi", "bilinear"⟩
      UniformPoisson.boundaryFunctionDict UniformPoisson.rhs false = .ok ⟨nq, S⟩ ∧
    dataHandler2D S true = .ok (D, S') ∧ getDirichletInput S = .ok bdv ∧
    trainStepDense (lossOf .poisson _ _ _) (modelDataOf D bdv S.nCells)
      (fun _ X i _ => UniformPoisson.exactSolution (X i).1 (X i).2) beta
      (some UniformPoisson.bilinearParamsDict) = .ok out ∧
    out.loss (0 : Fin 1) ≤ (4 : ℕ) * (4 : ℕ) * (8 * ((2 * Real.pi / (4 : ℕ) + 2 * Real.pi / (4 : ℕ)
      + 8 * Real.pi ^ 2 / ((4 : ℕ) * (4 : ℕ))) * M ^ 2
      * (2 * (2 * Real.pi / (4 : ℕ)) ^ 11 / Nat.factorial 11 + 2 * (2 * Real.pi / (4 : ℕ)) ^ 11
        / Nat.factorial 11 + 2 * (2 * Real.pi / (4 : ℕ)) ^ 11 / Nat.factorial 11
        * (2 * (2 * Real.pi / (4 : ℕ)) ^ 11 / Nat.factorial 11)))) ^ 2 := by
  obtain ⟨ext, -, h2⟩ := quadRoutines_exist
  have hr : RoutinesOK ext 10 "gauss-jacobi" := ⟨fun h => absurd h (by decide), fun _ => h2 _⟩
  obtain ⟨nq, S, h⟩ := (C63_constructor ext []
    (generateQuadMeshInternal g (0, 1) (0, 1) 4 4 4 fun _ _ => 1 / 2).cells
      (generateQuadMeshInternal g (0, 1) (0, 1) 4 4 4 fun _ _ => 1 / 2).bdDict
      ⟨"quadrilateral", 6, "legendre", 10, "gauss-jacobi", "bilinear"⟩
      UniformPoisson.boundaryFunctionDict UniformPoisson.rhs).2 ⟨rfl, by
        refine List.ne_nil_of_length_pos ?_
        rw [(C02_internal_cells g (0, 1) (0, 1) (by norm_num) (by norm_num) 4 4 4 _).1]
        norm_num, by decide, by simp [supportedFeType], by decide, Or.inr rfl, Or.inl rfl, by
        intro e he _
        simp only [generateQuadMeshInternal, internalBoundary, List.mem_cons, List.not_mem_nil,
          or_false] at he
        rcases he with rfl | rfl | rfl | rfl <;> exact ⟨_, rfl⟩⟩
  obtain ⟨-, D, S', hD, -⟩ := C41_layout ext _ _ _ _ _ _ _ S h
  obtain ⟨M, hM⟩ := test_bound "legendre" 6
  have hpi := Real.pi_le_four
  obtain ⟨bdv, out, -, e1, e2, -, -, e3, -, -⟩ := C71_uniform_poisson g 4 4 4 (by norm_num) (by norm_num) _
    (fun _ _ => by norm_num) h hD hr (by decide) 10 (by decide) (by push_cast; linarith)
    (by push_cast; linarith) M hM
    (fun _ X i _ => UniformPoisson.exactSolution (X i).1 (X i).2) (fun _ _ _ _ => rfl) beta _ _ _ rfl rfl rfl
  exact ⟨ext, nq, S, D, S', M, bdv, out, h, hD, e1, e2, e3⟩

/-- **C71** (forward examples).  For the other forward examples on any mesh of strictly convex cells: if
the integrands of the weak forms are within `δ` of the polynomials that the rule integrates exactly, the
total loss, with the boundary data of the example, of a network that is the exact solution is at most
`64 δ²` per cell. -/
theorem C71_forward (cells : List Quad) (bd : BdDict) (kind : LossKind) (params : List (String × ℝ))
    (dict : List (ℤ × (ℝ → ℝ → ℝ))) (u f : ℝ → ℝ → ℝ)
    (hex : (kind, params, dict, u, f) ∈
      [(.poisson, ComplexPoisson.bilinearParamsDict, ComplexPoisson.boundaryFunctionDict,
        ComplexPoisson.exactSolution, ComplexPoisson.rhs),
      (.helmholtz, Helmholtz.bilinearParamsDict, Helmholtz.boundaryFunctionDict, Helmholtz.exactSolution,
        Helmholtz.rhs),
      (.helmholtz, Helmholtz.bilinearParamsDict, Helmholtz.complexBoundaryFunctionDict,
        Helmholtz.exactSolution, Helmholtz.rhs),
      (.cd2d, ConvectionDiffusion.bilinearParamsDict, ConvectionDiffusion.boundaryFunctionDict,
        ConvectionDiffusion.exactSolution, ConvectionDiffusion.rhs)])
    (h : fespace2D ext mp cells bd s dict f plot = .ok ⟨nq, S⟩)
    (hD : dataHandler2D S true = .ok (D, S')) (hr : RoutinesOK ext s.quadOrder s.quadType)
    (hty : s.feType ≠ "jacobi_plain")
    (hcells : ∀ c ∈ cells, ConvexCCW c ∧ (s.feTransformationType = "affine" → IsParallelogram c))
    (ψ : ℕ → ℕ → ℝ × ℝ → ℝ)
    (hψ : ∀ k c, cells[k]? = some c → ∀ t < s.feOrder.toNat ^ 2,
      IsTestFunction s.feType s.feOrder.toNat c t (ψ k t)) (δ : ℝ)
    (hδ : ∀ e b r, ConstantCoefficients kind (some params) e b r →
      IntegrandsNear (ruleDegree s.quadType s.quadOrder) cells s.feOrder.toNat ψ (fun _ => e)
        (fun z => u z.1 z.2) b r f fun _ _ => δ)
    (net : Network 1) (hnet : RowWise net fun _ z => u z.1 z.2) (beta : ℝ) :
    ∃ bdv out, getDirichletInput S = .ok bdv ∧
      trainStepDense (lossOf kind _ _ _) (modelDataOf D bdv S.nCells) net beta (some params) = .ok out ∧
      0 ≤ out.loss 0 ∧ out.loss 0 ≤ cells.length * (8 * δ) ^ 2 := by
  have key : kind.forward ∧ ContDiff ℝ 2 (fun z : ℝ × ℝ => u z.1 z.2) ∧
      Continuous (fun z : ℝ × ℝ => f z.1 z.2) ∧ Consistent kind params [] u f ∧
      (dict, u) ∈ [(ComplexPoisson.boundaryFunctionDict, ComplexPoisson.exactSolution),
        (Helmholtz.boundaryFunctionDict, Helmholtz.exactSolution),
        (Helmholtz.complexBoundaryFunctionDict, Helmholtz.exactSolution),
        (ConvectionDiffusion.boundaryFunctionDict, ConvectionDiffusion.exactSolution),
        (ConstInverse.boundaryFunctionDict, ConstInverse.exactSolution),
        (DomainInverseUSA.boundaryFunctionDict, DomainInverseUSA.exactSolution)] := by
    simp only [List.mem_cons, Prod.mk.injEq, List.not_mem_nil, or_false] at hex
    rcases hex with ⟨rfl, rfl, rfl, rfl, rfl⟩ | ⟨rfl, rfl, rfl, rfl, rfl⟩ | ⟨rfl, rfl, rfl, rfl, rfl⟩ |
      ⟨rfl, rfl, rfl, rfl, rfl⟩
    · refine ⟨Or.inl rfl, ?_, ?_, C60_complex_poisson, by simp⟩
      · unfold ComplexPoisson.exactSolution; fun_prop
      · unfold ComplexPoisson.rhs; fun_prop
    · refine ⟨Or.inr (Or.inr rfl), ?_, ?_, C60_helmholtz, by simp⟩
      · unfold Helmholtz.exactSolution; fun_prop
      · unfold Helmholtz.rhs; fun_prop
    · refine ⟨Or.inr (Or.inr rfl), ?_, ?_, C60_helmholtz, by simp⟩
      · unfold Helmholtz.exactSolution; fun_prop
      · unfold Helmholtz.rhs; fun_prop
    · refine ⟨Or.inr (Or.inl rfl), ?_, ?_, C60_convection_diffusion, by simp⟩
      · unfold ConvectionDiffusion.exactSolution; fun_prop
      · unfold ConvectionDiffusion.rhs; fun_prop
  obtain ⟨hk, hu, hf, ⟨e, b, r, hco, hsol⟩, hmem⟩ := key
  have hco' : ConstantCoefficients kind (some params) e b r := by
    have := hco 1 1
    unfold ConstantCoefficients
    rcases hk with rfl | rfl | rfl <;> exact this
  obtain ⟨px, py, hS, -, hpy⟩ := C60_boundary bd dict u hmem h
  obtain ⟨out, outH, ho, -, -, -, -, -, n3⟩ := C70_smooth_solution
    ⟨fun c hc => (hcells c hc).1, hψ, fun c _ => hf.continuousOn⟩
    ⟨⟨ext, mp, _, _, plot, S', h, hr, hD⟩, fun ht c hc => (hcells c hc).2 ht⟩ hty (px, py) kind hk
    (some params) e b r hco' (fun z => u z.1 z.2)
    (fun c _ => classical_of_contDiff contDiff_const hu hsol _) δ (hδ e b r hco') net hnet beta
  obtain ⟨n4, n5⟩ := n3 (dirichlet_agree hpy)
  exact ⟨_, out, hS, ho, n4, n5⟩

lemma constantCoefficients_unique {kind : LossKind} {p : ParamDict} {e e' : ℝ} {b b' : ℝ × ℝ} {r r' : ℝ}
    (h : ConstantCoefficients kind p e b r) (h' : ConstantCoefficients kind p e' b' r') :
    e = e' ∧ b = b' ∧ r = r' := by
  obtain ⟨h1, h2, h3⟩ := coefficients_unique h h'
  exact ⟨congrFun (congrFun h1 0) 0, h2, h3⟩

lemma constInverse_classical : (Continuous fun z : ℝ × ℝ => ConstInverse.rhs z.1 z.2) ∧
    ∀ K, ClassicalSolution K (fun _ => ConstInverse.EPS) (fun z => ConstInverse.exactSolution z.1 z.2) (0, 0) 0
      ConstInverse.rhs := by
  have ht : ContDiff ℝ 2 Real.tanh := by
    rw [show Real.tanh = fun x => Real.sinh x / Real.cosh x from funext Real.tanh_eq_sinh_div_cosh]
    exact Real.contDiff_sinh.div Real.contDiff_cosh fun x => (Real.cosh_pos x).ne'
  have ht' : Continuous Real.tanh := ht.continuous
  have hu : ContDiff ℝ 2 fun z : ℝ × ℝ => ConstInverse.exactSolution z.1 z.2 := by
    have := ht.comp (contDiff_fst (𝕜 := ℝ) (E := ℝ) (F := ℝ))
    unfold ConstInverse.exactSolution
    have e : (fun z : ℝ × ℝ => Real.tanh z.1) = Real.tanh ∘ Prod.fst := rfl
    rw [← e] at this
    fun_prop
  have hf : Continuous fun z : ℝ × ℝ => ConstInverse.rhs z.1 z.2 := by
    unfold ConstInverse.rhs
    fun_prop
  have hsol : SolvesOn Set.univ (fun _ => ConstInverse.EPS)
      (fun z => ConstInverse.exactSolution z.1 z.2) (0, 0) 0 ConstInverse.rhs := fun z hz => by
    rw [constInverse_rhs]
    exact constInverse_solves ConstInverse.EPS Set.univ z hz
  exact ⟨hf, classical_of_contDiff contDiff_const hu hsol⟩

lemma domainInverse_classical : (Continuous fun z : ℝ × ℝ => DomainInverseUSA.rhs z.1 z.2) ∧
    ∀ K, ClassicalSolution K (fun z => DomainInverseUSA.actualEps z.1 z.2)
      (fun z => DomainInverseUSA.exactSolution z.1 z.2) (0, 0) 0 DomainInverseUSA.rhs := by
  have hu : ContDiff ℝ 2 fun z : ℝ × ℝ => DomainInverseUSA.exactSolution z.1 z.2 := by
    unfold DomainInverseUSA.exactSolution
    fun_prop
  have ha : ContDiff ℝ 1 fun z : ℝ × ℝ => DomainInverseUSA.actualEps z.1 z.2 := by
    unfold DomainInverseUSA.actualEps
    fun_prop
  have hf : Continuous fun z : ℝ × ℝ => DomainInverseUSA.rhs z.1 z.2 := by
    unfold DomainInverseUSA.rhs
    fun_prop
  obtain ⟨b, r, hco, hsol⟩ := C60_domain_inverse
  obtain ⟨-, hb1, hb2, hr'⟩ := hco 0 0 fun i => i.elim0
  have h1 : b.1 = 0 := (hasParam_unique hb1 ⟨_, rfl, rfl⟩).trans lit_zero
  have h2 : b.2 = 0 := hasParam_unique hb2 ⟨_, rfl, rfl⟩
  have h3 : r = 0 := (hasParam_unique hr' ⟨_, rfl, rfl⟩).trans lit_zero
  have hb : b = (0, 0) := Prod.ext h1 h2
  subst hb h3
  exact ⟨hf, classical_of_contDiff ha hu hsol⟩

/-- **C71** (inverse examples).  The same for the two inverse examples at the exact solution and the actual
coefficient, with sensor values of the exact solution. -/
theorem C71_inverse (cells : List Quad) (bd : BdDict) (hr : RoutinesOK ext s.quadOrder s.quadType)
    (hty : s.feType ≠ "jacobi_plain")
    (hcells : ∀ c ∈ cells, ConvexCCW c ∧ (s.feTransformationType = "affine" → IsParallelogram c))
    (ψ : ℕ → ℕ → ℝ × ℝ → ℝ)
    (hψ : ∀ k c, cells[k]? = some c → ∀ t < s.feOrder.toNat ^ 2,
      IsTestFunction s.feType s.feOrder.toNat c t (ψ k t)) (δ : ℝ) (beta : ℝ) {nS : ℕ} (sp : Fin nS → ℝ × ℝ)
    (hD : dataHandler2D S true = .ok (D, S')) :
    (fespace2D ext mp cells bd s ConstInverse.boundaryFunctionDict ConstInverse.rhs plot = .ok ⟨nq, S⟩ →
      IntegrandsNear (ruleDegree s.quadType s.quadOrder) cells s.feOrder.toNat ψ
        (fun _ => ConstInverse.EPS) (fun z => ConstInverse.exactSolution z.1 z.2) (0, 0) 0 ConstInverse.rhs
        (fun _ _ => δ) →
      ∀ net : Network 1, RowWise net (fun _ z => ConstInverse.exactSolution z.1 z.2) →
      ∃ bdv out, getDirichletInput S = .ok bdv ∧
        trainStepInverse (lossPoissonInverse _ _ _) (modelDataOf D bdv S.nCells) sp
          (fun i => ConstInverse.exactSolution (sp i).1 (sp i).2) (some ConstInverse.inverseParamsActualDict)
          net beta (some ConstInverse.bilinearParamsDict) = .ok out ∧
        0 ≤ out.loss 0 ∧ out.loss 0 ≤ cells.length * (8 * δ) ^ 2) ∧
    (fespace2D ext mp cells bd s DomainInverseUSA.boundaryFunctionDict DomainInverseUSA.rhs plot
        = .ok ⟨nq, S⟩ →
      IntegrandsNear (ruleDegree s.quadType s.quadOrder) cells s.feOrder.toNat ψ
        (fun z => DomainInverseUSA.actualEps z.1 z.2) (fun z => DomainInverseUSA.exactSolution z.1 z.2)
        (0, 0) 0 DomainInverseUSA.rhs (fun _ _ => δ) →
      ∀ net : Network 2, RowWise net ![fun z => DomainInverseUSA.exactSolution z.1 z.2,
        fun z => DomainInverseUSA.actualEps z.1 z.2] →
      ∃ bdv out, getDirichletInput S = .ok bdv ∧
        trainStepInverseDomain (lossCd2dInverseDomain _ _ _) (modelDataOf D bdv S.nCells) sp
          (fun i => DomainInverseUSA.exactSolution (sp i).1 (sp i).2) net beta
          (some DomainInverseUSA.bilinearParamsDict) = .ok out ∧
        0 ≤ out.loss 0 ∧ out.loss 0 ≤ cells.length * (8 * δ) ^ 2) := by
  constructor
  · intro h hδ net hnet
    obtain ⟨hf, hcl⟩ := constInverse_classical
    obtain ⟨px, py, hS, -, hpy⟩ := C60_boundary bd _ ConstInverse.exactSolution (by simp) h
    obtain ⟨out, ho, -, -, n3⟩ := C70_inverse
      ⟨fun c hc => (hcells c hc).1, hψ, fun c _ => hf.continuousOn⟩
      ⟨⟨ext, mp, _, _, plot, S', h, hr, hD⟩, fun ht c hc => (hcells c hc).2 ht⟩ hty (px, py)
      ConstInverse.EPS (fun z => ConstInverse.exactSolution z.1 z.2)
      (fun c _ => hcl _) δ hδ sp
      (fun i => ConstInverse.exactSolution (sp i).1 (sp i).2) net hnet beta
      (some ConstInverse.bilinearParamsDict) (some ConstInverse.inverseParamsActualDict) ⟨_, rfl, rfl⟩
    obtain ⟨n4, n5⟩ := n3 (dirichlet_agree hpy) fun _ => rfl
    exact ⟨_, out, hS, ho, n4, n5⟩
  · intro h hδ net hnet
    obtain ⟨hf, hcl⟩ := domainInverse_classical
    obtain ⟨px, py, hS, -, hpy⟩ := C60_boundary bd _ DomainInverseUSA.exactSolution (by simp) h
    obtain ⟨out, ho, -, -, n3⟩ := C70_inverse_domain
      ⟨fun c hc => (hcells c hc).1, hψ, fun c _ => hf.continuousOn⟩
      ⟨⟨ext, mp, _, _, plot, S', h, hr, hD⟩, fun ht c hc => (hcells c hc).2 ht⟩ hty (px, py)
      (fun z => DomainInverseUSA.actualEps z.1 z.2) (fun z => DomainInverseUSA.exactSolution z.1 z.2)
      (0, 0) 0 (fun c _ => hcl _) δ hδ sp
      (fun i => DomainInverseUSA.exactSolution (sp i).1 (sp i).2) net hnet beta
      (some DomainInverseUSA.bilinearParamsDict) ⟨_, rfl, congrArg some lit_zero⟩ ⟨_, rfl, rfl⟩
      ⟨_, rfl, congrArg some lit_zero⟩
    obtain ⟨n4, n5⟩ := n3 (dirichlet_agree hpy) fun _ => rfl
    exact ⟨_, out, hS, ho, n4, n5⟩

/-- The two demo cells with one boundary point, for any dictionary with the tag 1000 and any continuous
forcing function: everything that C69–C71 ask for. -/
lemma demo_run (dict : List (ℤ × (ℝ → ℝ → ℝ))) (f : ℝ → ℝ → ℝ) (hd : ∃ v, dict.lookup 1000 = some v)
    (hf : Continuous fun z : ℝ × ℝ => f z.1 z.2) :
    ∃ ext nq, ∃ S : Fespace2D (ℝ → ℝ → ℝ) ℝ (((demoSettings "bilinear").feOrder.toNat) ^ 2) nq, ∃ D S' ψ,
      fespace2D ext [] demoCells [(1000, [(0, 0)])] (demoSettings "bilinear") dict f false = .ok ⟨nq, S⟩ ∧
      dataHandler2D S true = .ok (D, S') ∧ RoutinesOK ext 5 "gauss-legendre" ∧
      VariationalSetup demoCells "jacobi" 3 ψ f := by
  obtain ⟨ext, h1, -⟩ := quadRoutines_exist
  have hr : RoutinesOK ext 5 "gauss-legendre" := ⟨fun _ => h1 _ (by decide), fun h => absurd h (by decide)⟩
  obtain ⟨nq, S, h⟩ := (C63_constructor ext [] demoCells [(1000, [(0, 0)])] (demoSettings "bilinear") dict f).2
    ⟨rfl, by simp [demoCells], by simp [demoSettings], by simp [demoSettings, supportedFeType],
      by simp [demoSettings], Or.inl rfl, Or.inl rfl, by simpa using hd⟩
  obtain ⟨-, D, S', hD, -⟩ := C41_layout ext _ _ _ _ _ _ _ S h
  obtain ⟨ψ, hψ⟩ := testFunctions_exist demoCells (fun c hc => (demo_cells_ok c hc).1) "jacobi" 3
  exact ⟨ext, nq, S, D, S', ψ, h, hD, hr, fun c hc => (demo_cells_ok c hc).1, hψ, fun c _ => hf.continuousOn⟩

/-- The hypotheses of C69, C70 (forward) and `C71_forward` hold for the complex-mesh Poisson example on the
demo cells, one of which is not a parallelogram. -/
example (beta : ℝ) (net : Network 1) (hnet : RowWise net fun _ z => ComplexPoisson.exactSolution z.1 z.2) :
    ∃ nq, ∃ S : Fespace2D (ℝ → ℝ → ℝ) ℝ (((demoSettings "bilinear").feOrder.toNat) ^ 2) nq,
    ∃ D S' ext bdv out R ψ δ,
    fespace2D ext [] demoCells [(1000, [(0, 0)])] (demoSettings "bilinear") ComplexPoisson.boundaryFunctionDict
      ComplexPoisson.rhs false = .ok ⟨nq, S⟩ ∧ dataHandler2D S true = .ok (D, S') ∧
    getDirichletInput S = .ok bdv ∧
    trainStepDense (lossOf .poisson _ _ _) (modelDataOf D bdv S.nCells) net beta
      (some ComplexPoisson.bilinearParamsDict) = .ok out ∧
    0 ≤ out.loss 0 ∧ out.loss 0 ≤ 2 * (8 * δ) ^ 2 ∧ out.lossPde = ∑ k, meanSq (R k) ∧
    ResidualsNear demoCells 3 ψ (fun _ => 1.0) (fun z => ComplexPoisson.exactSolution z.1 z.2) (0, 0) 0
      ComplexPoisson.rhs (fun _ _ => δ) R ∧
    ∀ k : Fin demoCells.length, ∀ t < 3 ^ 2, weakIntegral (cellSet demoCells[k]) (fun _ => 1.0)
      (fun z => ComplexPoisson.exactSolution z.1 z.2) (0, 0) 0 ComplexPoisson.rhs (ψ k t) = 0 := by
  have hf : Continuous fun z : ℝ × ℝ => ComplexPoisson.rhs z.1 z.2 := by
    unfold ComplexPoisson.rhs; fun_prop
  have hu : ContDiff ℝ 2 fun z : ℝ × ℝ => ComplexPoisson.exactSolution z.1 z.2 := by
    unfold ComplexPoisson.exactSolution; fun_prop
  have hcl : ∀ K, ClassicalSolution K (fun _ => 1.0) (fun z => ComplexPoisson.exactSolution z.1 z.2) (0, 0) 0
      ComplexPoisson.rhs := classical_of_contDiff contDiff_const hu (sinSin_solves (2.0 * Real.pi) _)
  obtain ⟨ext, nq, S, D, S', ψ, h, hD, hr, hV⟩ := demo_run ComplexPoisson.boundaryFunctionDict
    ComplexPoisson.rhs ⟨_, rfl⟩ hf
  obtain ⟨δ, hδ⟩ := integrandsNear_exists hV (0, 0) 0 (fun c _ => (hcl (cellSet c)).coefficient)
    (fun c _ => (hcl (cellSet c)).smooth) (ruleDegree "gauss-legendre" 5)
  have hco : ConstantCoefficients .poisson (some ComplexPoisson.bilinearParamsDict) 1.0 (0, 0) 0 :=
    ⟨1.0, ⟨_, rfl, rfl⟩, rfl, rfl, rfl⟩
  obtain ⟨bdv, out, e1, e2, e3, e4⟩ := C71_forward demoCells _ .poisson ComplexPoisson.bilinearParamsDict
    ComplexPoisson.boundaryFunctionDict ComplexPoisson.exactSolution ComplexPoisson.rhs (by simp) h hD hr
    (by decide) (fun c hc => ⟨(demo_cells_ok c hc).1, fun h => absurd h (by decide)⟩) ψ hV.test δ
    (fun e b r hc => by
      obtain ⟨rfl, rfl, rfl⟩ := constantCoefficients_unique hc hco
      exact hδ) net hnet beta
  obtain ⟨out', outH, R, f1, -, f2, -, f3⟩ := C69_train_step hV
    ⟨⟨ext, [], _, _, false, S', h, hr, hD⟩, fun h => absurd h (by decide)⟩ bdv .poisson (Or.inl rfl) _ 1.0 (0, 0) 0
    hco (fun z => ComplexPoisson.exactSolution z.1 z.2) (fun c _ => (hcl (cellSet c)).smooth) (fun _ _ => δ) hδ net
    hnet beta
  rw [e2] at f1
  obtain rfl := Except.ok.inj f1
  refine ⟨nq, S, D, S', ext, bdv, out, R, ψ, δ, h, hD, e1, e2, e3, by simpa [demoCells] using e4, f2, f3,
    fun k t ht => ?_⟩
  exact C70_weak_form _ (hV.convex _ (List.getElem_mem k.2)) "jacobi" (by decide) 3 t _
    (hV.test k _ (by simp) t ht) _ _ _ _ _ hf.continuousOn (hcl _)

/-- The hypotheses of C69, C70 and C71 for the inverse problems hold for the two inverse examples on the
demo cells, with one sensor. -/
example (beta : ℝ) (net : Network 1) (hnet : RowWise net fun _ z => ConstInverse.exactSolution z.1 z.2)
    (net' : Network 2) (hnet' : RowWise net' ![fun z => DomainInverseUSA.exactSolution z.1 z.2,
        fun z => DomainInverseUSA.actualEps z.1 z.2]) :
    (∃ nq, ∃ S : Fespace2D (ℝ → ℝ → ℝ) ℝ (((demoSettings "bilinear").feOrder.toNat) ^ 2) nq,
    ∃ D S' ext bdv out δ,
    fespace2D ext [] demoCells [(1000, [(0, 0)])] (demoSettings "bilinear") ConstInverse.boundaryFunctionDict
      ConstInverse.rhs false = .ok ⟨nq, S⟩ ∧ dataHandler2D S true = .ok (D, S') ∧
    getDirichletInput S = .ok bdv ∧
    trainStepInverse (lossPoissonInverse _ _ _) (modelDataOf D bdv S.nCells) ![(1, 1)]
      ![ConstInverse.exactSolution 1 1] (some ConstInverse.inverseParamsActualDict) net beta
      (some ConstInverse.bilinearParamsDict) = .ok out ∧
    0 ≤ out.loss 0 ∧ out.loss 0 ≤ 2 * (8 * δ) ^ 2) ∧
    (∃ nq, ∃ S : Fespace2D (ℝ → ℝ → ℝ) ℝ (((demoSettings "bilinear").feOrder.toNat) ^ 2) nq,
    ∃ D S' ext bdv out δ,
    fespace2D ext [] demoCells [(1000, [(0, 0)])] (demoSettings "bilinear") DomainInverseUSA.boundaryFunctionDict
      DomainInverseUSA.rhs false = .ok ⟨nq, S⟩ ∧ dataHandler2D S true = .ok (D, S') ∧
    getDirichletInput S = .ok bdv ∧
    trainStepInverseDomain (lossCd2dInverseDomain _ _ _) (modelDataOf D bdv S.nCells) ![(1, 1)]
      ![DomainInverseUSA.exactSolution 1 1] net' beta (some DomainInverseUSA.bilinearParamsDict) = .ok out ∧
    0 ≤ out.loss 0 ∧ out.loss 0 ≤ 2 * (8 * δ) ^ 2) := by
  constructor
  · obtain ⟨hf, hcl⟩ := constInverse_classical
    obtain ⟨ext, nq, S, D, S', ψ, h, hD, hr, hV⟩ := demo_run ConstInverse.boundaryFunctionDict
      ConstInverse.rhs ⟨_, rfl⟩ hf
    obtain ⟨δ, hδ⟩ := integrandsNear_exists hV (0, 0) 0 (fun c _ => (hcl (cellSet c)).coefficient)
      (fun c _ => (hcl (cellSet c)).smooth) (ruleDegree "gauss-legendre" 5)
    obtain ⟨bdv, out, e1, e2, e3, e4⟩ := (C71_inverse (s := demoSettings "bilinear") demoCells [(1000, [(0, 0)])] hr (by decide)
      (fun c hc => ⟨(demo_cells_ok c hc).1, fun h => absurd h (by decide)⟩) ψ hV.test δ beta ![(1, 1)]
      hD).1 h hδ net hnet
    exact ⟨nq, S, D, S', ext, bdv, out, δ, h, hD, e1, by
      rw [← e2]
      congr 1
      funext i
      fin_cases i
      rfl, e3, by simpa [demoCells] using e4⟩
  · obtain ⟨hf, hcl⟩ := domainInverse_classical
    obtain ⟨ext, nq, S, D, S', ψ, h, hD, hr, hV⟩ := demo_run DomainInverseUSA.boundaryFunctionDict
      DomainInverseUSA.rhs ⟨_, rfl⟩ hf
    obtain ⟨δ, hδ⟩ := integrandsNear_exists hV (0, 0) 0 (fun c _ => (hcl (cellSet c)).coefficient)
      (fun c _ => (hcl (cellSet c)).smooth) (ruleDegree "gauss-legendre" 5)
    obtain ⟨bdv, out, e1, e2, e3, e4⟩ := (C71_inverse (s := demoSettings "bilinear") demoCells [(1000, [(0, 0)])] hr (by decide)
      (fun c hc => ⟨(demo_cells_ok c hc).1, fun h => absurd h (by decide)⟩) ψ hV.test δ beta ![(1, 1)]
      hD).2 h hδ net' hnet'
    exact ⟨nq, S, D, S', ext, bdv, out, δ, h, hD, e1, by
      rw [← e2]
      congr 1
      funext i
      fin_cases i
      rfl, e3, by simpa [demoCells] using e4⟩

end Examples

end FastVPINNs
