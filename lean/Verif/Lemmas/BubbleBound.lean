import Verif.Lemmas.MomentBound
import Verif.Props.CellGeometry
import Verif.Spec.Refinement

/-! # The first test function of a cell bounds the defect, with explicit constants -/

namespace FastVPINNs

open Spec MeasureTheory

/-- The first one-dimensional test function is a multiple of `x² - 1`. -/
lemma first_bubble {ty : String} (hty : ty ≠ "jacobi_plain") :
    ∃ γ : ℝ, 9 / 4 ≤ γ ^ 2 ∧ ∀ x, (testFamily ty 0).eval x = γ * (x ^ 2 - 1) := by
  by_cases hc : ty = "chebyshev_2"
  · refine ⟨2, by norm_num, fun x => ?_⟩
    simp [testFamily, hc, chebyshevBubble, Polynomial.Chebyshev.T_two]
    ring
  · refine ⟨3 / 2, by norm_num, fun x => ?_⟩
    have e : testFamily ty = testFamily "jacobi" := by simp [testFamily, hc, hty]
    rw [e, bubble_zero]

lemma first_test {ty : String} {γ : ℝ} (h : ∀ x, (testFamily ty 0).eval x = γ * (x ^ 2 - 1)) (p : ℝ × ℝ) :
    refTest ty 0 0 p = γ ^ 2 * ((1 - p.1 ^ 2) * (1 - p.2 ^ 2)) := by
  rw [refTest, h, h]
  ring

lemma first_test_nonneg {ty : String} (hty : ty ≠ "jacobi_plain") {p : ℝ × ℝ} (hp : p ∈ refSquare) :
    0 ≤ refTest ty 0 0 p := by
  obtain ⟨γ, -, h⟩ := first_bubble hty
  rw [first_test h]
  obtain ⟨h1, h2, h3, h4⟩ := hp
  have : 0 ≤ 1 - p.1 ^ 2 := by nlinarith
  have : 0 ≤ 1 - p.2 ^ 2 := by nlinarith
  positivity

/-- Its integral over the cell is at least the area of the cell. -/
lemma first_test_integral {ty : String} (hty : ty ≠ "jacobi_plain") {c : Quad} (hc : ConvexCCW c) :
    polygonArea c ≤ ∫ p in refSquare, bilinDet c p.1 p.2 * refTest ty 0 0 p := by
  obtain ⟨γ, hγ, h⟩ := first_bubble hty
  have hI : ∀ σ : ℝ, ∫ s in (-1 : ℝ)..1, (1 + σ * s) * (1 - s ^ 2) = 4 / 3 := by
    intro σ
    have : ∀ s : ℝ, (1 + σ * s) * (1 - s ^ 2) = 1 + σ * s - s ^ 2 - σ * s ^ 3 := fun s => by ring
    simp only [this]
    rw [intervalIntegral.integral_sub, intervalIntegral.integral_sub, intervalIntegral.integral_add] <;>
      first
      | exact (by fun_prop : Continuous _).intervalIntegrable _ _
      | skip
    rw [intervalIntegral.integral_const_mul, intervalIntegral.integral_const_mul, integral_id, integral_pow,
      integral_pow, intervalIntegral.integral_const]
    norm_num
  have hP : ∀ σ τ : ℝ, ∫ p in refSquare, ((1 + σ * p.1) * (1 - p.1 ^ 2)) * ((1 + τ * p.2) * (1 - p.2 ^ 2)) = 16 / 9 := by
    intro σ τ
    rw [refSquare_integral_mul (fun s => (1 + σ * s) * (1 - s ^ 2)) (fun s => (1 + τ * s) * (1 - s ^ 2)), hI, hI]
    norm_num
  have hint : ∀ σ τ κ : ℝ, IntegrableOn (fun p : ℝ × ℝ =>
      κ * (((1 + σ * p.1) * (1 - p.1 ^ 2)) * ((1 + τ * p.2) * (1 - p.2 ^ 2)))) refSquare := fun σ τ κ =>
    (by fun_prop : Continuous _).continuousOn.integrableOn_compact refSquare_compact
  have e : (fun p : ℝ × ℝ => bilinDet c p.1 p.2 * refTest ty 0 0 p) = fun p =>
      γ ^ 2 / 16 * cross (c 3) (c 0) (c 1) * (((1 + -1 * p.1) * (1 - p.1 ^ 2)) * ((1 + -1 * p.2) * (1 - p.2 ^ 2)))
      + γ ^ 2 / 16 * cross (c 0) (c 1) (c 2) * (((1 + 1 * p.1) * (1 - p.1 ^ 2)) * ((1 + -1 * p.2) * (1 - p.2 ^ 2)))
      + γ ^ 2 / 16 * cross (c 1) (c 2) (c 3) * (((1 + 1 * p.1) * (1 - p.1 ^ 2)) * ((1 + 1 * p.2) * (1 - p.2 ^ 2)))
      + γ ^ 2 / 16 * cross (c 2) (c 3) (c 0) * (((1 + -1 * p.1) * (1 - p.1 ^ 2)) * ((1 + 1 * p.2) * (1 - p.2 ^ 2))) := by
    funext p
    have h1 := bilinDet_eq c p.1 p.2
    rw [first_test h, show bilinDet c p.1 p.2 = (16 * bilinDet c p.1 p.2) / 16 by ring, h1]
    ring
  have hs := cross_sum c
  have ha : 0 < polygonArea c := by linarith [hc.turn0, hc.turn1, hc.turn2, hc.turn3]
  have hadd : ∀ {f g : ℝ × ℝ → ℝ}, IntegrableOn f refSquare → IntegrableOn g refSquare →
      IntegrableOn (fun p => f p + g p) refSquare := fun hf hg => hf.add hg
  rw [e, integral_add (hadd (hadd (hint _ _ _) (hint _ _ _)) (hint _ _ _)) (hint _ _ _),
    integral_add (hadd (hint _ _ _) (hint _ _ _)) (hint _ _ _), integral_add (hint _ _ _) (hint _ _ _)]
  simp only [integral_const_mul, hP]
  nlinarith

/-- The defect on a cell is bounded by the first weak form divided by the area and by its own oscillation. -/
lemma density_bound_explicit {ty : String} (hty : ty ≠ "jacobi_plain") {c : Quad} (hc : ConvexCCW c)
    {ρ : ℝ → ℝ → ℝ} (hρ : ContinuousOn (fun z : ℝ × ℝ => ρ z.1 z.2) (cellSet c)) {η ω : ℝ}
    (hw : |∫ p in refSquare, density c ρ p * refTest ty 0 0 p| ≤ η)
    (hω : ∀ z ∈ cellSet c, ∀ y ∈ cellSet c, |ρ z.1 z.2 - ρ y.1 y.2| ≤ ω) {z : ℝ × ℝ} (hz : z ∈ cellSet c) :
    |ρ z.1 z.2| ≤ η / polygonArea c + ω := by
  have ha : 0 < polygonArea c := by
    linarith [cross_sum c, hc.turn0, hc.turn1, hc.turn2, hc.turn3]
  have hI := first_test_integral hty hc
  set I := ∫ p in refSquare, bilinDet c p.1 p.2 * refTest ty 0 0 p with hIdef
  have hI0 : 0 < I := ha.trans_le hI
  have hT := refTest_continuous ty 0 0
  have hD := bilinDet_continuous c
  have i1 : IntegrableOn (fun p => density c ρ p * refTest ty 0 0 p) refSquare :=
    ((density_continuous hc hρ).mul hT.continuousOn).integrableOn_compact refSquare_compact
  have i2 : IntegrableOn (fun p : ℝ × ℝ => bilinDet c p.1 p.2 * refTest ty 0 0 p) refSquare :=
    (hD.mul hT).continuousOn.integrableOn_compact refSquare_compact
  have h1 : |(∫ p in refSquare, density c ρ p * refTest ty 0 0 p) - ρ z.1 z.2 * I| ≤ ω * I := by
    rw [hIdef, ← integral_const_mul, ← integral_const_mul, ← integral_sub i1 (i2.const_mul _), ← Real.norm_eq_abs]
    refine (norm_integral_le_integral_norm _).trans (setIntegral_mono_on (i1.sub (i2.const_mul _)).norm
      (i2.const_mul _) refSquare_measurable fun p hp => ?_)
    have hpos := (bilinDet_pos hc hp).le
    have ht := first_test_nonneg hty hp
    rw [density_eq, Real.norm_eq_abs, show bilinDet c p.1 p.2 * ρ (bmap c p).1 (bmap c p).2 * refTest ty 0 0 p
      - ρ z.1 z.2 * (bilinDet c p.1 p.2 * refTest ty 0 0 p) = (ρ (bmap c p).1 (bmap c p).2 - ρ z.1 z.2)
        * (bilinDet c p.1 p.2 * refTest ty 0 0 p) by ring, abs_mul, abs_of_nonneg (mul_nonneg hpos ht)]
    exact mul_le_mul_of_nonneg_right (hω _ (bmap_mem hc hp) z hz) (mul_nonneg hpos ht)
  have h2 : |ρ z.1 z.2| * I ≤ η + ω * I := by
    have h3 := abs_sub_abs_le_abs_sub (ρ z.1 z.2 * I) (∫ p in refSquare, density c ρ p * refTest ty 0 0 p)
    rw [abs_sub_comm, abs_mul, abs_of_pos hI0] at h3
    linarith
  have hη : 0 ≤ η := (abs_nonneg _).trans hw
  have h4 : |ρ z.1 z.2| ≤ η / I + ω := by
    rw [← sub_le_iff_le_add, le_div_iff₀ hI0]
    linarith
  exact h4.trans (by gcongr)

/-- The same on the mesh. -/
lemma defect_bound_explicit {cells : List Quad} {ty : String} (hty : ty ≠ "jacobi_plain") {N : ℕ} (hN : 0 < N)
    {ψ : ℕ → ℕ → ℝ × ℝ → ℝ} {f ρ : ℝ → ℝ → ℝ} (hV : VariationalSetup cells ty N ψ f) {a u : ℝ × ℝ → ℝ} {b : ℝ × ℝ}
    {r : ℝ} (hρ : ∀ c ∈ cells, IsDefect (cellSet c) a u b r f ρ) {η ω m : ℝ} (hm : 0 < m) (hη : 0 ≤ η)
    (harea : AreaAtLeast cells m) (hω : Oscillation cells ρ ω)
    (hw : ∀ k c, cells[k]? = some c → |weakIntegral (cellSet c) a u b r f (ψ k 0)| ≤ η) :
    ∀ z ∈ meshSet cells, |ρ z.1 z.2| ≤ η / m + ω := by
  rintro z ⟨c, hc, hz⟩
  obtain ⟨k, hk⟩ := List.mem_iff_getElem?.1 hc
  have h1 := hw k c hk
  rw [weakIntegral_density (hV.convex c hc) hty (hV.test k c hk 0 (by positivity)) (hV.forcing c hc) (hρ c hc),
    Nat.zero_div, Nat.zero_mod] at h1
  have h2 := density_bound_explicit hty (hV.convex c hc) (hρ c hc).continuous h1 (hω c hc) hz
  have h3 := harea c hc
  exact h2.trans (by gcongr)

end FastVPINNs
