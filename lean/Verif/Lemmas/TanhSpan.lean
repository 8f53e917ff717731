import Verif.Lemmas.SmoothModels
import Mathlib.Analysis.SpecialFunctions.Artanh
import Mathlib.LinearAlgebra.Dual.Lemmas
import Mathlib.LinearAlgebra.Dimension.Constructions
import Mathlib.LinearAlgebra.FiniteDimensional.Lemmas

/-! # One hidden layer of `tanh` units takes all values and gradients at finitely many points -/

namespace FastVPINNs

open Finset

/-! ## The function `tanh` -/

lemma hasDerivAt_tanh (x : ℝ) : HasDerivAt Real.tanh (1 - Real.tanh x ^ 2) x := by
  have hc : Real.cosh x ≠ 0 := (Real.cosh_pos x).ne'
  have h := (Real.hasDerivAt_sinh x).div (Real.hasDerivAt_cosh x) hc
  have he : Real.tanh = Real.sinh / Real.cosh := by
    funext y
    exact Real.tanh_eq_sinh_div_cosh y
  rw [he]
  have hv : (1 - (Real.sinh / Real.cosh) x ^ 2)
      = (Real.cosh x * Real.cosh x - Real.sinh x * Real.sinh x) / Real.cosh x ^ 2 := by
    simp only [Pi.div_apply]
    field_simp
  rw [hv]
  exact h

lemma tanh_deriv_pos (x : ℝ) : 0 < 1 - Real.tanh x ^ 2 := by
  have := Real.tanh_sq_lt_one x
  linarith

lemma tanh_deriv_le (x : ℝ) (hx : x ≠ 0) : 1 - Real.tanh x ^ 2 ≤ 1 / x ^ 2 := by
  have hc : 0 < Real.cosh x := Real.cosh_pos x
  have h1 : 1 - Real.tanh x ^ 2 = 1 / Real.cosh x ^ 2 := by
    rw [Real.tanh_eq_sinh_div_cosh]
    have := Real.cosh_sq x
    field_simp
    linarith
  rw [h1]
  have h2 : |x| ≤ Real.cosh x := by
    rw [← Real.cosh_abs]
    have h3 := Real.add_one_le_exp |x|
    have h4 : 0 < Real.exp (-|x|) := Real.exp_pos _
    have h5 := Real.quadratic_le_exp_of_nonneg (abs_nonneg x)
    rw [Real.cosh_eq]
    nlinarith [abs_nonneg x, sq_nonneg (|x| - 1)]
  have h3 : x ^ 2 ≤ Real.cosh x ^ 2 := by
    rw [← sq_abs x]
    exact pow_le_pow_left₀ (abs_nonneg x) h2 2
  have h4 : 0 < x ^ 2 := by positivity
  exact one_div_le_one_div_of_le h4 h3

/-- Away from its centre a steep unit has a small derivative. -/
lemma steep_bound (l x : ℝ) (hl : 1 ≤ l) (hx : x ≠ 0) :
    |l * (1 - Real.tanh (l * x) ^ 2)| ≤ 1 / x ^ 2 := by
  have hl0 : 0 < l := by linarith
  have h1 := tanh_deriv_le (l * x) (by positivity)
  have h2 := (tanh_deriv_pos (l * x)).le
  rw [abs_of_nonneg (by positivity)]
  calc l * (1 - Real.tanh (l * x) ^ 2) ≤ l * (1 / (l * x) ^ 2) := mul_le_mul_of_nonneg_left h1 hl0.le
    _ = (1 / x ^ 2) * (1 / l) := by field_simp
    _ ≤ (1 / x ^ 2) * 1 := by
        refine mul_le_mul_of_nonneg_left ?_ (by positivity)
        rw [div_le_one hl0]
        exact hl
    _ = 1 / x ^ 2 := mul_one _

lemma zero_of_bounded (k C : ℝ) (h : ∀ l : ℝ, 1 ≤ l → |k * l| ≤ C) : k = 0 := by
  by_contra hk
  have hk' : 0 < |k| := abs_pos.2 hk
  have hC : 0 ≤ C := (abs_nonneg _).trans (h 1 le_rfl)
  have h1 := h (C / |k| + 1) (by have : 0 ≤ C / |k| := by positivity
                                 linarith)
  rw [abs_mul, abs_of_nonneg (show 0 ≤ C / |k| + 1 by positivity)] at h1
  have h2 : |k| * (C / |k| + 1) = C + |k| := by field_simp
  linarith

/-- The derivative weights of a combination of units that vanishes identically are zero. -/
lemma line_slopes {m : ℕ} (s : Fin m → ℝ) (hs : Function.Injective s) (α κ : Fin m → ℝ)
    (h : ∀ l t : ℝ, ∑ i, (α i * Real.tanh (l * (s i - t)) + κ i * (l * (1 - Real.tanh (l * (s i - t)) ^ 2))) = 0)
    (j : Fin m) : κ j = 0 := by
  refine zero_of_bounded _ (∑ i, |α i| + ∑ i, |κ i| * (1 / (s i - s j) ^ 2)) fun l hl => ?_
  have h1 := h l (s j)
  rw [← Finset.add_sum_erase _ _ (Finset.mem_univ j)] at h1
  have h2 : α j * Real.tanh (l * (s j - s j)) + κ j * (l * (1 - Real.tanh (l * (s j - s j)) ^ 2))
      = κ j * l := by simp
  rw [h2] at h1
  rw [eq_neg_of_add_eq_zero_left h1, abs_neg]
  refine (Finset.abs_sum_le_sum_abs _ _).trans ?_
  rw [← Finset.sum_add_distrib]
  refine (Finset.sum_le_sum (g := fun i => |α i| + |κ i| * (1 / (s i - s j) ^ 2)) fun i hi => ?_).trans ?_
  · have hij : s i - s j ≠ 0 := sub_ne_zero.2 fun he => (Finset.ne_of_mem_erase hi) (hs he)
    refine (abs_add_le _ _).trans (add_le_add ?_ ?_)
    · rw [abs_mul]
      have := (Real.abs_tanh_lt_one (l * (s i - s j))).le
      nlinarith [abs_nonneg (α i)]
    · rw [abs_mul]
      exact mul_le_mul_of_nonneg_left (steep_bound _ _ hl hij) (abs_nonneg _)
  · refine Finset.sum_le_sum_of_subset_of_nonneg (Finset.erase_subset _ _) fun i _ _ => ?_
    positivity

/-- All weights of a combination of units and their derivatives that vanishes identically are zero. -/
lemma line_weights {m : ℕ} (s : Fin m → ℝ) (hs : Function.Injective s) (α κ : Fin m → ℝ)
    (h : ∀ l t : ℝ, ∑ i, (α i * Real.tanh (l * (s i - t)) + κ i * (l * (1 - Real.tanh (l * (s i - t)) ^ 2))) = 0)
    (j : Fin m) : α j = 0 ∧ κ j = 0 := by
  have hκ := line_slopes s hs α κ h
  refine ⟨?_, hκ j⟩
  refine line_slopes s hs 0 α (fun l t => ?_) j
  have h0 : (fun t : ℝ => ∑ i, α i * Real.tanh (l * (s i - t))) = fun _ => 0 := by
    funext t
    have := h l t
    simpa [hκ] using this
  have hd : HasDerivAt (fun t : ℝ => ∑ i, α i * Real.tanh (l * (s i - t)))
      (∑ i, α i * ((1 - Real.tanh (l * (s i - t)) ^ 2) * (l * (0 - 1)))) t := by
    refine HasDerivAt.fun_sum fun i _ => HasDerivAt.const_mul _ ?_
    exact (hasDerivAt_tanh _).comp t (((hasDerivAt_const t (s i)).sub (hasDerivAt_id t)).const_mul l)
  rw [h0] at hd
  have h1 := hd.unique (hasDerivAt_const t (0 : ℝ))
  rw [← neg_eq_zero, ← Finset.sum_neg_distrib, ← h1]
  refine Finset.sum_congr rfl fun i _ => ?_
  simp only [Pi.zero_apply]
  ring

/-! ## Directions that separate the points -/

lemma separating {m : ℕ} (z : Fin m → ℝ × ℝ) (hz : Function.Injective z) :
    ∃ μ ν : ℝ, μ ≠ ν ∧ (Function.Injective fun i => (z i).1 + μ * (z i).2) ∧
      Function.Injective fun i => (z i).1 + ν * (z i).2 := by
  let bad : Finset ℝ := Finset.image
    (fun p : Fin m × Fin m => ((z p.1).1 - (z p.2).1) / ((z p.2).2 - (z p.1).2)) univ
  have key : ∀ μ, μ ∉ bad → Function.Injective fun i => (z i).1 + μ * (z i).2 := by
    intro μ hμ i j hij
    by_contra hne
    have hij' : (z i).1 - (z j).1 = μ * ((z j).2 - (z i).2) := by
      simp only at hij
      linarith
    by_cases hy : (z j).2 - (z i).2 = 0
    · rw [hy, mul_zero] at hij'
      exact hne (hz (Prod.ext (by linarith) (by linarith)))
    · exact hμ (Finset.mem_image.2 ⟨(i, j), mem_univ _, by
        simp only
        rw [hij']
        field_simp⟩)
  obtain ⟨μ, hμ⟩ := Infinite.exists_notMem_finset bad
  obtain ⟨ν, hν⟩ := Infinite.exists_notMem_finset (insert μ bad)
  rw [Finset.mem_insert, not_or] at hν
  exact ⟨μ, ν, fun h => hν.1 h.symm, key μ hμ, key ν hν.2⟩

/-! ## Values and gradients of one unit -/

/-- Value and gradient of the unit `tanh (w₁ x + w₂ y + b)` at the points `z`. -/
noncomputable def unitFeatures {m : ℕ} (z : Fin m → ℝ × ℝ) (p : ℝ × ℝ × ℝ) : Fin m × Fin 3 → ℝ := fun i =>
  let y := p.1 * (z i.1).1 + p.2.1 * (z i.1).2 + p.2.2
  ![Real.tanh y, p.1 * (1 - Real.tanh y ^ 2), p.2.1 * (1 - Real.tanh y ^ 2)] i.2

lemma unitFeatures_span {m : ℕ} (z : Fin m → ℝ × ℝ) (hz : Function.Injective z) :
    Submodule.span ℝ (Set.range (unitFeatures z)) = ⊤ := by
  by_contra hne
  obtain ⟨f, hf, hker⟩ := Submodule.exists_le_ker_of_lt_top _ (lt_top_iff_ne_top.2 hne)
  apply hf
  have hsum : ∀ p, ∑ i : Fin m, (unitFeatures z p (i, 0) * f (fun x => if (i, 0) = x then 1 else 0)
      + unitFeatures z p (i, 1) * f (fun x => if (i, 1) = x then 1 else 0)
      + unitFeatures z p (i, 2) * f (fun x => if (i, 2) = x then 1 else 0)) = 0 := by
    intro p
    have h0 : f (unitFeatures z p) = 0 := hker (Submodule.subset_span ⟨p, rfl⟩)
    rw [LinearMap.pi_apply_eq_sum_univ f, Fintype.sum_prod_type] at h0
    simpa only [Fin.sum_univ_three, smul_eq_mul] using h0
  set F : Fin m × Fin 3 → ℝ := fun i => f (fun x => if i = x then 1 else 0) with hF
  have hline : ∀ μ : ℝ, (Function.Injective fun i => (z i).1 + μ * (z i).2) →
      ∀ j, F (j, 0) = 0 ∧ F (j, 1) + μ * F (j, 2) = 0 := by
    intro μ hμ j
    refine line_weights _ hμ (fun i => F (i, 0)) (fun i => F (i, 1) + μ * F (i, 2)) (fun l t => ?_) j
    rw [← hsum (l, l * μ, -(l * t))]
    refine Finset.sum_congr rfl fun i _ => ?_
    simp only [unitFeatures, Matrix.cons_val_zero, Matrix.cons_val_one, Matrix.cons_val_two, Matrix.head_cons,
      Matrix.tail_cons, hF]
    rw [show l * (z i).1 + l * μ * (z i).2 + -(l * t) = l * ((z i).1 + μ * (z i).2 - t) by ring]
    ring
  obtain ⟨μ, ν, hne', h1, h2⟩ := separating z hz
  have hzero : ∀ i : Fin m × Fin 3, F i = 0 := by
    rintro ⟨j, k⟩
    obtain ⟨a0, a1⟩ := hline μ h1 j
    obtain ⟨-, b1⟩ := hline ν h2 j
    have h3 : (μ - ν) * F (j, 2) = 0 := by linear_combination a1 - b1
    have h4 : F (j, 2) = 0 := (mul_eq_zero.1 h3).resolve_left (sub_ne_zero.2 hne')
    have h5 : F (j, 1) = 0 := by
      rw [h4] at a1
      linarith
    fin_cases k
    · exact a0
    · exact h5
    · exact h4
  refine LinearMap.ext fun x => ?_
  rw [LinearMap.pi_apply_eq_sum_univ f]
  simp only [LinearMap.zero_apply]
  refine Finset.sum_eq_zero fun i _ => ?_
  have := hzero i
  simp only [hF] at this
  rw [this, smul_zero]

/-- With `n ≥ 3 m` units, for `m` points there are inner weights such that all values and gradients at the points
are combinations. -/
lemma units_basis {m : ℕ} (z : Fin m → ℝ × ℝ) (hz : Function.Injective z) (n : ℕ) (hn : 3 * m ≤ n) :
    ∃ p : ℕ → ℝ × ℝ × ℝ, ∀ T : Fin m × Fin 3 → ℝ, ∃ c : ℕ → ℝ,
      ∀ i, ∑ k ∈ range n, c k * unitFeatures z (p k) i = T i := by
  obtain ⟨d, hd', g, hg, hspan⟩ : ∃ d, d = 3 * m ∧ ∃ g : Fin d → Fin m × Fin 3 → ℝ,
      (∀ k, g k ∈ Set.range (unitFeatures z)) ∧ Submodule.span ℝ (Set.range g) = ⊤ := by
    obtain ⟨g, hg, hspan, -⟩ := Submodule.exists_fun_fin_finrank_span_eq ℝ (Set.range (unitFeatures z))
    refine ⟨_, ?_, g, hg, hspan.trans (unitFeatures_span z hz)⟩
    rw [unitFeatures_span z hz, finrank_top, Module.finrank_fintype_fun_eq_card]
    simp [mul_comm]
  choose p hp using hg
  refine ⟨fun k => if h : k < d then p ⟨k, h⟩ else 0, fun T => ?_⟩
  have hT : T ∈ Submodule.span ℝ (Set.range g) := by
    rw [hspan]
    trivial
  obtain ⟨c, hc⟩ := (Submodule.mem_span_range_iff_exists_fun ℝ).1 hT
  refine ⟨fun k => if h : k < d then c ⟨k, h⟩ else 0, fun i => ?_⟩
  rw [← hc, Finset.sum_apply]
  have hsub : range d ⊆ range n := Finset.range_subset_range.2 (by omega)
  rw [← Finset.sum_subset hsub (fun k _ hk => by
    rw [Finset.mem_range] at hk
    simp [hk]), Finset.sum_range]
  refine Finset.sum_congr rfl fun k _ => ?_
  simp [hp]

end FastVPINNs
