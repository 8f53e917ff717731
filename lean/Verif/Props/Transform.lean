import Verif.Lemmas.Transform
import Mathlib.Topology.Order.IntermediateValue
import Mathlib.Analysis.Convex.Topology
import Mathlib.Data.Matrix.Reflection
import Mathlib.LinearAlgebra.Matrix.Determinant.Basic

/-! # C25–C30: the reference maps -/

namespace FastVPINNs

open Spec

/-! ## C25 -/

/-- The bilinear map as a convex combination of the vertices. -/
lemma bilin_combination (c : Quad) (xi eta : ℝ) :
    (quadBilinear c).originalFromRef xi eta
      = ((1 - xi) * (1 - eta) / 4) • c 0 + ((1 + xi) * (1 - eta) / 4) • c 1
        + ((1 + xi) * (1 + eta) / 4) • c 2 + ((1 - xi) * (1 + eta) / 4) • c 3 := by
  apply Prod.ext <;>
  simp only [quadBilinear, QuadBilinear.getOriginalFromRef, QuadBilinear.xc0, QuadBilinear.xc1,
    QuadBilinear.xc2, QuadBilinear.xc3, QuadBilinear.yc0, QuadBilinear.yc1, QuadBilinear.yc2,
    QuadBilinear.yc3, Prod.fst_add, Prod.snd_add, Prod.smul_fst, Prod.smul_snd, smul_eq_mul] <;>
  ring

lemma bilin_mem_hull (c : Quad) (p : ℝ × ℝ) (hp : p ∈ refSquare) :
    (quadBilinear c).originalFromRef p.1 p.2 ∈ convexHull ℝ (Set.range c) := by
  obtain ⟨h1, h2, h3, h4⟩ := hp
  rw [bilin_combination]
  have hc := convex_convexHull ℝ (Set.range c)
  have hm : ∀ i, c i ∈ convexHull ℝ (Set.range c) := fun i =>
    subset_convexHull ℝ _ (Set.mem_range_self i)
  have a1 : 0 ≤ 1 - p.1 := by linarith
  have a2 : 0 ≤ 1 + p.1 := by linarith
  have b1 : 0 ≤ 1 - p.2 := by linarith
  have b2 : 0 ≤ 1 + p.2 := by linarith
  have key := hc.sum_mem (t := Finset.univ)
    (w := ![(1 - p.1) * (1 - p.2) / 4, (1 + p.1) * (1 - p.2) / 4, (1 + p.1) * (1 + p.2) / 4,
      (1 - p.1) * (1 + p.2) / 4]) (z := c)
    (by
      intro i _
      fin_cases i <;> simp <;> positivity)
    (by simp [Fin.sum_univ_four]; ring)
    (fun i _ => hm i)
  simpa [Fin.sum_univ_four] using key

/-- `cross a b ·` is non-negative on a hull if it is on the vertices. -/
lemma cross_nonneg_of_mem_hull {c : Quad} {a b : ℝ × ℝ} (h : ∀ i, 0 ≤ cross a b (c i))
    {p : ℝ × ℝ} (hp : p ∈ convexHull ℝ (Set.range c)) : 0 ≤ cross a b p := by
  have hconv : Convex ℝ {q : ℝ × ℝ | 0 ≤ cross a b q} := by
    intro x hx y hy s t hs ht hst
    simp only [Set.mem_ofPred_eq, cross, Prod.fst_add, Prod.snd_add, Prod.smul_fst, Prod.smul_snd,
      smul_eq_mul] at hx hy ⊢
    have e : (b.1 - a.1) * (s * x.2 + t * y.2 - a.2) - (b.2 - a.2) * (s * x.1 + t * y.1 - a.1)
        = s * ((b.1 - a.1) * (x.2 - a.2) - (b.2 - a.2) * (x.1 - a.1))
          + t * ((b.1 - a.1) * (y.2 - a.2) - (b.2 - a.2) * (y.1 - a.1)) := by
      have : t = 1 - s := by linarith
      subst this
      ring
    rw [e]
    positivity
  exact convexHull_min (by rintro _ ⟨i, rfl⟩; exact h i) hconv hp

/-- On a strictly convex cell the bilinear map covers the cell. -/
lemma hull_subset_bilin {c : Quad} (hc : ConvexCCW c) {p : ℝ × ℝ}
    (hp : p ∈ convexHull ℝ (Set.range c)) :
    ∃ q ∈ refSquare, (quadBilinear c).originalFromRef q.1 q.2 = p := by
  obtain ⟨t0, t1, t2, t3⟩ := hc
  -- `p` is on the inner side of all four sides
  have s01 : 0 ≤ cross (c 0) (c 1) p := cross_nonneg_of_mem_hull (fun i => by
    fin_cases i
    · simp [cross]
    · simp [cross]; linarith
    · exact t1.le
    · have : cross (c 0) (c 1) (c 3) = cross (c 3) (c 0) (c 1) := by simp only [cross]; ring
      exact this ▸ t0.le) hp
  have s12 : 0 ≤ cross (c 1) (c 2) p := cross_nonneg_of_mem_hull (fun i => by
    fin_cases i
    · have : cross (c 1) (c 2) (c 0) = cross (c 0) (c 1) (c 2) := by simp only [cross]; ring
      exact this ▸ t1.le
    · simp [cross]
    · simp [cross]; linarith
    · exact t2.le) hp
  have s23 : 0 ≤ cross (c 2) (c 3) p := cross_nonneg_of_mem_hull (fun i => by
    fin_cases i
    · exact t3.le
    · have : cross (c 2) (c 3) (c 1) = cross (c 1) (c 2) (c 3) := by simp only [cross]; ring
      exact this ▸ t2.le
    · simp [cross]
    · simp [cross]; linarith) hp
  have s30 : 0 ≤ cross (c 3) (c 0) p := cross_nonneg_of_mem_hull (fun i => by
    fin_cases i
    · simp [cross]; linarith
    · exact t0.le
    · have : cross (c 3) (c 0) (c 2) = cross (c 2) (c 3) (c 0) := by simp only [cross]; ring
      exact this ▸ t3.le
    · simp [cross]) hp
  -- the horizontal grid line through `p`
  let A : ℝ → ℝ × ℝ := fun s => ((1 - s) / 2) • c 0 + ((1 + s) / 2) • c 3
  let B : ℝ → ℝ × ℝ := fun s => ((1 - s) / 2) • c 1 + ((1 + s) / 2) • c 2
  let g : ℝ → ℝ := fun s => cross (A s) (B s) p
  have hg : Continuous g := by
    simp only [g, A, B, cross, Prod.fst_add, Prod.snd_add, Prod.smul_fst, Prod.smul_snd,
      smul_eq_mul]
    fun_prop
  have hgm : 0 ≤ g (-1) := by
    have : g (-1) = cross (c 0) (c 1) p := by
      simp only [g, A, B]; norm_num
    rw [this]; exact s01
  have hg1 : g 1 ≤ 0 := by
    have : g 1 = -cross (c 2) (c 3) p := by
      simp only [g, A, B, cross]; norm_num; ring
    rw [this]; linarith
  obtain ⟨s, ⟨hs1, hs2⟩, hgs⟩ : ∃ s ∈ Set.Icc (-1 : ℝ) 1, g s = 0 := by
    have h := intermediate_value_Icc' (by norm_num : (-1 : ℝ) ≤ 1) hg.continuousOn
    exact h ⟨hg1, hgm⟩
  have hA : cross (c 3) (c 0) (A s) = 0 := by
    simp only [A, cross, Prod.fst_add, Prod.snd_add, Prod.smul_fst, Prod.smul_snd, smul_eq_mul]
    ring
  have hB : cross (c 1) (c 2) (B s) = 0 := by
    simp only [B, cross, Prod.fst_add, Prod.snd_add, Prod.smul_fst, Prod.smul_snd, smul_eq_mul]
    ring
  have b1 : 0 ≤ (1 - s) / 2 := by linarith
  have b2 : 0 ≤ (1 + s) / 2 := by linarith
  have comb : ∀ a b : ℝ, 0 < a → 0 < b → 0 < (1 - s) / 2 * a + (1 + s) / 2 * b := by
    intro a b ha hb
    rcases lt_or_ge s 1 with h | h
    · have : 0 < (1 - s) / 2 := by linarith
      have := mul_pos this ha
      have := mul_nonneg b2 hb.le
      linarith
    · have : 0 < (1 + s) / 2 := by linarith
      have := mul_pos this hb
      have := mul_nonneg b1 ha.le
      linarith
  have hBpos : 0 < cross (c 3) (c 0) (B s) := by
    have e : cross (c 3) (c 0) (B s) = (1 - s) / 2 * cross (c 3) (c 0) (c 1)
        + (1 + s) / 2 * cross (c 2) (c 3) (c 0) := by
      simp only [B, cross, Prod.fst_add, Prod.snd_add, Prod.smul_fst, Prod.smul_snd, smul_eq_mul]
      ring
    rw [e]; exact comb _ _ t0 t3
  have hApos : 0 < cross (c 1) (c 2) (A s) := by
    have e : cross (c 1) (c 2) (A s) = (1 - s) / 2 * cross (c 0) (c 1) (c 2)
        + (1 + s) / 2 * cross (c 1) (c 2) (c 3) := by
      simp only [A, cross, Prod.fst_add, Prod.snd_add, Prod.smul_fst, Prod.smul_snd, smul_eq_mul]
      ring
    rw [e]; exact comb _ _ t1 t2
  -- `p` lies on the line through `A s` and `B s`
  have hline : ∃ t : ℝ, p = A s + t • (B s - A s) := by
    have hgs' : ((B s).1 - (A s).1) * (p.2 - (A s).2) - ((B s).2 - (A s).2) * (p.1 - (A s).1) = 0 :=
      hgs
    by_cases h1 : (B s).1 - (A s).1 = 0
    · by_cases h2 : (B s).2 - (A s).2 = 0
      · exfalso
        have hAB : B s = A s := Prod.ext (sub_eq_zero.1 h1) (sub_eq_zero.1 h2)
        rw [hAB, hA] at hBpos
        exact lt_irrefl _ hBpos
      · refine ⟨(p.2 - (A s).2) / ((B s).2 - (A s).2), Prod.ext ?_ ?_⟩
        · simp only [Prod.fst_add, Prod.smul_fst, Prod.fst_sub, smul_eq_mul]
          rw [h1, mul_zero, add_zero]
          rw [h1, zero_mul, zero_sub, neg_eq_zero] at hgs'
          exact sub_eq_zero.1 ((mul_eq_zero.1 hgs').resolve_left h2)
        · simp only [Prod.snd_add, Prod.smul_snd, Prod.snd_sub, smul_eq_mul]
          field_simp
          ring
    · refine ⟨(p.1 - (A s).1) / ((B s).1 - (A s).1), Prod.ext ?_ ?_⟩
      · simp only [Prod.fst_add, Prod.smul_fst, Prod.fst_sub, smul_eq_mul]
        field_simp
        ring
      · simp only [Prod.snd_add, Prod.smul_snd, Prod.snd_sub, smul_eq_mul]
        field_simp
        linear_combination hgs'
  obtain ⟨t, ht⟩ := hline
  have e1 : cross (c 3) (c 0) p = t * cross (c 3) (c 0) (B s) := by
    have : cross (c 3) (c 0) p = (1 - t) * cross (c 3) (c 0) (A s)
        + t * cross (c 3) (c 0) (B s) := by
      rw [ht]
      simp only [cross, Prod.fst_add, Prod.snd_add, Prod.smul_fst, Prod.smul_snd, Prod.fst_sub,
        Prod.snd_sub, smul_eq_mul]
      ring
    rw [this, hA]; ring
  have e2 : cross (c 1) (c 2) p = (1 - t) * cross (c 1) (c 2) (A s) := by
    have : cross (c 1) (c 2) p = (1 - t) * cross (c 1) (c 2) (A s)
        + t * cross (c 1) (c 2) (B s) := by
      rw [ht]
      simp only [cross, Prod.fst_add, Prod.snd_add, Prod.smul_fst, Prod.smul_snd, Prod.fst_sub,
        Prod.snd_sub, smul_eq_mul]
      ring
    rw [this, hB]; ring
  have ht0 : 0 ≤ t := by
    rw [e1] at s30
    exact nonneg_of_mul_nonneg_left s30 hBpos
  have ht1 : 0 ≤ 1 - t := by
    rw [e2] at s12
    exact nonneg_of_mul_nonneg_left s12 hApos
  refine ⟨(2 * t - 1, s), ⟨by simp only; linarith, by simp only; linarith, hs1, hs2⟩, ?_⟩
  rw [bilin_combination, ht]
  apply Prod.ext <;>
  simp only [A, B, Prod.fst_add, Prod.snd_add, Prod.smul_fst, Prod.smul_snd, Prod.fst_sub,
    Prod.snd_sub, smul_eq_mul] <;>
  ring

/-- **C25**.  The bilinear transformation sends the reference corners to the vertices in order and
each reference side affinely onto the corresponding side of the cell, for every quadrilateral; every
reference point goes into the convex hull of the vertices, and for a strictly convex anticlockwise
cell the image of the reference square is exactly that hull. -/
theorem C25_square_onto_cell (c : Quad) (T : FETransformation2D)
    (h : assignFeTransformation "quadrilateral" "bilinear" c = .ok T) :
    (T.originalFromRef (-1) (-1) = c 0 ∧ T.originalFromRef 1 (-1) = c 1 ∧
      T.originalFromRef 1 1 = c 2 ∧ T.originalFromRef (-1) 1 = c 3) ∧
    (∀ s : ℝ, T.originalFromRef s (-1) = AffineMap.lineMap (c 0) (c 1) ((1 + s) / 2) ∧
      T.originalFromRef 1 s = AffineMap.lineMap (c 1) (c 2) ((1 + s) / 2) ∧
      T.originalFromRef (-s) 1 = AffineMap.lineMap (c 2) (c 3) ((1 + s) / 2) ∧
      T.originalFromRef (-1) (-s) = AffineMap.lineMap (c 3) (c 0) ((1 + s) / 2)) ∧
    (∀ p ∈ refSquare, T.originalFromRef p.1 p.2 ∈ convexHull ℝ (Set.range c)) ∧
    (ConvexCCW c → (fun p : ℝ × ℝ => T.originalFromRef p.1 p.2) '' refSquare
      = convexHull ℝ (Set.range c)) := by
  obtain ⟨h1, -⟩ | ⟨-, rfl⟩ := assignFe_ok h
  · exact absurd h1 (by decide)
  refine ⟨?_, ?_, fun p hp => bilin_mem_hull c p hp, ?_⟩
  · refine ⟨?_, ?_, ?_, ?_⟩ <;> rw [bilin_combination] <;> norm_num
  · intro s
    refine ⟨?_, ?_, ?_, ?_⟩ <;> rw [bilin_combination, AffineMap.lineMap_apply_module] <;>
    · apply Prod.ext <;>
      simp only [Prod.fst_add, Prod.snd_add, Prod.smul_fst, Prod.smul_snd, smul_eq_mul] <;>
      ring
  · intro hc
    apply Set.Subset.antisymm
    · rintro _ ⟨p, hp, rfl⟩
      exact bilin_mem_hull c p hp
    · intro p hp
      exact hull_subset_bilin hc hp

/-! ## C26 -/

/-- **C26**.  Both coordinates of the map are differentiable functions of the reference point, and
`get_jacobian` is the absolute value of the determinant of the partial derivatives. -/
theorem C26_jacobian_is_abs_det (ct ty : String) (c : Quad) (T : FETransformation2D)
    (h : assignFeTransformation ct ty c = .ok T) (xi eta : ℝ) :
    (Differentiable ℝ fun p : ℝ × ℝ => T.originalFromRef p.1 p.2) ∧
    T.jacobian xi eta = |jacobianDet (fun p => T.originalFromRef p.1 p.2) (xi, eta)| := by
  obtain ⟨-, rfl⟩ | ⟨-, rfl⟩ := assignFe_ok h
  · refine ⟨?_, ?_⟩
    · simp only [quadAffin, QuadAffin.getOriginalFromRef]; fun_prop
    · rw [affine_jacobianDet]; rfl
  · refine ⟨?_, ?_⟩
    · simp only [quadBilinear, QuadBilinear.getOriginalFromRef]; fun_prop
    · rw [bilin_jacobianDet]; rfl

/-! ## C27 -/

lemma cramer_solve (a b a' b' u v : ℝ) (h : a * b' - b * a' ≠ 0) :
    (b' * (a * u + a' * v) - a' * (b * u + b' * v)) * (1 / (a * b' - b * a')) = u ∧
    (-b * (a * u + a' * v) + a * (b * u + b' * v)) * (1 / (a * b' - b * a')) = v := by
  rw [mul_one_div, mul_one_div, div_eq_iff h, div_eq_iff h]
  constructor <;> ring

/-- **C27**.  If the reference arrays hold the partial derivatives of `u ∘ F` at the quadrature
points, where `F` is the reference map, then `get_orig_from_ref_derivative` returns the partial
derivatives of `u` at the mapped points, wherever the Jacobian is non-zero. -/
theorem C27_gradient_chain_rule (ct ty : String) (c : Quad) (T : FETransformation2D)
    (h : assignFeTransformation ct ty c = .ok T) {nt q : ℕ} (u : Fin nt → ℝ × ℝ → ℝ)
    (xi eta : Fin q → ℝ) (gx gy : Fin nt → Fin q → ℝ) (j : Fin nt) (p : Fin q)
    (hJ : T.jacobian (xi p) (eta p) ≠ 0)
    (hu : DifferentiableAt ℝ (u j) (T.originalFromRef (xi p) (eta p)))
    (hgx : gx j p = dx (fun r => u j (T.originalFromRef r.1 r.2)) (xi p, eta p))
    (hgy : gy j p = dy (fun r => u j (T.originalFromRef r.1 r.2)) (xi p, eta p)) :
    (T.origFromRefDerivative gx gy xi eta).1 j p
        = dx (u j) (T.originalFromRef (xi p) (eta p)) ∧
    (T.origFromRefDerivative gx gy xi eta).2 j p
        = dy (u j) (T.originalFromRef (xi p) (eta p)) := by
  obtain ⟨-, rfl⟩ | ⟨-, rfl⟩ := assignFe_ok h
  · have hD : QuadAffin.detjk c ≠ 0 := by
      intro h0
      apply hJ
      simp [quadAffin, QuadAffin.getJacobian, h0]
    have e1 := hasDerivAt_pair
      (affine_orig_eq (QuadAffin.xc0 c) (QuadAffin.xc1 c) (QuadAffin.xc2 c) (xi p) (eta p)).1
      (affine_orig_eq (QuadAffin.yc0 c) (QuadAffin.yc1 c) (QuadAffin.yc2 c) (xi p) (eta p)).1
      (u j) hu
    have e2 := hasDerivAt_pair
      (affine_orig_eq (QuadAffin.xc0 c) (QuadAffin.xc1 c) (QuadAffin.xc2 c) (xi p) (eta p)).2
      (affine_orig_eq (QuadAffin.yc0 c) (QuadAffin.yc1 c) (QuadAffin.yc2 c) (xi p) (eta p)).2
      (u j) hu
    have f1 := hgx.trans e1.deriv
    have f2 := hgy.trans e2.deriv
    simp only [quadAffin, QuadAffin.getOrigFromRefDerivative, QuadAffin.getOriginalFromRef]
    rw [f1, f2]
    exact cramer_solve _ _ _ _ _ _ hD
  · have hD : bilinDet c (xi p) (eta p) ≠ 0 := by
      intro h0
      apply hJ
      have : (quadBilinear c).jacobian (xi p) (eta p) = |bilinDet c (xi p) (eta p)| := rfl
      rw [this, h0, abs_zero]
    have e1 := hasDerivAt_pair
      (bilin_hasDeriv (QuadBilinear.xc0 c) (QuadBilinear.xc1 c) (QuadBilinear.xc2 c)
        (QuadBilinear.xc3 c) (xi p) (eta p)).1
      (bilin_hasDeriv (QuadBilinear.yc0 c) (QuadBilinear.yc1 c) (QuadBilinear.yc2 c)
        (QuadBilinear.yc3 c) (xi p) (eta p)).1 (u j) hu
    have e2 := hasDerivAt_pair
      (bilin_hasDeriv (QuadBilinear.xc0 c) (QuadBilinear.xc1 c) (QuadBilinear.xc2 c)
        (QuadBilinear.xc3 c) (xi p) (eta p)).2
      (bilin_hasDeriv (QuadBilinear.yc0 c) (QuadBilinear.yc1 c) (QuadBilinear.yc2 c)
        (QuadBilinear.yc3 c) (xi p) (eta p)).2 (u j) hu
    have f1 := hgx.trans e1.deriv
    have f2 := hgy.trans e2.deriv
    simp only [quadBilinear, QuadBilinear.getOrigFromRefDerivative,
      QuadBilinear.getOriginalFromRef]
    rw [f1, f2]
    exact cramer_solve _ _ _ _ _ _ hD

/-! ## C28 -/

lemma geoData_det (c : Quad) : (QuadAffin.geoData c).det = QuadAffin.detjk c ^ 3 := by
  rw [Matrix.det_fin_three]
  simp only [QuadAffin.geoData, QuadAffin.detjk, Matrix.of_apply, Matrix.cons_val', Matrix.cons_val,
    Matrix.cons_val_fin_one]
  ring

/-- First partial derivatives of `u ∘ F` for the affine map `F`. -/
lemma affine_dx (c : Quad) (u : ℝ × ℝ → ℝ) (hu : Differentiable ℝ u) (p : ℝ × ℝ) :
    dx (fun r => u ((quadAffin c).originalFromRef r.1 r.2)) p
      = QuadAffin.xc1 c * dx u ((quadAffin c).originalFromRef p.1 p.2)
        + QuadAffin.yc1 c * dy u ((quadAffin c).originalFromRef p.1 p.2) :=
  (hasDerivAt_pair
      (affine_orig_eq (QuadAffin.xc0 c) (QuadAffin.xc1 c) (QuadAffin.xc2 c) p.1 p.2).1
      (affine_orig_eq (QuadAffin.yc0 c) (QuadAffin.yc1 c) (QuadAffin.yc2 c) p.1 p.2).1
      u (hu _)).deriv

lemma affine_dy (c : Quad) (u : ℝ × ℝ → ℝ) (hu : Differentiable ℝ u) (p : ℝ × ℝ) :
    dy (fun r => u ((quadAffin c).originalFromRef r.1 r.2)) p
      = QuadAffin.xc2 c * dx u ((quadAffin c).originalFromRef p.1 p.2)
        + QuadAffin.yc2 c * dy u ((quadAffin c).originalFromRef p.1 p.2) :=
  (hasDerivAt_pair
      (affine_orig_eq (QuadAffin.xc0 c) (QuadAffin.xc1 c) (QuadAffin.xc2 c) p.1 p.2).2
      (affine_orig_eq (QuadAffin.yc0 c) (QuadAffin.yc1 c) (QuadAffin.yc2 c) p.1 p.2).2
      u (hu _)).deriv

lemma dx_lin (a b : ℝ) (f g : ℝ × ℝ → ℝ) (hf : Differentiable ℝ f) (hg : Differentiable ℝ g)
    (p : ℝ × ℝ) : dx (fun r => a * f r + b * g r) p = a * dx f p + b * dx g p := by
  exact (((hasDerivAt_dx (hf p)).const_mul a).fun_add ((hasDerivAt_dx (hg p)).const_mul b)).deriv

lemma dy_lin (a b : ℝ) (f g : ℝ × ℝ → ℝ) (hf : Differentiable ℝ f) (hg : Differentiable ℝ g)
    (p : ℝ × ℝ) : dy (fun r => a * f r + b * g r) p = a * dy f p + b * dy g p := by
  exact (((hasDerivAt_dy (hf p)).const_mul a).fun_add ((hasDerivAt_dy (hg p)).const_mul b)).deriv

/-- **C28** (affine).  On every non-degenerate cell `get_orig_from_ref_second_derivative` of the
affine transformation succeeds and, given the second partial derivatives of `u ∘ F` at the
quadrature points, returns those of `u` at the mapped points, for every twice continuously
differentiable `u`. -/
theorem C28_affine_second_derivatives (ct : String) (c : Quad) (T : FETransformation2D)
    (h : assignFeTransformation ct "affine" c = .ok T) {nt q : ℕ} (u : Fin nt → ℝ × ℝ → ℝ)
    (hu : ∀ j, ContDiff ℝ 2 (u j)) (xi eta : Fin q → ℝ) (gxx gxy gyy : Fin nt → Fin q → ℝ)
    (hJ : T.jacobian 0 0 ≠ 0)
    (hxx : ∀ j p, gxx j p = dx (dx fun r => u j (T.originalFromRef r.1 r.2)) (xi p, eta p))
    (hxy : ∀ j p, gxy j p = dy (dx fun r => u j (T.originalFromRef r.1 r.2)) (xi p, eta p))
    (hyy : ∀ j p, gyy j p = dy (dy fun r => u j (T.originalFromRef r.1 r.2)) (xi p, eta p)) :
    ∃ oxx oxy oyy, T.origFromRefSecondDerivative gxx gxy gyy xi eta = .ok (oxx, oxy, oyy) ∧
      ∀ j p, oxx j p = dx (dx (u j)) (T.originalFromRef (xi p) (eta p)) ∧
        oxy j p = dy (dx (u j)) (T.originalFromRef (xi p) (eta p)) ∧
        oyy j p = dy (dy (u j)) (T.originalFromRef (xi p) (eta p)) := by
  obtain ⟨-, rfl⟩ | ⟨h1, -⟩ := assignFe_ok h
  swap
  · exact absurd h1 (by decide)
  have hD : QuadAffin.detjk c ≠ 0 := by
    intro h0
    apply hJ
    simp [quadAffin, QuadAffin.getJacobian, h0]
  have hG : (QuadAffin.geoData c).det ≠ 0 := by rw [geoData_det]; exact pow_ne_zero 3 hD
  have hunit : IsUnit (QuadAffin.geoData c).det := isUnit_iff_ne_zero.2 hG
  have hinv : (QuadAffin.geoData c)⁻¹ * QuadAffin.geoData c = 1 := Matrix.nonsing_inv_mul _ hunit
  simp only [quadAffin, QuadAffin.getOrigFromRefSecondDerivative, hG, if_false]
  refine ⟨_, _, _, rfl, ?_⟩
  intro j p
  have hd : Differentiable ℝ (u j) := (hu j).differentiable (by norm_num)
  have hdx : Differentiable ℝ (dx (u j)) :=
    (dx_contDiff (n := 1) (by exact_mod_cast hu j)).differentiable (by norm_num)
  have hdy : Differentiable ℝ (dy (u j)) :=
    (dy_contDiff (n := 1) (by exact_mod_cast hu j)).differentiable (by norm_num)
  have hF : Differentiable ℝ fun r : ℝ × ℝ => (quadAffin c).originalFromRef r.1 r.2 := by
    simp only [quadAffin, QuadAffin.getOriginalFromRef]; fun_prop
  have fx : dx (fun r => u j ((quadAffin c).originalFromRef r.1 r.2))
      = fun r => QuadAffin.xc1 c * (dx (u j) ((quadAffin c).originalFromRef r.1 r.2))
        + QuadAffin.yc1 c * dy (u j) ((quadAffin c).originalFromRef r.1 r.2) :=
    funext fun r => affine_dx c (u j) hd r
  have fy : dy (fun r => u j ((quadAffin c).originalFromRef r.1 r.2))
      = fun r => QuadAffin.xc2 c * (dx (u j) ((quadAffin c).originalFromRef r.1 r.2))
        + QuadAffin.yc2 c * dy (u j) ((quadAffin c).originalFromRef r.1 r.2) :=
    funext fun r => affine_dy c (u j) hd r
  have kx : Differentiable ℝ fun r : ℝ × ℝ => dx (u j) ((quadAffin c).originalFromRef r.1 r.2) :=
    hdx.comp hF
  have ky : Differentiable ℝ fun r : ℝ × ℝ => dy (u j) ((quadAffin c).originalFromRef r.1 r.2) :=
    hdy.comp hF
  have gx := hxx j p
  have gy := hxy j p
  have gz := hyy j p
  rw [fx, dx_lin _ _ _ _ kx ky, affine_dx c _ hdx, affine_dx c _ hdy, dx_dy_comm (hu j)] at gx
  rw [fx, dy_lin _ _ _ _ kx ky, affine_dy c _ hdx, affine_dy c _ hdy, dx_dy_comm (hu j)] at gy
  rw [fy, dy_lin _ _ _ _ kx ky, affine_dy c _ hdx, affine_dy c _ hdy, dx_dy_comm (hu j)] at gz
  have hmul : ∀ a b, ∑ k, (QuadAffin.geoData c)⁻¹ a k * QuadAffin.geoData c k b
      = (1 : Matrix (Fin 3) (Fin 3) ℝ) a b := fun a b => by
    rw [← hinv, Matrix.mul_apply]
  have G00 : QuadAffin.geoData c 0 0 = QuadAffin.xc1 c * QuadAffin.xc1 c := rfl
  have G01 : QuadAffin.geoData c 0 1 = 2 * QuadAffin.xc1 c * QuadAffin.yc1 c := rfl
  have G02 : QuadAffin.geoData c 0 2 = QuadAffin.yc1 c * QuadAffin.yc1 c := rfl
  have G10 : QuadAffin.geoData c 1 0 = QuadAffin.xc1 c * QuadAffin.xc2 c := rfl
  have G11 : QuadAffin.geoData c 1 1
    = QuadAffin.yc1 c * QuadAffin.xc2 c + QuadAffin.xc1 c * QuadAffin.yc2 c := rfl
  have G12 : QuadAffin.geoData c 1 2 = QuadAffin.yc1 c * QuadAffin.yc2 c := rfl
  have G20 : QuadAffin.geoData c 2 0 = QuadAffin.xc2 c * QuadAffin.xc2 c := rfl
  have G21 : QuadAffin.geoData c 2 1 = 2 * QuadAffin.xc2 c * QuadAffin.yc2 c := rfl
  have G22 : QuadAffin.geoData c 2 2 = QuadAffin.yc2 c * QuadAffin.yc2 c := rfl
  set P := (quadAffin c).originalFromRef (xi p) (eta p) with hP
  have hP' : QuadAffin.getOriginalFromRef c (xi p) (eta p) = P := rfl
  rw [hP']
  refine ⟨?_, ?_, ?_⟩
  · have m0 := hmul 0 0
    have m1 := hmul 0 1
    have m2 := hmul 0 2
    simp only [Fin.sum_univ_three, G00, G01, G02, G10, G11, G12, G20, G21, G22] at m0 m1 m2
    rw [Matrix.one_apply_eq] at m0
    rw [Matrix.one_apply_ne (by decide)] at m1 m2
    rw [gx, gy, gz]
    linear_combination (dx (dx (u j)) P) * m0 + (dy (dx (u j)) P) * m1 + (dy (dy (u j)) P) * m2
  · have m0 := hmul 1 0
    have m1 := hmul 1 1
    have m2 := hmul 1 2
    simp only [Fin.sum_univ_three, G00, G01, G02, G10, G11, G12, G20, G21, G22] at m0 m1 m2
    rw [Matrix.one_apply_eq] at m1
    rw [Matrix.one_apply_ne (by decide)] at m0 m2
    rw [gx, gy, gz]
    linear_combination (dx (dx (u j)) P) * m0 + (dy (dx (u j)) P) * m1 + (dy (dy (u j)) P) * m2
  · have m0 := hmul 2 0
    have m1 := hmul 2 1
    have m2 := hmul 2 2
    simp only [Fin.sum_univ_three, G00, G01, G02, G10, G11, G12, G20, G21, G22] at m0 m1 m2
    rw [Matrix.one_apply_eq] at m2
    rw [Matrix.one_apply_ne (by decide)] at m0 m1
    rw [gx, gy, gz]
    linear_combination (dx (dx (u j)) P) * m0 + (dy (dx (u j)) P) * m1 + (dy (dy (u j)) P) * m2

/-- **C28** (degenerate cells).  On a degenerate cell the affine transformation raises
`LinAlgError`. -/
theorem C28_affine_degenerate (ct : String) (c : Quad) (T : FETransformation2D)
    (h : assignFeTransformation ct "affine" c = .ok T) {nt q : ℕ} (xi eta : Fin q → ℝ)
    (gxx gxy gyy : Fin nt → Fin q → ℝ) (hJ : T.jacobian 0 0 = 0) :
    T.origFromRefSecondDerivative gxx gxy gyy xi eta = .error .linAlgError := by
  obtain ⟨-, rfl⟩ | ⟨h1, -⟩ := assignFe_ok h
  swap
  · exact absurd h1 (by decide)
  have h0 : QuadAffin.detjk c = 0 := abs_eq_zero.1 hJ
  have hG : (QuadAffin.geoData c).det = 0 := by rw [geoData_det, h0]; norm_num
  simp [quadAffin, QuadAffin.getOrigFromRefSecondDerivative, hG]

/-- The square `[0, h]²` listed anticlockwise. -/
def squareCell (h : ℝ) : Quad := ![(0, 0), (h, 0), (h, h), (0, h)]

/-- **C28** (bilinear, negation).  For the bilinear transformation the result is not the second
derivative of `u`: already for `u(x, y) = x²` on the square `[0, h]²` with any side `h > 0` other
than `2`, at every quadrature point. -/
theorem C28_bilinear_second_derivatives_wrong (h : ℝ) (h0 : 0 < h) (h2 : h ≠ 2)
    (T : FETransformation2D)
    (hT : assignFeTransformation "quadrilateral" "bilinear" (squareCell h) = .ok T)
    (xi eta : Fin 1 → ℝ) (gxx gxy gyy : Fin 1 → Fin 1 → ℝ)
    (hxx : gxx 0 0 = dx (dx fun r => (T.originalFromRef r.1 r.2).1 ^ 2) (xi 0, eta 0))
    (oxx oxy oyy : Fin 1 → Fin 1 → ℝ)
    (hr : T.origFromRefSecondDerivative gxx gxy gyy xi eta = .ok (oxx, oxy, oyy)) :
    oxx 0 0 ≠ dx (dx fun r : ℝ × ℝ => r.1 ^ 2) (T.originalFromRef (xi 0) (eta 0)) := by
  obtain ⟨h1, -⟩ | ⟨-, rfl⟩ := assignFe_ok hT
  · exact absurd h1 (by decide)
  simp only [quadBilinear, QuadBilinear.getOrigFromRefSecondDerivative, Except.ok.injEq,
    Prod.mk.injEq] at hr
  obtain ⟨rfl, -, -⟩ := hr
  have e0 : ∀ r : ℝ × ℝ, (QuadBilinear.getOriginalFromRef (squareCell h) r.1 r.2).1
      = h / 2 + h / 2 * r.1 := by
    intro r
    simp [QuadBilinear.getOriginalFromRef, QuadBilinear.xc0, QuadBilinear.xc1, QuadBilinear.xc2,
      QuadBilinear.xc3, squareCell]
    norm_num
    ring
  have lin : ∀ (a b x : ℝ), HasDerivAt (fun s : ℝ => (a + b * s) ^ 2) (2 * b * (a + b * x)) x := by
    intro a b x
    have h := (((hasDerivAt_id x).const_mul b).const_add a).fun_pow 2
    refine h.congr_deriv ?_
    simp only [id]
    push_cast
    ring
  have lin1 : ∀ (a b x : ℝ), HasDerivAt (fun s : ℝ => 2 * b * (a + b * s)) (2 * b * b) x := by
    intro a b x
    have h := ((((hasDerivAt_id x).const_mul b).const_add a)).const_mul (2 * b)
    simpa [id] using h
  have dd : ∀ (a b : ℝ) (p : ℝ × ℝ), dx (dx fun r : ℝ × ℝ => (a + b * r.1) ^ 2) p = 2 * b * b := by
    intro a b p
    have : dx (fun r : ℝ × ℝ => (a + b * r.1) ^ 2) = fun r => 2 * b * (a + b * r.1) :=
      funext fun r => (lin a b r.1).deriv
    rw [this]
    exact (lin1 a b p.1).deriv
  have e1 : (fun r : ℝ × ℝ => ((quadBilinear (squareCell h)).originalFromRef r.1 r.2).1 ^ 2)
      = fun r => (h / 2 + h / 2 * r.1) ^ 2 := by
    funext r
    rw [← e0]
    rfl
  have e2 : (fun r : ℝ × ℝ => r.1 ^ 2) = fun r => ((0 : ℝ) + 1 * r.1) ^ 2 := by
    funext r; ring
  rw [hxx, e1, dd, e2, dd]
  intro hc
  have : (h - 2) * (h + 2) = 0 := by linarith
  rcases mul_eq_zero.1 this with h3 | h3
  · exact h2 (by linarith)
  · linarith

/-! ## C29 -/

/-- **C29**.  On a parallelogram the two transformations give the same map, the same Jacobian and
the same first derivatives; on any other quadrilateral the affine one misses the third vertex (and
so differs from the bilinear one). -/
theorem C29_affine_vs_bilinear (c : Quad) (Ta Tb : FETransformation2D)
    (ha : assignFeTransformation "quadrilateral" "affine" c = .ok Ta)
    (hb : assignFeTransformation "quadrilateral" "bilinear" c = .ok Tb) :
    (IsParallelogram c →
      (∀ xi eta, Ta.originalFromRef xi eta = Tb.originalFromRef xi eta ∧
        Ta.jacobian xi eta = Tb.jacobian xi eta) ∧
      ∀ {nt q : ℕ} (gx gy : Fin nt → Fin q → ℝ) (xi eta : Fin q → ℝ),
        Ta.origFromRefDerivative gx gy xi eta = Tb.origFromRefDerivative gx gy xi eta) ∧
    (¬ IsParallelogram c → Ta.originalFromRef 1 1 ≠ c 2 ∧ Tb.originalFromRef 1 1 = c 2) := by
  obtain ⟨-, rfl⟩ | ⟨h1, -⟩ := assignFe_ok ha
  swap
  · exact absurd h1 (by decide)
  obtain ⟨h1, -⟩ | ⟨-, rfl⟩ := assignFe_ok hb
  · exact absurd h1 (by decide)
  constructor
  · intro hp
    have p1 : (c 1).1 - (c 0).1 = (c 2).1 - (c 3).1 := congrArg Prod.fst hp
    have p2 : (c 1).2 - (c 0).2 = (c 2).2 - (c 3).2 := congrArg Prod.snd hp
    have q0 : QuadAffin.xc0 c = QuadBilinear.xc0 c := by
      simp only [QuadAffin.xc0, QuadBilinear.xc0]; linear_combination (1 / 4) * p1
    have q1 : QuadAffin.xc1 c = QuadBilinear.xc1 c := by
      simp only [QuadAffin.xc1, QuadBilinear.xc1]; linear_combination (1 / 4) * p1
    have q2 : QuadAffin.xc2 c = QuadBilinear.xc2 c := by
      simp only [QuadAffin.xc2, QuadBilinear.xc2]; linear_combination (1 / 4) * p1
    have q3 : QuadBilinear.xc3 c = 0 := by
      simp only [QuadBilinear.xc3]; linear_combination (-1 / 4) * p1
    have r0 : QuadAffin.yc0 c = QuadBilinear.yc0 c := by
      simp only [QuadAffin.yc0, QuadBilinear.yc0]; linear_combination (1 / 4) * p2
    have r1 : QuadAffin.yc1 c = QuadBilinear.yc1 c := by
      simp only [QuadAffin.yc1, QuadBilinear.yc1]; linear_combination (1 / 4) * p2
    have r2 : QuadAffin.yc2 c = QuadBilinear.yc2 c := by
      simp only [QuadAffin.yc2, QuadBilinear.yc2]; linear_combination (1 / 4) * p2
    have r3 : QuadBilinear.yc3 c = 0 := by
      simp only [QuadBilinear.yc3]; linear_combination (-1 / 4) * p2
    refine ⟨fun xi eta => ⟨?_, ?_⟩, fun gx gy xi eta => ?_⟩
    · simp [quadAffin, quadBilinear, QuadAffin.getOriginalFromRef,
        QuadBilinear.getOriginalFromRef, q0, q1, q2, q3, r0, r1, r2, r3]
    · simp [quadAffin, quadBilinear, QuadAffin.getJacobian, QuadAffin.detjk,
        QuadBilinear.getJacobian, q1, q2, q3, r1, r2, r3]
    · simp [quadAffin, quadBilinear, QuadAffin.getOrigFromRefDerivative, QuadAffin.detjk,
        QuadBilinear.getOrigFromRefDerivative, q1, q2, q3, r1, r2, r3]
  · intro hp
    refine ⟨?_, (C25_square_onto_cell c _ hb).1.2.2.1⟩
    intro h2
    apply hp
    have e1 := congrArg Prod.fst h2
    have e2 := congrArg Prod.snd h2
    simp only [quadAffin, QuadAffin.getOriginalFromRef, QuadAffin.xc0, QuadAffin.xc1,
      QuadAffin.xc2, QuadAffin.yc0, QuadAffin.yc1, QuadAffin.yc2] at e1 e2
    exact Prod.ext (by simp only [Prod.fst_sub]; linarith) (by simp only [Prod.snd_sub]; linarith)

/-! ## C30 -/

/-- **C30**.  On a strictly convex anticlockwise cell the bilinear map has positive determinant at
every reference point, it is injective on the reference square, and `get_jacobian` is positive
there (so a positive reference weight gives a positive weight on the cell). -/
theorem C30_no_folding (c : Quad) (hc : ConvexCCW c) (T : FETransformation2D)
    (h : assignFeTransformation "quadrilateral" "bilinear" c = .ok T) :
    (∀ p ∈ refSquare, 0 < jacobianDet (fun q => T.originalFromRef q.1 q.2) p ∧
      T.jacobian p.1 p.2 = jacobianDet (fun q => T.originalFromRef q.1 q.2) p) ∧
    Set.InjOn (fun p : ℝ × ℝ => T.originalFromRef p.1 p.2) refSquare := by
  obtain ⟨h1, -⟩ | ⟨-, rfl⟩ := assignFe_ok h
  · exact absurd h1 (by decide)
  refine ⟨?_, bilin_injOn hc⟩
  rintro ⟨x, y⟩ hp
  have h1 := bilinDet_pos hc hp
  rw [bilin_jacobianDet]
  exact ⟨h1, abs_of_pos h1⟩

/-! ### Concrete cells -/

/-- A strictly convex cell that is not a parallelogram. -/
def kiteCell : Quad := ![(0, 0), (2, 0), (3, 3), (0, 1)]

lemma kiteCell_convex : ConvexCCW kiteCell := by
  constructor <;> simp [kiteCell, cross] <;> norm_num

lemma kiteCell_not_parallelogram : ¬ IsParallelogram kiteCell := by
  intro h
  have := congrArg Prod.fst h
  simp [kiteCell] at this

lemma squareCell_convex {h : ℝ} (h0 : 0 < h) : ConvexCCW (squareCell h) := by
  constructor <;> simp [squareCell, cross] <;> positivity

/-- The hypotheses of C25, C26, C27, C30 are met by a convex cell which is no parallelogram, at the
centre point and with `u(x, y) = x y`. -/
example : ∃ T, assignFeTransformation "quadrilateral" "bilinear" kiteCell = .ok T ∧
    ConvexCCW kiteCell ∧ T.jacobian 0 0 ≠ 0 ∧
    DifferentiableAt ℝ (fun p : ℝ × ℝ => p.1 * p.2) (T.originalFromRef 0 0) := by
  refine ⟨_, rfl, kiteCell_convex, ?_, by fun_prop⟩
  have := (C30_no_folding kiteCell kiteCell_convex _ rfl).1 (0, 0) ⟨by norm_num, by norm_num,
    by norm_num, by norm_num⟩
  rw [this.2]
  exact this.1.ne'

/-- The hypotheses of C28 are met: a non-degenerate cell for the affine map, and the unit square
(side `1 ≠ 2`) for the negative statement, where the bilinear method does return. -/
example : (∃ T, assignFeTransformation "quadrilateral" "affine" (squareCell 1) = .ok T ∧
      T.jacobian 0 0 ≠ 0) ∧
    ∃ T, assignFeTransformation "quadrilateral" "bilinear" (squareCell 1) = .ok T ∧
      ∀ g : Fin 1 → Fin 1 → ℝ, T.origFromRefSecondDerivative g g g (fun _ => 0) (fun _ => 0)
        = .ok (g, g, g) := by
  refine ⟨⟨_, rfl, ?_⟩, ⟨_, rfl, fun g => rfl⟩⟩
  simp [quadAffin, QuadAffin.getJacobian, QuadAffin.detjk, QuadAffin.xc1, QuadAffin.xc2,
    QuadAffin.yc1, QuadAffin.yc2, squareCell]
  norm_num

/-- Both cases of C29 occur. -/
example : IsParallelogram (squareCell 1) ∧ ¬ IsParallelogram kiteCell :=
  ⟨by simp [IsParallelogram, squareCell], kiteCell_not_parallelogram⟩

end FastVPINNs
