import Verif.Model.Setup
import Verif.Spec.Plane
import Mathlib.Analysis.Calculus.Deriv.Mul
import Mathlib.Analysis.Calculus.Deriv.Add
import Mathlib.Analysis.Calculus.Deriv.Comp
import Mathlib.Analysis.Calculus.Deriv.Prod
import Mathlib.Analysis.Calculus.FDeriv.Symmetric
import Mathlib.Analysis.Calculus.ContDiff.Operations
import Mathlib.Analysis.Convex.Combination
import Mathlib.Tactic.FieldSimp
import Mathlib.Tactic.LinearCombination

/-! # Auxiliary lemmas about the reference maps -/

namespace FastVPINNs

open Spec

/-- `T` is one of the two reference maps, as built by the set-up. -/
lemma assignFe_ok {ct ty : String} {c : Quad} {T : FETransformation2D}
    (h : assignFeTransformation ct ty c = .ok T) :
    (ty = "affine" ∧ T = quadAffin c) ∨ (ty = "bilinear" ∧ T = quadBilinear c) := by
  unfold assignFeTransformation at h
  split_ifs at h with h1 h2 h3
  · left; exact ⟨h2, (Except.ok.inj h).symm⟩
  · right; exact ⟨h3, (Except.ok.inj h).symm⟩

/-! ### Partial derivatives of the maps -/

lemma affine_orig_eq (a b d x y : ℝ) :
    HasDerivAt (fun s : ℝ => a + b * s + d * y) b x ∧
    HasDerivAt (fun s : ℝ => a + b * x + d * s) d y := by
  constructor
  · simpa using (((hasDerivAt_id x).const_mul b).const_add a).add_const (d * y)
  · simpa using ((hasDerivAt_id y).const_mul d).const_add (a + b * x)

lemma bilin_hasDeriv (a b d e x y : ℝ) :
    HasDerivAt (fun s : ℝ => a + b * s + d * y + e * s * y) (b + e * y) x ∧
    HasDerivAt (fun s : ℝ => a + b * x + d * s + e * x * s) (d + e * x) y := by
  constructor
  · have h := ((((hasDerivAt_id x).const_mul b).const_add a).add_const (d * y)).fun_add
      (((hasDerivAt_id x).const_mul e).mul_const y)
    simpa using h
  · have h := (((hasDerivAt_id y).const_mul d).const_add (a + b * x)).fun_add
      ((hasDerivAt_id y).const_mul (e * x))
    simpa using h

/-- Signed determinant of the bilinear map. -/
noncomputable def bilinDet (c : Quad) (xi eta : ℝ) : ℝ :=
  (QuadBilinear.xc1 c + QuadBilinear.xc3 c * eta) * (QuadBilinear.yc2 c + QuadBilinear.yc3 c * xi)
    - (QuadBilinear.xc2 c + QuadBilinear.xc3 c * xi)
      * (QuadBilinear.yc1 c + QuadBilinear.yc3 c * eta)

lemma bilin_jacobianDet (c : Quad) (xi eta : ℝ) :
    jacobianDet (fun p => (quadBilinear c).originalFromRef p.1 p.2) (xi, eta)
      = bilinDet c xi eta := by
  simp only [jacobianDet, dx, dy, quadBilinear, QuadBilinear.getOriginalFromRef, bilinDet]
  rw [(bilin_hasDeriv _ _ _ _ xi eta).1.deriv, (bilin_hasDeriv _ _ _ _ xi eta).2.deriv,
    (bilin_hasDeriv _ _ _ _ xi eta).1.deriv, (bilin_hasDeriv _ _ _ _ xi eta).2.deriv]

lemma affine_jacobianDet (c : Quad) (xi eta : ℝ) :
    jacobianDet (fun p => (quadAffin c).originalFromRef p.1 p.2) (xi, eta)
      = QuadAffin.detjk c := by
  simp only [jacobianDet, dx, dy, quadAffin, QuadAffin.getOriginalFromRef, QuadAffin.detjk]
  rw [(affine_orig_eq _ _ _ xi eta).1.deriv, (affine_orig_eq _ _ _ xi eta).2.deriv,
    (affine_orig_eq _ _ _ xi eta).1.deriv, (affine_orig_eq _ _ _ xi eta).2.deriv]

/-- The determinant of the bilinear map is the bilinear interpolant of its corner values. -/
lemma bilinDet_eq (c : Quad) (xi eta : ℝ) :
    16 * bilinDet c xi eta = (1 - xi) * (1 - eta) * cross (c 3) (c 0) (c 1)
      + (1 + xi) * (1 - eta) * cross (c 0) (c 1) (c 2)
      + (1 + xi) * (1 + eta) * cross (c 1) (c 2) (c 3)
      + (1 - xi) * (1 + eta) * cross (c 2) (c 3) (c 0) := by
  simp only [bilinDet, cross, QuadBilinear.xc1, QuadBilinear.xc2, QuadBilinear.xc3,
    QuadBilinear.yc1, QuadBilinear.yc2, QuadBilinear.yc3]
  ring

lemma bilinDet_pos {c : Quad} (hc : ConvexCCW c) {xi eta : ℝ} (hp : (xi, eta) ∈ refSquare) :
    0 < bilinDet c xi eta := by
  obtain ⟨h1, h2, h3, h4⟩ := hp
  obtain ⟨t0, t1, t2, t3⟩ := hc
  have key := bilinDet_eq c xi eta
  set m := min (min (cross (c 3) (c 0) (c 1)) (cross (c 0) (c 1) (c 2)))
    (min (cross (c 1) (c 2) (c 3)) (cross (c 2) (c 3) (c 0))) with hm
  have hm0 : 0 < m := lt_min (lt_min t0 t1) (lt_min t2 t3)
  have m0 : m ≤ cross (c 3) (c 0) (c 1) := (min_le_left _ _).trans (min_le_left _ _)
  have m1 : m ≤ cross (c 0) (c 1) (c 2) := (min_le_left _ _).trans (min_le_right _ _)
  have m2 : m ≤ cross (c 1) (c 2) (c 3) := (min_le_right _ _).trans (min_le_left _ _)
  have m3 : m ≤ cross (c 2) (c 3) (c 0) := (min_le_right _ _).trans (min_le_right _ _)
  have a1 : 0 ≤ 1 - xi := by linarith
  have a2 : 0 ≤ 1 + xi := by linarith
  have b1 : 0 ≤ 1 - eta := by linarith
  have b2 : 0 ≤ 1 + eta := by linarith
  have e0 := mul_le_mul_of_nonneg_left m0 (mul_nonneg a1 b1)
  have e1 := mul_le_mul_of_nonneg_left m1 (mul_nonneg a2 b1)
  have e2 := mul_le_mul_of_nonneg_left m2 (mul_nonneg a2 b2)
  have e3 := mul_le_mul_of_nonneg_left m3 (mul_nonneg a1 b2)
  nlinarith

/-- The difference of two values of the bilinear map is its derivative at the midpoint. -/
lemma bilin_injOn {c : Quad} (hc : ConvexCCW c) :
    Set.InjOn (fun p : ℝ × ℝ => (quadBilinear c).originalFromRef p.1 p.2) refSquare := by
  rintro ⟨x1, y1⟩ h1 ⟨x2, y2⟩ h2 h
  simp only [quadBilinear, QuadBilinear.getOriginalFromRef, Prod.mk.injEq] at h
  obtain ⟨e1, e2⟩ := h
  have hmid : (((x1 + x2) / 2, (y1 + y2) / 2) : ℝ × ℝ) ∈ refSquare := by
    obtain ⟨a1, a2, a3, a4⟩ := h1
    obtain ⟨b1, b2, b3, b4⟩ := h2
    refine ⟨?_, ?_, ?_, ?_⟩ <;> simp only at * <;> linarith
  have hdet := bilinDet_pos hc hmid
  unfold bilinDet at hdet
  set a := QuadBilinear.xc1 c
  set b := QuadBilinear.xc2 c
  set d := QuadBilinear.xc3 c
  set a' := QuadBilinear.yc1 c
  set b' := QuadBilinear.yc2 c
  set d' := QuadBilinear.yc3 c
  set D := (a + d * ((y1 + y2) / 2)) * (b' + d' * ((x1 + x2) / 2))
    - (b + d * ((x1 + x2) / 2)) * (a' + d' * ((y1 + y2) / 2)) with hD
  have k1 : (a + d * ((y1 + y2) / 2)) * (x1 - x2) + (b + d * ((x1 + x2) / 2)) * (y1 - y2) = 0 := by
    linear_combination e1
  have k2 : (a' + d' * ((y1 + y2) / 2)) * (x1 - x2) + (b' + d' * ((x1 + x2) / 2)) * (y1 - y2)
      = 0 := by
    linear_combination e2
  have m1 : D * (x1 - x2) = 0 := by
    rw [hD]
    linear_combination (b' + d' * ((x1 + x2) / 2)) * k1 - (b + d * ((x1 + x2) / 2)) * k2
  have m2 : D * (y1 - y2) = 0 := by
    rw [hD]
    linear_combination (a + d * ((y1 + y2) / 2)) * k2 - (a' + d' * ((y1 + y2) / 2)) * k1
  have n1 := (mul_eq_zero.1 m1).resolve_left hdet.ne'
  have n2 := (mul_eq_zero.1 m2).resolve_left hdet.ne'
  exact Prod.ext (by simpa using sub_eq_zero.1 n1) (by simpa using sub_eq_zero.1 n2)

/-! ### Chain rule -/

lemma hasDerivAt_pair {f g : ℝ → ℝ} {f' g' t : ℝ} (hf : HasDerivAt f f' t)
    (hg : HasDerivAt g g' t) (u : ℝ × ℝ → ℝ) (hu : DifferentiableAt ℝ u (f t, g t)) :
    HasDerivAt (fun s => u (f s, g s)) (f' * dx u (f t, g t) + g' * dy u (f t, g t)) t := by
  have h1 := hu.hasFDerivAt.comp_hasDerivAt t (hf.prodMk hg)
  have hx : dx u (f t, g t) = fderiv ℝ u (f t, g t) (1, 0) := by
    have := hu.hasFDerivAt.comp_hasDerivAt (f t)
      ((hasDerivAt_id (f t)).prodMk (hasDerivAt_const (f t) (g t)))
    exact this.deriv
  have hy : dy u (f t, g t) = fderiv ℝ u (f t, g t) (0, 1) := by
    have := hu.hasFDerivAt.comp_hasDerivAt (g t)
      ((hasDerivAt_const (g t) (f t)).prodMk (hasDerivAt_id (g t)))
    exact this.deriv
  have h2 : fderiv ℝ u (f t, g t) (f', g')
      = f' * dx u (f t, g t) + g' * dy u (f t, g t) := by
    rw [hx, hy]
    have : ((f', g') : ℝ × ℝ) = f' • ((1, 0) : ℝ × ℝ) + g' • ((0, 1) : ℝ × ℝ) := by
      simp
    rw [this, map_add, map_smul, map_smul]
    rfl
  rw [← h2]
  exact h1

lemma hasDerivAt_dx {u : ℝ × ℝ → ℝ} {p : ℝ × ℝ} (hu : DifferentiableAt ℝ u p) :
    HasDerivAt (fun s => u (s, p.2)) (dx u p) p.1 := by
  have := hasDerivAt_pair (hasDerivAt_id p.1) (hasDerivAt_const p.1 p.2) u hu
  simpa using this

lemma hasDerivAt_dy {u : ℝ × ℝ → ℝ} {p : ℝ × ℝ} (hu : DifferentiableAt ℝ u p) :
    HasDerivAt (fun s => u (p.1, s)) (dy u p) p.2 := by
  have := hasDerivAt_pair (hasDerivAt_const p.2 p.1) (hasDerivAt_id p.2) u hu
  simpa using this

lemma dx_eq_fderiv {u : ℝ × ℝ → ℝ} {p : ℝ × ℝ} (hu : DifferentiableAt ℝ u p) :
    dx u p = fderiv ℝ u p (1, 0) := by
  have := hu.hasFDerivAt.comp_hasDerivAt p.1
    ((hasDerivAt_id p.1).prodMk (hasDerivAt_const p.1 p.2))
  exact this.deriv

lemma dy_eq_fderiv {u : ℝ × ℝ → ℝ} {p : ℝ × ℝ} (hu : DifferentiableAt ℝ u p) :
    dy u p = fderiv ℝ u p (0, 1) := by
  have := hu.hasFDerivAt.comp_hasDerivAt p.2
    ((hasDerivAt_const p.2 p.1).prodMk (hasDerivAt_id p.2))
  exact this.deriv

lemma dx_fun_eq {u : ℝ × ℝ → ℝ} (hu : Differentiable ℝ u) :
    dx u = fun p => fderiv ℝ u p (1, 0) := funext fun p => dx_eq_fderiv (hu p)

lemma dy_fun_eq {u : ℝ × ℝ → ℝ} (hu : Differentiable ℝ u) :
    dy u = fun p => fderiv ℝ u p (0, 1) := funext fun p => dy_eq_fderiv (hu p)

lemma dx_contDiff {u : ℝ × ℝ → ℝ} {n : ℕ} (hu : ContDiff ℝ (n + 1) u) : ContDiff ℝ n (dx u) := by
  rw [dx_fun_eq (hu.differentiable (by norm_cast))]
  exact (hu.fderiv_right le_rfl).clm_apply contDiff_const

lemma dy_contDiff {u : ℝ × ℝ → ℝ} {n : ℕ} (hu : ContDiff ℝ (n + 1) u) : ContDiff ℝ n (dy u) := by
  rw [dy_fun_eq (hu.differentiable (by norm_cast))]
  exact (hu.fderiv_right le_rfl).clm_apply contDiff_const

lemma dx_dy_comm {u : ℝ × ℝ → ℝ} (hu : ContDiff ℝ 2 u) (p : ℝ × ℝ) :
    dx (dy u) p = dy (dx u) p := by
  have hd : Differentiable ℝ u := hu.differentiable (by norm_num)
  have h1 : ContDiff ℝ 1 (fderiv ℝ u) := hu.fderiv_right (by norm_num)
  have hdd : DifferentiableAt ℝ (fderiv ℝ u) p := (h1.differentiable (by norm_num)) p
  have hsym : IsSymmSndFDerivAt ℝ u p := hu.contDiffAt.isSymmSndFDerivAt (by simp)
  have a1 : DifferentiableAt ℝ (fun q => fderiv ℝ u q (0, 1)) p :=
    hdd.clm_apply (differentiableAt_const _)
  have a2 : DifferentiableAt ℝ (fun q => fderiv ℝ u q (1, 0)) p :=
    hdd.clm_apply (differentiableAt_const _)
  rw [dy_fun_eq hd, dx_fun_eq hd, dx_eq_fderiv a1, dy_eq_fderiv a2]
  have e1 : ∀ v w : ℝ × ℝ, fderiv ℝ (fun q => fderiv ℝ u q v) p w = fderiv ℝ (fderiv ℝ u) p w v := by
    intro v w
    rw [fderiv_clm_apply hdd (differentiableAt_const v)]
    simp
  rw [e1, e1]
  exact hsym _ _

end FastVPINNs
