import Mathlib.Analysis.Calculus.ContDiff.Polynomial
import Verif.Props.Constructor
import Verif.Props.TestFunctions

/-! # C75: the attributes of a single `FE2D_Cell` -/

namespace FastVPINNs

open Spec Polynomial

/-- Everything a successful construction of a cell consists of. -/
lemma fe2dCell_ok {F : Type} {ext : QuadRoutines} {s : FESettings} {f : F} {c : Quad} {nq : ℕ}
    {fc : FE2DCell F (s.feOrder.toNat ^ 2) nq} (h : fe2dCell ext s f c = .ok ⟨nq, fc⟩) :
    ∃ B wt xi eta, assignBasisFunction "quadrilateral" s.feOrder s.feType = .ok (some B) ∧
      assignQuadratureRules ext s.cellType s.quadOrder s.quadType = .ok ⟨nq, wt, xi, eta⟩ ∧
      fe2dCellWith s (some B) ⟨nq, wt, xi, eta⟩ f c = .ok fc := by
  unfold fe2dCell at h
  split at h
  · cases h
  · rename_i basis hB
    split at h
    · cases h
    · rename_i rule hR
      split at h
      · cases h
      · rename_i cell hc
        obtain ⟨n, wt, xi, eta⟩ := rule
        simp only [Except.ok.injEq, Sigma.mk.injEq] at h
        obtain ⟨rfl, h⟩ := h
        obtain rfl := eq_of_heq h
        have hq : s.cellType = "quadrilateral" := by
          by_contra hne
          simp [assignQuadratureRules, hne] at hR
        rw [hq] at hB
        cases basis with
        | none =>
          unfold fe2dCellWith at hc
          split at hc <;> cases hc
        | some B => exact ⟨B, wt, xi, eta, hB, hR, hc⟩

lemma refTest_dxx (t : String) (i j : ℕ) (p : ℝ × ℝ) :
    dx (dx (refTest t i j)) p
      = (derivative (derivative (testFamily t i))).eval p.1 * (testFamily t j).eval p.2 := by
  rw [show dx (refTest t i j) = fun p => (derivative (testFamily t i)).eval p.1 * (testFamily t j).eval p.2 from
    funext (refTest_dx t i j)]
  unfold dx
  simp

lemma refTest_dxy (t : String) (i j : ℕ) (p : ℝ × ℝ) :
    dy (dx (refTest t i j)) p
      = (derivative (testFamily t i)).eval p.1 * (derivative (testFamily t j)).eval p.2 := by
  rw [show dx (refTest t i j) = fun p => (derivative (testFamily t i)).eval p.1 * (testFamily t j).eval p.2 from
    funext (refTest_dx t i j)]
  unfold dy
  simp

lemma refTest_dyy (t : String) (i j : ℕ) (p : ℝ × ℝ) :
    dy (dy (refTest t i j)) p
      = (testFamily t i).eval p.1 * (derivative (derivative (testFamily t j))).eval p.2 := by
  rw [show dy (refTest t i j) = fun p => (testFamily t i).eval p.1 * (derivative (testFamily t j)).eval p.2 from
    funext (refTest_dy t i j)]
  unfold dy
  simp

lemma refTest_contDiff (t : String) (i j : ℕ) : ContDiff ℝ 2 (refTest t i j) := by
  unfold refTest
  have h : ∀ P : ℝ[X], ContDiff ℝ 2 fun x : ℝ => P.eval x := fun P => by
    simpa [Polynomial.aeval_def] using Polynomial.contDiff_aeval (𝕜 := ℝ) P 2
  exact ((h _).comp contDiff_fst).mul ((h _).comp contDiff_snd)

/-- **C75** (attributes).  A constructed cell keeps the coordinates, the forcing function, and the points
and weights of the rule; its map is the bilinear interpolation of the vertices, or the affine map given by
the vertices 0, 1 and 3; `jacobian` is the absolute determinant of the derivative of the map at the points,
`mult` the product with the weights, `quad_actual_coordinates` the mapped points; the two reference
gradients are the derivatives of the reference test functions. -/
theorem C75_attributes {F : Type} (ext : QuadRoutines) (s : FESettings) (f : F) (c : Quad) (nq : ℕ)
    (fc : FE2DCell F (s.feOrder.toNat ^ 2) nq) (h : fe2dCell ext s f c = .ok ⟨nq, fc⟩) :
    ∃ wt xi eta, assignQuadratureRules ext s.cellType s.quadOrder s.quadType = .ok ⟨nq, wt, xi, eta⟩ ∧
      fc.quadXi = xi ∧ fc.quadEta = eta ∧ fc.quadWeight = wt ∧ fc.cellCoordinates = c ∧
      fc.forcingFunction = f ∧ (∀ t, fc.forcingAtQuad t = 0) ∧
      (s.feTransformationType = "bilinear" →
        ∀ a b, fc.fetransformation.originalFromRef a b = bilinearImage c (a, b)) ∧
      (s.feTransformationType = "affine" → ∀ a b, fc.fetransformation.originalFromRef a b
        = c 0 + ((1 + a) / 2) • (c 1 - c 0) + ((1 + b) / 2) • (c 3 - c 0)) ∧
      (∀ p, fc.jacobian p
        = |jacobianDet (fun q => fc.fetransformation.originalFromRef q.1 q.2) (xi p, eta p)|) ∧
      (∀ p, fc.mult p = wt p * fc.jacobian p) ∧
      (∀ p, fc.quadActualCoordinates p = fc.fetransformation.originalFromRef (xi p) (eta p)) ∧
      ∀ t p, fc.basisGradxAtQuadRef t p = dx (fun q =>
            (testFamily s.feType (t.val / s.feOrder.toNat)).eval q.1
              * (testFamily s.feType (t.val % s.feOrder.toNat)).eval q.2) (xi p, eta p) ∧
          fc.basisGradyAtQuadRef t p = dy (fun q =>
            (testFamily s.feType (t.val / s.feOrder.toNat)).eval q.1
              * (testFamily s.feType (t.val % s.feOrder.toNat)).eval q.2) (xi p, eta p) := by
  obtain ⟨B, wt, xi, eta, hB, hR, hc⟩ := fe2dCell_ok h
  have hB' := C13_basis_rows _ _ B hB
  refine ⟨wt, xi, eta, hR, ?_⟩
  unfold fe2dCellWith at hc
  cases hT : assignFeTransformation s.cellType s.feTransformationType c with
  | error e => rw [hT] at hc; cases hc
  | ok T =>
    rw [hT] at hc
    simp only at hc
    cases h2 : T.origFromRefSecondDerivative (B.gradxx xi eta) (B.gradxy xi eta)
        (B.gradyy xi eta) xi eta with
    | error e => rw [h2] at hc; cases hc
    | ok sec =>
      rw [h2] at hc
      simp only [Except.ok.injEq] at hc
      subst hc
      refine ⟨rfl, rfl, rfl, rfl, rfl, fun _ => rfl, ?_, ?_, ?_, fun _ => rfl, fun _ => rfl, ?_⟩
      · intro hty a b
        obtain ⟨ht, -⟩ | ⟨-, rfl⟩ := assignFe_ok hT
        · exact absurd (ht.symm.trans hty) (by decide)
        · exact bmap_eq c (a, b)
      · intro hty a b
        obtain ⟨-, rfl⟩ | ⟨ht, -⟩ := assignFe_ok hT
        · simp only [quadAffin, QuadAffin.getOriginalFromRef, QuadAffin.xc0, QuadAffin.xc1, QuadAffin.xc2,
            QuadAffin.yc0, QuadAffin.yc1, QuadAffin.yc2]
          ext <;> simp <;> ring
        · exact absurd (ht.symm.trans hty) (by decide)
      · exact fun p => (C26_jacobian_is_abs_det _ _ c T hT (xi p) (eta p)).2
      · intro t p
        obtain ⟨hi, hj, ht⟩ := index_split t
        refine ⟨?_, ?_⟩
        · change B.gradx xi eta t p = dx (refTest s.feType _ _) _
          rw [hB'.gradx xi eta p _ _ t hi hj ht, refTest_dx]
        · change B.grady xi eta t p = dy (refTest s.feType _ _) _
          rw [hB'.grady xi eta p _ _ t hi hj ht, refTest_dy]

/-- **C75** (second derivatives, affine).  For every cell constructed with the affine map there are smooth
functions `ψ t` on the plane, the reference test functions composed with the inverse of the map of the
cell, whose second partial derivatives at the mapped points, times `mult`, are the stored arrays. -/
theorem C75_affine_second {F : Type} (ext : QuadRoutines) (s : FESettings) (f : F) (c : Quad) (nq : ℕ)
    (fc : FE2DCell F (s.feOrder.toNat ^ 2) nq) (h : fe2dCell ext s f c = .ok ⟨nq, fc⟩)
    (hty : s.feTransformationType = "affine") :
    ∃ ψ : Fin (s.feOrder.toNat ^ 2) → ℝ × ℝ → ℝ,
      (∀ t, ContDiff ℝ 2 (ψ t)) ∧
      (∀ t a b, ψ t (fc.fetransformation.originalFromRef a b)
        = (testFamily s.feType (t.val / s.feOrder.toNat)).eval a
          * (testFamily s.feType (t.val % s.feOrder.toNat)).eval b) ∧
      ∀ t p, fc.basisAtQuad t p = fc.mult p * ψ t (fc.quadActualCoordinates p) ∧
        fc.basisGradxxAtQuad t p = fc.mult p * dx (dx (ψ t)) (fc.quadActualCoordinates p) ∧
        fc.basisGradxyAtQuad t p = fc.mult p * dy (dx (ψ t)) (fc.quadActualCoordinates p) ∧
        fc.basisGradyyAtQuad t p = fc.mult p * dy (dy (ψ t)) (fc.quadActualCoordinates p) := by
  obtain ⟨B, wt, xi, eta, hB, hR, hc⟩ := fe2dCell_ok h
  have hB' := C13_basis_rows _ _ B hB
  unfold fe2dCellWith at hc
  cases hT : assignFeTransformation s.cellType s.feTransformationType c with
  | error e => rw [hT] at hc; cases hc
  | ok T =>
    rw [hT] at hc
    simp only at hc
    rw [hty] at hT
    have hJ : T.jacobian 0 0 ≠ 0 := by
      intro h0
      rw [C28_affine_degenerate _ c T hT xi eta _ _ _ h0] at hc
      cases hc
    have hTe : T = quadAffin c := by
      obtain ⟨-, rfl⟩ | ⟨ht, -⟩ := assignFe_ok hT
      · rfl
      · exact absurd ht (by decide)
    -- the inverse map
    have hD : (c 1 - c 0).1 * (c 3 - c 0).2 - (c 1 - c 0).2 * (c 3 - c 0).1 ≠ 0 := by
      intro h0
      apply hJ
      rw [hTe]
      simp only [quadAffin, QuadAffin.getJacobian, QuadAffin.detjk, QuadAffin.xc1, QuadAffin.xc2,
        QuadAffin.yc1, QuadAffin.yc2, abs_eq_zero]
      simp only [Prod.fst_sub, Prod.snd_sub] at h0
      norm_num
      linear_combination h0 / 4
    set D := (c 1 - c 0).1 * (c 3 - c 0).2 - (c 1 - c 0).2 * (c 3 - c 0).1 with hDdef
    let inv : ℝ × ℝ → ℝ × ℝ := fun z =>
      (2 * ((z.1 - (c 0).1) * (c 3 - c 0).2 - (z.2 - (c 0).2) * (c 3 - c 0).1) / D - 1,
       2 * ((c 1 - c 0).1 * (z.2 - (c 0).2) - (c 1 - c 0).2 * (z.1 - (c 0).1)) / D - 1)
    have hinv : ContDiff ℝ 2 inv := by fun_prop
    have hleft : ∀ a b, inv (T.originalFromRef a b) = (a, b) := by
      intro a b
      rw [hTe]
      simp only [inv, quadAffin, QuadAffin.getOriginalFromRef, QuadAffin.xc0, QuadAffin.xc1, QuadAffin.xc2,
        QuadAffin.yc0, QuadAffin.yc1, QuadAffin.yc2]
      ext
      · simp only
        rw [sub_eq_iff_eq_add, div_eq_iff hD, hDdef]
        simp only [Prod.fst_sub, Prod.snd_sub]
        norm_num
        ring
      · simp only
        rw [sub_eq_iff_eq_add, div_eq_iff hD, hDdef]
        simp only [Prod.fst_sub, Prod.snd_sub]
        norm_num
        ring
    let ψ : Fin (s.feOrder.toNat ^ 2) → ℝ × ℝ → ℝ := fun t z =>
      refTest s.feType (t.val / s.feOrder.toNat) (t.val % s.feOrder.toNat) (inv z)
    have hψ : ∀ t, ContDiff ℝ 2 (ψ t) := fun t => (refTest_contDiff _ _ _).comp hinv
    have hψT : ∀ t, (fun r : ℝ × ℝ => ψ t (T.originalFromRef r.1 r.2))
        = refTest s.feType (t.val / s.feOrder.toNat) (t.val % s.feOrder.toNat) := by
      intro t
      funext r
      simp only [ψ, hleft]
    obtain ⟨oxx, oxy, oyy, ho, hval⟩ := C28_affine_second_derivatives _ c T hT ψ hψ xi eta
      (B.gradxx xi eta) (B.gradxy xi eta) (B.gradyy xi eta) hJ
      (fun t p => by
        obtain ⟨hi, hj, ht⟩ := index_split t
        rw [hψT, hB'.gradxx xi eta p _ _ t hi hj ht, refTest_dxx])
      (fun t p => by
        obtain ⟨hi, hj, ht⟩ := index_split t
        rw [hψT, hB'.gradxy xi eta p _ _ t hi hj ht, refTest_dxy])
      (fun t p => by
        obtain ⟨hi, hj, ht⟩ := index_split t
        rw [hψT, hB'.gradyy xi eta p _ _ t hi hj ht, refTest_dyy])
    rw [ho] at hc
    simp only [Except.ok.injEq] at hc
    subst hc
    refine ⟨ψ, hψ, fun t a b => by simpa [refTest] using congrFun (hψT t) (a, b), fun t p => ?_⟩
    obtain ⟨h1, h2, h3⟩ := hval t p
    obtain ⟨hi, hj, ht⟩ := index_split t
    refine ⟨?_, ?_, ?_, ?_⟩
    · change B.value xi eta t p * _ = _ * ψ t (T.originalFromRef (xi p) (eta p))
      rw [hB'.value xi eta p _ _ t hi hj ht, mul_comm]
      congr 1
      exact (congrFun (hψT t) (xi p, eta p)).symm
    · change oxx t p * _ = _ * dx (dx (ψ t)) (T.originalFromRef (xi p) (eta p))
      rw [h1, mul_comm]
    · change oxy t p * _ = _ * dy (dx (ψ t)) (T.originalFromRef (xi p) (eta p))
      rw [h2, mul_comm]
    · change oyy t p * _ = _ * dy (dy (ψ t)) (T.originalFromRef (xi p) (eta p))
      rw [h3, mul_comm]

/-- **C75** (second derivatives, bilinear).  With the bilinear map the stored arrays are the second
derivatives of the reference test functions with respect to the reference coordinates, times `mult`: they
are not transformed to the cell. -/
theorem C75_bilinear_second {F : Type} (ext : QuadRoutines) (s : FESettings) (f : F) (c : Quad) (nq : ℕ)
    (fc : FE2DCell F (s.feOrder.toNat ^ 2) nq) (h : fe2dCell ext s f c = .ok ⟨nq, fc⟩)
    (hty : s.feTransformationType = "bilinear") (t : Fin (s.feOrder.toNat ^ 2)) (p : Fin nq)
    (φ : ℝ × ℝ → ℝ) (hφ : φ = fun q => (testFamily s.feType (t.val / s.feOrder.toNat)).eval q.1
      * (testFamily s.feType (t.val % s.feOrder.toNat)).eval q.2) :
    fc.basisGradxxAtQuad t p = fc.mult p * dx (dx φ) (fc.quadXi p, fc.quadEta p) ∧
    fc.basisGradxyAtQuad t p = fc.mult p * dy (dx φ) (fc.quadXi p, fc.quadEta p) ∧
    fc.basisGradyyAtQuad t p = fc.mult p * dy (dy φ) (fc.quadXi p, fc.quadEta p) := by
  obtain ⟨B, wt, xi, eta, hB, hR, hc⟩ := fe2dCell_ok h
  have hB' := C13_basis_rows _ _ B hB
  have hφ' : φ = refTest s.feType (t.val / s.feOrder.toNat) (t.val % s.feOrder.toNat) := hφ
  unfold fe2dCellWith at hc
  cases hT : assignFeTransformation s.cellType s.feTransformationType c with
  | error e => rw [hT] at hc; cases hc
  | ok T =>
    rw [hT] at hc
    obtain ⟨ht, -⟩ | ⟨-, rfl⟩ := assignFe_ok hT
    · exact absurd (ht.symm.trans hty) (by decide)
    · simp only [quadBilinear, QuadBilinear.getOrigFromRefSecondDerivative, Except.ok.injEq] at hc
      subst hc
      obtain ⟨hi, hj, ht⟩ := index_split t
      rw [hφ']
      simp only [timesMult, refTest_dxx, refTest_dxy, refTest_dyy]
      rw [hB'.gradxx xi eta p _ _ t hi hj ht, hB'.gradxy xi eta p _ _ t hi hj ht,
        hB'.gradyy xi eta p _ _ t hi hj ht]
      refine ⟨mul_comm _ _, mul_comm _ _, mul_comm _ _⟩

/-- The unit square can be constructed with both maps. -/
example (ty : String) (hty : ty = "affine" ∨ ty = "bilinear") : ∃ ext nq fc,
    fe2dCell ext ⟨"quadrilateral", 3, "legendre", 5, "gauss-legendre", ty⟩ (fun _ : ℝ => (0 : ℝ))
      ![(0, 0), (1, 0), (1, 1), (0, 1)] = .ok ⟨nq, fc⟩ := by
  obtain ⟨ext, -⟩ := quadRoutines_exist
  have hC := C63_constructor (V := ℝ) ext [] [![(0, 0), (1, 0), (1, 1), (0, 1)]] []
      ⟨"quadrilateral", 3, "legendre", 5, "gauss-legendre", ty⟩ [] (fun _ : ℝ => (0 : ℝ))
  obtain ⟨nq, S, h⟩ := hC.2 ⟨rfl, by simp, by norm_num, by simp [supportedFeType], by norm_num, Or.inl rfl, by
    rcases hty with rfl | rfl
    · exact Or.inr ⟨rfl, by simp [cross]⟩
    · exact Or.inl rfl, by simp⟩
  obtain ⟨-, hk⟩ := C34_accessors (h := h)
  obtain ⟨fc, hfc, -⟩ := hk 0 _ rfl
  exact ⟨ext, nq, fc, hfc⟩

end FastVPINNs
