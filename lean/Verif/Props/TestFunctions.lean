import Verif.Spec.TestFunction
import Verif.Lemmas.InverseMap
import Verif.Props.CellGeometry

/-! # C33: the physical test functions of a cell -/

namespace FastVPINNs

open Spec Polynomial Topology

/-- Reference test function number `N i + j`. -/
noncomputable def refTest (t : String) (i j : ℕ) (p : ℝ × ℝ) : ℝ :=
  (testFamily t i).eval p.1 * (testFamily t j).eval p.2

lemma refTest_differentiable (t : String) (i j : ℕ) : Differentiable ℝ (refTest t i j) := by
  unfold refTest
  exact ((testFamily t i).differentiable.comp differentiable_fst).mul
    ((testFamily t j).differentiable.comp differentiable_snd)

lemma refTest_dx (t : String) (i j : ℕ) (p : ℝ × ℝ) :
    dx (refTest t i j) p = (derivative (testFamily t i)).eval p.1 * (testFamily t j).eval p.2 := by
  unfold dx refTest
  simp

lemma refTest_dy (t : String) (i j : ℕ) (p : ℝ × ℝ) :
    dy (refTest t i j) p = (testFamily t i).eval p.1 * (derivative (testFamily t j)).eval p.2 := by
  unfold dy refTest
  simp

lemma dx_congr {u v : ℝ × ℝ → ℝ} {p : ℝ × ℝ} (h : u =ᶠ[𝓝 p] v) : dx u p = dx v p := by
  unfold dx
  apply Filter.EventuallyEq.deriv_eq
  have : Filter.Tendsto (fun s : ℝ => (s, p.2)) (𝓝 p.1) (𝓝 p) := by
    have : Continuous fun s : ℝ => (s, p.2) := by fun_prop
    exact this.tendsto p.1
  exact this.eventually h

lemma dy_congr {u v : ℝ × ℝ → ℝ} {p : ℝ × ℝ} (h : u =ᶠ[𝓝 p] v) : dy u p = dy v p := by
  unfold dy
  apply Filter.EventuallyEq.deriv_eq
  have : Filter.Tendsto (fun s : ℝ => (p.1, s)) (𝓝 p.2) (𝓝 p) := by
    have : Continuous fun s : ℝ => (p.1, s) := by fun_prop
    exact this.tendsto p.2
  exact this.eventually h

lemma bmap_eq (c : Quad) (p : ℝ × ℝ) : bmap c p = bilinearImage c p := by
  simp only [bmap, bilinearImage, quadBilinear, QuadBilinear.getOriginalFromRef, QuadBilinear.xc0,
    QuadBilinear.xc1, QuadBilinear.xc2, QuadBilinear.xc3, QuadBilinear.yc0, QuadBilinear.yc1,
    QuadBilinear.yc2, QuadBilinear.yc3]
  ext <;> simp <;> ring

/-- Every boundary point of a cell is the image of a boundary point of the reference square. -/
lemma boundary_preimage (c : Quad) (x : ℝ × ℝ) (hx : OnCellBoundary c x) :
    ∃ p ∈ refSquare, OnReferenceBoundary p.1 p.2 ∧ bmap c p = x := by
  obtain ⟨i, hi⟩ := hx
  rw [segment_eq_image_lineMap] at hi
  obtain ⟨θ, ⟨h0, h1⟩, rfl⟩ := hi
  have hT : assignFeTransformation "quadrilateral" "bilinear" c = .ok (quadBilinear c) := by
    simp [assignFeTransformation]
  obtain ⟨-, hside, -⟩ := C25_square_onto_cell c _ hT
  obtain ⟨s0, s1, s2, s3⟩ := hside (2 * θ - 1)
  have e : (1 + (2 * θ - 1)) / 2 = θ := by ring
  rw [e] at s0 s1 s2 s3
  fin_cases i
  · exact ⟨(2 * θ - 1, -1), ⟨by simp; linarith, by simp; linarith, by norm_num, by norm_num⟩,
      Or.inr ⟨Or.inl rfl, by simp; linarith, by simp; linarith⟩, s0⟩
  · exact ⟨(1, 2 * θ - 1), ⟨by norm_num, by norm_num, by simp; linarith, by simp; linarith⟩,
      Or.inl ⟨Or.inr rfl, by simp; linarith, by simp; linarith⟩, s1⟩
  · exact ⟨(-(2 * θ - 1), 1), ⟨by simp; linarith, by simp; linarith, by norm_num, by norm_num⟩,
      Or.inr ⟨Or.inr rfl, by simp; linarith, by simp; linarith⟩, s2⟩
  · exact ⟨(-1, -(2 * θ - 1)), ⟨by norm_num, by norm_num, by simp; linarith, by simp; linarith⟩,
      Or.inl ⟨Or.inl rfl, by simp; linarith, by simp; linarith⟩, s3⟩

/-- **C33.**  On a strictly convex cell (bilinear transformation; for the affine transformation a
parallelogram) there are functions `ψ t` on the plane, on the cell the reference test functions composed
with the inverse map, such that the arrays reported for the cell are the values, the x-derivatives and the y-derivatives of `ψ t` at the reported quadrature points, times
the reported weights.  For all test spaces but `jacobi_plain` every `ψ t` is zero on all four edges. -/
theorem C33_test_functions {F V : Type} (ext : QuadRoutines) (mp : List (ℝ × ℝ)) (cells : List Quad)
    (bd : BdDict) (s : FESettings) (dict : List (ℤ × (ℝ → ℝ → V))) (f : F) (plot : Bool) {nq : ℕ}
    (S : Fespace2D F V (s.feOrder.toNat ^ 2) nq)
    (h : fespace2D ext mp cells bd s dict f plot = .ok ⟨nq, S⟩)
    (hr : RoutinesOK ext s.quadOrder s.quadType) (k : ℕ) (c : Quad) (hk : cells[k]? = some c)
    (hc : ConvexCCW c) (hpar : s.feTransformationType = "affine" → IsParallelogram c) :
    ∃ x w v gx gy, S.getQuadratureActualCoordinates k = .ok x ∧ S.getQuadratureWeights k = .ok w ∧
      S.getShapeFunctionVal k = .ok v ∧ S.getShapeFunctionGradX k = .ok gx ∧
      S.getShapeFunctionGradY k = .ok gy ∧
      ∃ ψ : Fin (s.feOrder.toNat ^ 2) → ℝ × ℝ → ℝ,
        (∀ t, IsTestFunction s.feType s.feOrder.toNat c t.val (ψ t)) ∧
        (s.feType ≠ "jacobi_plain" → ∀ t y, OnCellBoundary c y → ψ t y = 0) ∧
        ∀ t p, DifferentiableAt ℝ (ψ t) (x p) ∧ v t p = w p * ψ t (x p) ∧
          gx t p = w p * dx (ψ t) (x p) ∧ gy t p = w p * dy (ψ t) (x p) := by
  obtain ⟨hlen, B, wt, xi, eta, hB, hR, hcell⟩ := fespace_cell h
  obtain ⟨T, fc, hT, hfc, -, facts⟩ := hcell k c hk
  have hfc := (cellAt_nat S k fc).2 hfc
  obtain ⟨n, x, w, hQ, hn, hten, hex, -, hpos, hx⟩ := rule_facts hR hr
  have hB' := C13_basis_rows _ _ B hB
  -- the reference map is the bilinear one in both cases
  have hTb : ∀ a b, T.originalFromRef a b = bmap c (a, b) ∧
      T.jacobian a b = (quadBilinear c).jacobian a b := by
    intro a b
    obtain ⟨ht, -⟩ | ⟨-, rfl⟩ := assignFe_ok hT
    · rw [ht] at hT
      exact ((C29_affine_vs_bilinear c T (quadBilinear c) hT (by simp [assignFeTransformation])).1
        (hpar ht)).1 a b
    · exact ⟨rfl, rfl⟩
  have htr : ∀ t : Fin (s.feOrder.toNat ^ 2), ∃ ψ : ℝ × ℝ → ℝ,
      (∀ p ∈ refSquare, ψ (bmap c p)
        = refTest s.feType (t.val / s.feOrder.toNat) (t.val % s.feOrder.toNat) p) ∧
      ∀ p ∈ refSquare, DifferentiableAt ℝ ψ (bmap c p) ∧ ∀ᶠ q in 𝓝 p, ψ (bmap c q)
        = refTest s.feType (t.val / s.feOrder.toNat) (t.val % s.feOrder.toNat) q := fun t =>
    transport_exists hc _ (refTest_differentiable _ _ _)
  choose ψ hψ hψ' using htr
  refine ⟨fc.quadActualCoordinates, fc.mult, fc.basisAtQuad, fc.basisGradxAtQuad, fc.basisGradyAtQuad,
    by simp [Fespace2D.getQuadratureActualCoordinates, hfc],
    by simp [Fespace2D.getQuadratureWeights, hfc], by simp [Fespace2D.getShapeFunctionVal, hfc],
    by simp [Fespace2D.getShapeFunctionGradX, hfc], by simp [Fespace2D.getShapeFunctionGradY, hfc],
    ψ, fun t p hp => by rw [← bmap_eq, hψ t p hp]; rfl, ?_, ?_⟩
  · intro hjp t y hy
    obtain ⟨p, hp, hpb, rfl⟩ := boundary_preimage c y hy
    rw [hψ t p hp]
    have := C14_vanish_on_boundary _ _ B hB hjp (q := 1) (fun _ => p.1) (fun _ => p.2) t 0 hpb
    obtain ⟨hi, hj, ht⟩ := index_split t
    rw [hB'.value _ _ 0 _ _ t hi hj ht] at this
    exact this
  · intro t p
    have hp := rule_mem hten hx p
    simp only at hp
    obtain ⟨hd, hev⟩ := hψ' t _ hp
    have hpt : fc.quadActualCoordinates p = bmap c (xi p, eta p) := by rw [facts.point, (hTb _ _).1]
    obtain ⟨hi, hj, ht⟩ := index_split t
    have hJ : T.jacobian (xi p) (eta p) ≠ 0 := by
      rw [(hTb _ _).2]
      exact (abs_pos.2 (bilinDet_pos hc hp).ne').ne'
    have hfun : (fun q : ℝ × ℝ => T.originalFromRef q.1 q.2) = bmap c := by
      funext q; exact (hTb _ _).1
    have hgx : B.gradx xi eta t p
        = dx (fun r => ψ t (T.originalFromRef r.1 r.2)) (xi p, eta p) := by
      rw [hB'.gradx xi eta p _ _ t hi hj ht]
      rw [dx_congr (v := refTest s.feType _ _) (by
        simp only [(hTb _ _).1]
        exact hev), refTest_dx]
    have hgy : B.grady xi eta t p
        = dy (fun r => ψ t (T.originalFromRef r.1 r.2)) (xi p, eta p) := by
      rw [hB'.grady xi eta p _ _ t hi hj ht]
      rw [dy_congr (v := refTest s.feType _ _) (by
        simp only [(hTb _ _).1]
        exact hev), refTest_dy]
    have hchain := C27_gradient_chain_rule _ _ c T hT ψ xi eta (B.gradx xi eta) (B.grady xi eta) t p hJ
      (by rw [(hTb _ _).1]; exact hd) hgx hgy
    refine ⟨by rw [hpt]; exact hd, ?_, ?_, ?_⟩
    · rw [facts.val, facts.mult, hpt, hψ t _ hp, hB'.value xi eta p _ _ t hi hj ht]
      simp only [refTest]
      ring
    · rw [facts.gradx, facts.mult, hchain.1, facts.point]
      ring
    · rw [facts.grady, facts.mult, hchain.2, facts.point]
      ring

/-- C33 applies to the kite of the demo space. -/
example : ∃ ext, RoutinesOK ext 5 "gauss-legendre" ∧ ∃ nq S,
    fespace2D ext [(0, 0), (1, 1)] demoCells demoBoundary (demoSettings "bilinear") demoDict () false
      = .ok ⟨nq, S⟩ ∧ demoCells[1]? = some kiteCell ∧ ConvexCCW kiteCell ∧
      (demoSettings "bilinear").feType ≠ "jacobi_plain" ∧
      OnCellBoundary kiteCell (AffineMap.lineMap (kiteCell 3) (kiteCell 0) (1 / 3 : ℝ)) := by
  obtain ⟨ext, h1, h2⟩ := quadRoutines_exist
  obtain ⟨nq, S, h⟩ := demo_fespace ext () "bilinear" (Or.inl rfl)
  refine ⟨ext, ⟨fun _ => h1 _ (by norm_num), fun _ => h2 _⟩, nq, S, h, rfl,
    (demo_cells_ok kiteCell (by simp [demoCells])).1, by decide, 3, ?_⟩
  rw [segment_eq_image_lineMap]
  exact ⟨1 / 3, ⟨by norm_num, by norm_num⟩, rfl⟩

end FastVPINNs
