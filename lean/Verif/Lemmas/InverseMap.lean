import Verif.Props.Transform
import Mathlib.Analysis.Calculus.InverseFunctionTheorem.FDeriv
import Mathlib.Analysis.Calculus.FDeriv.Mul
import Mathlib.Analysis.Calculus.FDeriv.Prod

/-! # The inverse of the bilinear map near a convex cell -/

namespace FastVPINNs

open Spec Topology

/-- An invertible 2×2 matrix as a linear equivalence. -/
noncomputable def planeEquiv (a b a' b' : ℝ) (h : a * b' - b * a' ≠ 0) : (ℝ × ℝ) ≃L[ℝ] (ℝ × ℝ) :=
  ContinuousLinearEquiv.equivOfInverse
    ((a • ContinuousLinearMap.fst ℝ ℝ ℝ + b • ContinuousLinearMap.snd ℝ ℝ ℝ).prod
      (a' • ContinuousLinearMap.fst ℝ ℝ ℝ + b' • ContinuousLinearMap.snd ℝ ℝ ℝ))
    (((b' / (a * b' - b * a')) • ContinuousLinearMap.fst ℝ ℝ ℝ
        - (b / (a * b' - b * a')) • ContinuousLinearMap.snd ℝ ℝ ℝ).prod
      (-(a' / (a * b' - b * a')) • ContinuousLinearMap.fst ℝ ℝ ℝ
        + (a / (a * b' - b * a')) • ContinuousLinearMap.snd ℝ ℝ ℝ))
    (by
      rintro ⟨x, y⟩
      simp only [ContinuousLinearMap.prod_apply, add_apply,
        sub_apply, smul_apply, ContinuousLinearMap.coe_fst',
        ContinuousLinearMap.coe_snd', smul_eq_mul, Prod.mk.injEq]
      generalize hD : a * b' - b * a' = D at h
      constructor
      · field_simp
        linear_combination x * hD
      · field_simp
        linear_combination y * hD)
    (by
      rintro ⟨x, y⟩
      simp only [ContinuousLinearMap.prod_apply, add_apply,
        sub_apply, smul_apply, ContinuousLinearMap.coe_fst',
        ContinuousLinearMap.coe_snd', smul_eq_mul, Prod.mk.injEq]
      generalize hD : a * b' - b * a' = D at h
      constructor
      · field_simp
        linear_combination x * hD
      · field_simp
        linear_combination y * hD)

/-- The bilinear map of a cell. -/
noncomputable def bmap (c : Quad) (p : ℝ × ℝ) : ℝ × ℝ := (quadBilinear c).originalFromRef p.1 p.2

lemma component_hasStrictFDerivAt (a0 a1 a2 a3 : ℝ) (p : ℝ × ℝ) :
    HasStrictFDerivAt (fun q : ℝ × ℝ => a0 + a1 * q.1 + a2 * q.2 + a3 * q.1 * q.2)
      ((a1 + a3 * p.2) • ContinuousLinearMap.fst ℝ ℝ ℝ
        + (a2 + a3 * p.1) • ContinuousLinearMap.snd ℝ ℝ ℝ) p := by
  have h1 : HasStrictFDerivAt (fun q : ℝ × ℝ => q.1) (ContinuousLinearMap.fst ℝ ℝ ℝ) p :=
    hasStrictFDerivAt_fst
  have h2 : HasStrictFDerivAt (fun q : ℝ × ℝ => q.2) (ContinuousLinearMap.snd ℝ ℝ ℝ) p :=
    hasStrictFDerivAt_snd
  have := (((h1.const_mul a1).const_add a0).fun_add (h2.const_mul a2)).fun_add
    ((h1.const_mul a3).mul h2)
  refine this.congr_fderiv ?_
  ext
  · simp; ring
  · simp

lemma bmap_hasStrictFDerivAt (c : Quad) (p : ℝ × ℝ) (h : bilinDet c p.1 p.2 ≠ 0) :
    HasStrictFDerivAt (bmap c) (planeEquiv (QuadBilinear.xc1 c + QuadBilinear.xc3 c * p.2)
      (QuadBilinear.xc2 c + QuadBilinear.xc3 c * p.1) (QuadBilinear.yc1 c + QuadBilinear.yc3 c * p.2)
      (QuadBilinear.yc2 c + QuadBilinear.yc3 c * p.1) h : (ℝ × ℝ) →L[ℝ] (ℝ × ℝ)) p :=
  (component_hasStrictFDerivAt _ _ _ _ p).prodMk (component_hasStrictFDerivAt _ _ _ _ p)

/-- The square `[-r, r]²`. -/
def squareOf (r : ℝ) : Set (ℝ × ℝ) := {p | -r ≤ p.1 ∧ p.1 ≤ r ∧ -r ≤ p.2 ∧ p.2 ≤ r}

/-- The image of the square `[-r, r]²`, as a cell. -/
noncomputable def enlarge (c : Quad) (r : ℝ) : Quad :=
  ![bmap c (-r, -r), bmap c (r, -r), bmap c (r, r), bmap c (-r, r)]

lemma bmap_enlarge (c : Quad) (r : ℝ) (p : ℝ × ℝ) : bmap (enlarge c r) p = bmap c (r * p.1, r * p.2) := by
  simp only [bmap, enlarge, quadBilinear, QuadBilinear.getOriginalFromRef, QuadBilinear.xc0,
    QuadBilinear.xc1, QuadBilinear.xc2, QuadBilinear.xc3, QuadBilinear.yc0, QuadBilinear.yc1,
    QuadBilinear.yc2, QuadBilinear.yc3, Matrix.cons_val_zero, Matrix.cons_val_one, Matrix.cons_val]
  ext <;> simp only <;> ring

/-- A slightly enlarged convex cell is convex. -/
lemma enlarge_convex {c : Quad} (hc : ConvexCCW c) : ∃ r > 1, ConvexCCW (enlarge c r) := by
  have h1 : enlarge c 1 = c := by
    have hT : assignFeTransformation "quadrilateral" "bilinear" c = .ok (quadBilinear c) := by
      simp [assignFeTransformation]
    obtain ⟨⟨e0, e1, e2, e3⟩, -⟩ := C25_square_onto_cell c _ hT
    funext k
    fin_cases k
    · exact e0
    · exact e1
    · exact e2
    · exact e3
  have hcont : ∀ i j k : Fin 4, Continuous fun r =>
      cross (enlarge c r i) (enlarge c r j) (enlarge c r k) := by
    have hk : ∀ k : Fin 4, Continuous fun r => enlarge c r k := by
      intro k
      fin_cases k <;>
        simp [enlarge, bmap, quadBilinear, QuadBilinear.getOriginalFromRef] <;>
        constructor <;> fun_prop
    intro i j k
    unfold cross
    have hi := hk i
    have hj := hk j
    have hk := hk k
    fun_prop
  have hev : ∀ i j k : Fin 4, 0 < cross (c i) (c j) (c k) →
      ∀ᶠ r in 𝓝 (1 : ℝ), 0 < cross (enlarge c r i) (enlarge c r j) (enlarge c r k) := by
    intro i j k h
    exact (hcont i j k).continuousAt.eventually (lt_mem_nhds (by simpa [h1] using h))
  have hall := ((hev _ _ _ hc.turn0).and (hev _ _ _ hc.turn1)).and
    ((hev _ _ _ hc.turn2).and (hev _ _ _ hc.turn3))
  obtain ⟨r, ⟨⟨a0, a1⟩, a2, a3⟩, hr⟩ :=
    ((hall.filter_mono nhdsWithin_le_nhds).and self_mem_nhdsWithin : ∀ᶠ r in 𝓝[>] (1 : ℝ), _).exists
  exact ⟨r, hr, a0, a1, a2, a3⟩

lemma bmap_injOn_enlarged {c : Quad} {r : ℝ} (hr : 0 < r) (h : ConvexCCW (enlarge c r)) :
    Set.InjOn (bmap c) (squareOf r) := by
  intro p hp q hq hpq
  have hs : ∀ p ∈ squareOf r, (p.1 / r, p.2 / r) ∈ refSquare := by
    rintro p ⟨h1, h2, h3, h4⟩
    refine ⟨?_, ?_, ?_, ?_⟩
    · rw [le_div_iff₀ hr]; linarith
    · rw [div_le_one hr]; exact h2
    · rw [le_div_iff₀ hr]; linarith
    · rw [div_le_one hr]; exact h4
  have hb : ∀ p : ℝ × ℝ, bmap (enlarge c r) (p.1 / r, p.2 / r) = bmap c p := by
    intro p
    rw [bmap_enlarge]
    congr 1
    ext
    · exact mul_div_cancel₀ _ hr.ne'
    · exact mul_div_cancel₀ _ hr.ne'
  have := bilin_injOn h (hs p hp) (hs q hq) ((hb p).trans (hpq.trans (hb q).symm))
  simp only [Prod.mk.injEq] at this
  ext
  · exact (div_left_inj' hr.ne').1 this.1
  · exact (div_left_inj' hr.ne').1 this.2

/-- A smooth function on the reference plane can be transported to a neighbourhood of a convex cell. -/
lemma transport_exists {c : Quad} (hc : ConvexCCW c) (φ : ℝ × ℝ → ℝ) (hφ : Differentiable ℝ φ) :
    ∃ ψ : ℝ × ℝ → ℝ, (∀ p ∈ refSquare, ψ (bmap c p) = φ p) ∧
      ∀ p ∈ refSquare, DifferentiableAt ℝ ψ (bmap c p) ∧ ∀ᶠ q in 𝓝 p, ψ (bmap c q) = φ q := by
  obtain ⟨r, hr, hconv⟩ := enlarge_convex hc
  have hinj := bmap_injOn_enlarged (by linarith) hconv
  have hsub : ∀ p ∈ refSquare, squareOf r ∈ 𝓝 p := by
    rintro p ⟨h1, h2, h3, h4⟩
    have hopen : IsOpen {q : ℝ × ℝ | -r < q.1 ∧ q.1 < r ∧ -r < q.2 ∧ q.2 < r} := by
      refine IsOpen.inter (isOpen_lt continuous_const continuous_fst) (IsOpen.inter
        (isOpen_lt continuous_fst continuous_const) (IsOpen.inter
        (isOpen_lt continuous_const continuous_snd) (isOpen_lt continuous_snd continuous_const)))
    refine Filter.mem_of_superset (hopen.mem_nhds ⟨?_, ?_, ?_, ?_⟩) ?_
    · linarith
    · linarith
    · linarith
    · linarith
    · rintro q ⟨g1, g2, g3, g4⟩
      exact ⟨g1.le, g2.le, g3.le, g4.le⟩
  have hval : ∀ p ∈ squareOf r, φ (Function.invFunOn (bmap c) (squareOf r) (bmap c p)) = φ p := by
    intro p hp
    congr 1
    exact hinj.leftInvOn_invFunOn hp
  refine ⟨fun x => φ (Function.invFunOn (bmap c) (squareOf r) x),
    fun p hp => hval p (mem_of_mem_nhds (hsub p hp)), fun p hp => ⟨?_, ?_⟩⟩
  · have hd := bmap_hasStrictFDerivAt c p (bilinDet_pos hc hp).ne'
    have hli := hd.to_localInverse
    have hev : ∀ᶠ x in 𝓝 (bmap c p), Function.invFunOn (bmap c) (squareOf r) x
        = hd.localInverse (bmap c) _ p x := by
      have e1 := hd.eventually_right_inverse
      have e2 : ∀ᶠ x in 𝓝 (bmap c p), hd.localInverse (bmap c) _ p x ∈ squareOf r := by
        have : Filter.Tendsto (hd.localInverse (bmap c) _ p) (𝓝 (bmap c p)) (𝓝 p) :=
          hd.localInverse_tendsto
        exact this (hsub p hp)
      filter_upwards [e1, e2] with x h1 h2
      conv_lhs => rw [← h1]
      exact hinj.leftInvOn_invFunOn h2
    have hp' : hd.localInverse (bmap c) _ p (bmap c p) = p := hd.localInverse_apply_image
    have : DifferentiableAt ℝ (fun x => φ (hd.localInverse (bmap c) _ p x)) (bmap c p) :=
      (hφ _).comp (bmap c p) hli.hasFDerivAt.differentiableAt
    refine this.congr_of_eventuallyEq ?_
    filter_upwards [hev] with x hx
    rw [hx]
  · filter_upwards [hsub p hp] with q hq
    exact hval q hq

end FastVPINNs
