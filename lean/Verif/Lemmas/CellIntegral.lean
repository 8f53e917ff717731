import Verif.Lemmas.InverseMap
import Verif.Lemmas.Patch
import Verif.Spec.Integral
import Mathlib.Analysis.Convex.Measure
import Mathlib.MeasureTheory.Function.Jacobian
import Mathlib.MeasureTheory.Integral.Prod
import Mathlib.MeasureTheory.Integral.IntervalIntegral.Basic
import Mathlib.MeasureTheory.Measure.Lebesgue.Basic
import Mathlib.MeasureTheory.Measure.Haar.OfBasis
import Mathlib.Topology.ContinuousMap.StoneWeierstrass

/-! # Integrals over cells -/

namespace FastVPINNs

open Spec MeasureTheory

/-! ### The reference square -/

lemma refSquare_eq : refSquare = Set.Icc (-1 : ℝ) 1 ×ˢ Set.Icc (-1 : ℝ) 1 := by
  ext p
  simp only [refSquare, Set.mem_prod, Set.mem_Icc]
  constructor
  · rintro ⟨a, b, c, d⟩
    exact ⟨⟨a, b⟩, c, d⟩
  · rintro ⟨⟨a, b⟩, c, d⟩
    exact ⟨a, b, c, d⟩

lemma refSquare_compact : IsCompact refSquare := by
  rw [refSquare_eq]
  exact isCompact_Icc.prod isCompact_Icc

lemma refSquare_measurable : MeasurableSet refSquare := by
  rw [refSquare_eq]
  exact measurableSet_Icc.prod measurableSet_Icc

lemma refSquare_volume : volume.real refSquare = 4 := by
  rw [refSquare_eq, Measure.volume_eq_prod, measureReal_prod_prod]
  simp
  norm_num

/-- The integral of a product of functions of one variable. -/
lemma refSquare_integral_mul (f g : ℝ → ℝ) :
    ∫ p in refSquare, f p.1 * g p.2 = (∫ s in (-1 : ℝ)..1, f s) * ∫ s in (-1 : ℝ)..1, g s := by
  rw [refSquare_eq, Measure.volume_eq_prod, setIntegral_prod_mul,
    intervalIntegral.integral_of_le (by norm_num), intervalIntegral.integral_of_le (by norm_num),
    integral_Icc_eq_integral_Ioc, integral_Icc_eq_integral_Ioc]

/-! ### Change of variables -/

lemma plane_det (a b a' b' : ℝ) :
    ((a • ContinuousLinearMap.fst ℝ ℝ ℝ + b • ContinuousLinearMap.snd ℝ ℝ ℝ).prod
      (a' • ContinuousLinearMap.fst ℝ ℝ ℝ + b' • ContinuousLinearMap.snd ℝ ℝ ℝ)).det
      = a * b' - b * a' := by
  rw [ContinuousLinearMap.det, ← LinearMap.det_toMatrix (Module.Basis.finTwoProd ℝ), Matrix.det_fin_two]
  simp [LinearMap.toMatrix_apply]

/-- Integrals over a strictly convex cell are integrals over the reference square. -/
lemma cell_change {c : Quad} (hc : ConvexCCW c) (g : ℝ × ℝ → ℝ) :
    ∫ z in convexHull ℝ (Set.range c), g z
      = ∫ p in refSquare, bilinDet c p.1 p.2 * g (bmap c p) := by
  have hT : assignFeTransformation "quadrilateral" "bilinear" c = .ok (quadBilinear c) := by
    simp [assignFeTransformation]
  have himg : bmap c '' refSquare = convexHull ℝ (Set.range c) :=
    (C25_square_onto_cell c _ hT).2.2.2 hc
  have hinj : Set.InjOn (bmap c) refSquare := (C30_no_folding c hc _ hT).2
  have : (volume : Measure (ℝ × ℝ)).IsAddHaarMeasure := Measure.prod.instIsAddHaarMeasure _ _
  rw [← himg, integral_image_eq_integral_abs_det_fderiv_smul (f := bmap c) volume refSquare_measurable
    (fun p _ => ((component_hasStrictFDerivAt _ _ _ _ p).prodMk
      (component_hasStrictFDerivAt _ _ _ _ p)).hasFDerivAt.hasFDerivWithinAt) hinj]
  refine setIntegral_congr_fun refSquare_measurable fun p hp => ?_
  have := bilinDet_pos hc hp
  simp only [smul_eq_mul]
  rw [plane_det]
  congr 1
  exact abs_of_pos this

lemma bmap_continuous (c : Quad) : Continuous (bmap c) := by
  have : bmap c = fun p => (QuadBilinear.xc0 c + QuadBilinear.xc1 c * p.1 + QuadBilinear.xc2 c * p.2
      + QuadBilinear.xc3 c * p.1 * p.2, QuadBilinear.yc0 c + QuadBilinear.yc1 c * p.1
      + QuadBilinear.yc2 c * p.2 + QuadBilinear.yc3 c * p.1 * p.2) := rfl
  rw [this]
  fun_prop

lemma bilinDet_continuous (c : Quad) : Continuous fun p : ℝ × ℝ => bilinDet c p.1 p.2 := by
  unfold bilinDet
  fun_prop

lemma planeHaar : (volume : Measure (ℝ × ℝ)).IsAddHaarMeasure := Measure.prod.instIsAddHaarMeasure _ _

lemma cellSet_compact (c : Quad) : IsCompact (cellSet c) :=
  (Set.finite_range c).isCompact_convexHull ℝ

lemma meshSet_eq (cells : List Quad) : meshSet cells = ⋃ k : Fin cells.length, cellSet cells[k] := by
  ext z
  simp only [meshSet, Set.mem_iUnion]
  constructor
  · rintro ⟨c, hc, hz⟩
    obtain ⟨k, hk, rfl⟩ := List.mem_iff_getElem.1 hc
    exact ⟨⟨k, hk⟩, hz⟩
  · rintro ⟨k, hz⟩
    exact ⟨_, List.getElem_mem k.2, hz⟩

/-- The integral over a mesh without overlaps is the sum of the integrals over the cells. -/
lemma mesh_integral {cells : List Quad} (hdis : NoOverlap cells) {g : ℝ × ℝ → ℝ}
    (hg : ∀ c ∈ cells, IntegrableOn g (cellSet c)) :
    ∫ z in meshSet cells, g z = ∑ k : Fin cells.length, ∫ z in cellSet cells[k], g z := by
  have := planeHaar
  rw [meshSet_eq, integral_iUnion_ae, tsum_fintype]
  · exact fun k => (cellSet_compact _).measurableSet.nullMeasurableSet
  · intro k l hkl
    have hint := hdis k l cells[k] cells[l] (fun h => hkl (Fin.ext h)) (by simp) (by simp)
    have hsub : cellSet cells[k] ∩ cellSet cells[l]
        ⊆ frontier (cellSet cells[k]) ∪ frontier (cellSet cells[l]) := by
      rintro z ⟨h1, h2⟩
      by_cases hz : z ∈ interior (cellSet cells[k])
      · exact Or.inr ⟨subset_closure h2, fun h => Set.disjoint_left.1 hint hz h⟩
      · exact Or.inl ⟨subset_closure h1, hz⟩
    refine measure_mono_null hsub (measure_union_null ?_ ?_)
    · exact (convex_convexHull ℝ _).addHaar_frontier volume
    · exact (convex_convexHull ℝ _).addHaar_frontier volume
  · rw [integrableOn_finite_iUnion]
    exact fun k => hg _ (List.getElem_mem k.2)

/-! ### Polynomials on the reference square -/

/-- Degree at most `d` in each variable. -/
abbrev IsQ (d : ℕ) (G : ℝ × ℝ → ℝ) : Prop := IsPolynomial (fun i j => i ≤ d ∧ j ≤ d) G

lemma Spec.IsPolynomial.add {E : ℕ → ℕ → Prop} {u v : ℝ × ℝ → ℝ} (hu : IsPolynomial E u)
    (hv : IsPolynomial E v) : IsPolynomial E fun z => u z + v z := by
  obtain ⟨l, hl, hu⟩ := hu
  obtain ⟨l', hl', hv⟩ := hv
  refine ⟨l ++ l', fun t ht => ?_, fun z => by simp [hu, hv]⟩
  rcases List.mem_append.1 ht with h | h
  · exact hl t h
  · exact hl' t h

lemma isPolynomial_monomial {E : ℕ → ℕ → Prop} (a : ℝ) {i j : ℕ} (h : E i j) :
    IsPolynomial E fun z => a * z.1 ^ i * z.2 ^ j :=
  ⟨[(a, i, j)], by simpa using h, by simp⟩

lemma Spec.IsPolynomial.mul {E E' E'' : ℕ → ℕ → Prop} (h : ∀ i j i' j', E i j → E' i' j' → E'' (i + i') (j + j'))
    {u v : ℝ × ℝ → ℝ} (hu : IsPolynomial E u) (hv : IsPolynomial E' v) :
    IsPolynomial E'' fun z => u z * v z := by
  refine IsPolynomial.induct (p := fun u => IsPolynomial E'' fun z => u z * v z) ?_ ?_ hu
  · simpa using isPolynomial_zero E''
  · intro a i j w hij hw
    have h1 : IsPolynomial E'' fun z => (a * z.1 ^ i * z.2 ^ j) * v z := by
      refine IsPolynomial.induct (p := fun v => IsPolynomial E'' fun z => (a * z.1 ^ i * z.2 ^ j) * v z)
        ?_ ?_ hv
      · simpa using isPolynomial_zero E''
      · intro b i' j' w' hij' hw'
        have := (isPolynomial_monomial (E := E'') (a * b) (h i j i' j' hij hij')).add hw'
        refine cast (congrArg _ (funext fun z => ?_)) this
        simp only
        ring
    refine cast (congrArg _ (funext fun z => ?_)) (h1.add hw)
    simp only
    ring

lemma isQ_continuous {d : ℕ} {G : ℝ × ℝ → ℝ} (hG : IsQ d G) : Continuous G := by
  refine IsPolynomial.induct (p := fun G => Continuous G) continuous_const ?_ hG
  rintro a i j u - hu
  fun_prop

lemma isQ_const (d : ℕ) (a : ℝ) : IsQ d fun _ => a := by
  simpa using isPolynomial_monomial (E := fun i j => i ≤ d ∧ j ≤ d) a (i := 0) (j := 0) ⟨by omega, by omega⟩

lemma IsQ.mul {d e f : ℕ} {G H : ℝ × ℝ → ℝ} (hG : IsQ d G) (hH : IsQ e H) (h : d + e ≤ f) :
    IsQ f fun z => G z * H z :=
  IsPolynomial.mul (fun i j i' j' h1 h2 => ⟨by omega, by omega⟩) hG hH

lemma IsQ.pow {d : ℕ} {G : ℝ × ℝ → ℝ} (hG : IsQ d G) (n : ℕ) : IsQ (n * d) fun z => G z ^ n := by
  induction n with
  | zero => simpa using isQ_const (0 * d) 1
  | succ n ih =>
    have := ih.mul hG (f := (n + 1) * d) (by ring_nf; omega)
    exact cast (congrArg _ (funext fun z => (pow_succ _ _).symm)) this

lemma Spec.IsPolynomial.mono' {E E' : ℕ → ℕ → Prop} {u : ℝ × ℝ → ℝ}
    (hu : IsPolynomial E u) (h : ∀ i j, E i j → E' i j) : IsPolynomial E' u := hu.mono h

lemma isQ_bilinear (a0 a1 a2 a3 : ℝ) : IsQ 1 fun p => a0 + a1 * p.1 + a2 * p.2 + a3 * p.1 * p.2 := by
  refine ⟨[(a0, 0, 0), (a1, 1, 0), (a2, 0, 1), (a3, 1, 1)], by simp, fun z => ?_⟩
  simp
  ring

/-- A polynomial of total degree `m`, in bilinear coordinates. -/
lemma isQ_comp {m : ℕ} {g : ℝ × ℝ → ℝ} (hg : IsPolynomial (fun i j => i + j ≤ m) g) (c : Quad) :
    IsQ m fun p => g (bmap c p) := by
  refine IsPolynomial.induct (p := fun g => IsQ m fun p => g (bmap c p)) (isQ_const m 0) ?_ hg
  intro a i j u hij hu
  refine IsPolynomial.add ?_ hu
  have h1 := (isQ_bilinear (QuadBilinear.xc0 c) (QuadBilinear.xc1 c) (QuadBilinear.xc2 c)
    (QuadBilinear.xc3 c)).pow i
  have h2 := (isQ_bilinear (QuadBilinear.yc0 c) (QuadBilinear.yc1 c) (QuadBilinear.yc2 c)
    (QuadBilinear.yc3 c)).pow j
  exact ((isQ_const 0 a).mul h1 (f := i) (by omega)).mul h2 (by omega)

lemma isQ_bilinDet (c : Quad) : IsQ 1 fun p => bilinDet c p.1 p.2 := by
  refine ⟨[(QuadBilinear.xc1 c * QuadBilinear.yc2 c - QuadBilinear.xc2 c * QuadBilinear.yc1 c, 0, 0),
    (QuadBilinear.xc1 c * QuadBilinear.yc3 c - QuadBilinear.xc3 c * QuadBilinear.yc1 c, 1, 0),
    (QuadBilinear.xc3 c * QuadBilinear.yc2 c - QuadBilinear.xc2 c * QuadBilinear.yc3 c, 0, 1)], by simp,
    fun z => ?_⟩
  simp [bilinDet]
  ring

lemma Spec.IsPolynomial.sum {ι : Type*} {E : ℕ → ℕ → Prop} (l : Finset ι) (u : ι → ℝ × ℝ → ℝ)
    (h : ∀ i ∈ l, IsPolynomial E (u i)) : IsPolynomial E fun z => ∑ i ∈ l, u i z := by
  classical
  induction l using Finset.induction_on with
  | empty => simpa using isPolynomial_zero E
  | insert i l hi ih =>
    simp only [Finset.sum_insert hi]
    exact (h i (Finset.mem_insert_self _ _)).add (ih fun j hj => h j (Finset.mem_insert_of_mem hj))

/-- A product of polynomials in one variable each. -/
lemma isQ_eval {d : ℕ} (P Q : Polynomial ℝ) (hP : P.natDegree ≤ d) (hQ : Q.natDegree ≤ d) :
    IsQ d fun p => P.eval p.1 * Q.eval p.2 := by
  have e : (fun p : ℝ × ℝ => P.eval p.1 * Q.eval p.2) = fun p => ∑ i ∈ Finset.range (d + 1),
      ∑ j ∈ Finset.range (d + 1), (P.coeff i * Q.coeff j) * p.1 ^ i * p.2 ^ j := by
    funext p
    rw [Polynomial.eval_eq_sum_range' (Nat.lt_succ_of_le hP), Polynomial.eval_eq_sum_range'
      (Nat.lt_succ_of_le hQ), Finset.sum_mul_sum]
    exact Finset.sum_congr rfl fun i _ => Finset.sum_congr rfl fun j _ => by ring
  rw [e]
  refine IsPolynomial.sum _ _ fun i hi => IsPolynomial.sum _ _ fun j hj => isPolynomial_monomial _ ?_
  rw [Finset.mem_range] at hi hj
  exact ⟨by omega, by omega⟩

/-- Exactness of the tensor rule on the reference square. -/
lemma ref_exact {n d : ℕ} {x w : Fin n → ℝ} {r : QuadRule2D} (hr : IsTensorRule x w r)
    (hex : ExactUpTo ⟨n, x, w⟩ d) {G : ℝ × ℝ → ℝ} (hG : IsQ d G) :
    Continuous G ∧ ∑ k, r.weights k * G (r.xi k, r.eta k) = ∫ p in refSquare, G p := by
  have hmono : ∀ i ≤ d, ∑ k, w k * x k ^ i = ∫ s in (-1 : ℝ)..1, s ^ i := by
    intro i hi
    simpa using hex (Polynomial.X ^ i) (by simpa using hi)
  refine IsPolynomial.induct (p := fun G => Continuous G ∧
    ∑ k, r.weights k * G (r.xi k, r.eta k) = ∫ p in refSquare, G p) ?_ ?_ hG
  · simpa using continuous_const
  · rintro a i j u ⟨hi, hj⟩ ⟨hc, hu⟩
    refine ⟨by fun_prop, ?_⟩
    have e1 : ∫ p in refSquare, (a * p.1 ^ i * p.2 ^ j + u p)
        = a * (∫ p in refSquare, p.1 ^ i * p.2 ^ j) + ∫ p in refSquare, u p := by
      rw [← integral_const_mul, ← integral_add]
      · simp only [mul_assoc]
      · exact (Continuous.continuousOn (by fun_prop)).integrableOn_compact refSquare_compact
      · exact hc.continuousOn.integrableOn_compact refSquare_compact
    rw [e1, refSquare_integral_mul (fun s => s ^ i) (fun s => s ^ j), ← hu, ← hmono i hi, ← hmono j hj,
      ← tensor_sum_mul hr (fun t => t ^ i) (fun t => t ^ j), Finset.mul_sum, ← Finset.sum_add_distrib]
    exact Finset.sum_congr rfl fun k _ => by ring

/-! ### Density of polynomials -/

/-- A continuous function on the reference square is close to a polynomial. -/
lemma polynomial_near {G : ℝ × ℝ → ℝ} (hG : ContinuousOn G refSquare) {ε : ℝ} (hε : 0 < ε) :
    ∃ d P, IsQ d P ∧ ∀ p ∈ refSquare, |P p - G p| < ε := by
  let X : C(refSquare, ℝ) := ⟨fun p => p.1.1, by fun_prop⟩
  let Y : C(refSquare, ℝ) := ⟨fun p => p.1.2, by fun_prop⟩
  have : CompactSpace refSquare := isCompact_iff_compactSpace.1 refSquare_compact
  obtain ⟨⟨P, hP⟩, hnear⟩ := ContinuousMap.exists_mem_subalgebra_near_continuous_of_separatesPoints
    (Algebra.adjoin ℝ {X, Y}) (by
      intro p q hpq
      by_cases h : p.1.1 = q.1.1
      · refine ⟨Y, ⟨Y, Algebra.subset_adjoin (by simp), rfl⟩, fun h' => hpq (Subtype.ext (Prod.ext h h'))⟩
      · exact ⟨X, ⟨X, Algebra.subset_adjoin (by simp), rfl⟩, h⟩)
    (fun p : refSquare => G p) (continuousOn_iff_continuous_domRestrict.1 hG) ε hε
  have key : ∃ d H, IsQ d H ∧ ∀ p : refSquare, P p = H p := by
    refine Algebra.adjoin_induction (p := fun P _ => ∃ d H, IsQ d H ∧ ∀ p : refSquare, P p = H p)
      ?_ ?_ ?_ ?_ hP
    · intro Q hQ
      rcases hQ with rfl | rfl
      · exact ⟨1, fun p => p.1, ⟨[(1, 1, 0)], by simp, by simp⟩, fun _ => rfl⟩
      · exact ⟨1, fun p => p.2, ⟨[(1, 0, 1)], by simp, by simp⟩, fun _ => rfl⟩
    · exact fun r => ⟨0, fun _ => r, isQ_const 0 r, fun _ => rfl⟩
    · rintro Q R - - ⟨d, H, hH, e⟩ ⟨d', H', hH', e'⟩
      refine ⟨max d d', fun z => H z + H' z, ?_, fun p => by simp [e, e']⟩
      exact (hH.mono' fun i j h => ⟨by omega, by omega⟩).add (hH'.mono' fun i j h => ⟨by omega, by omega⟩)
    · rintro Q R - - ⟨d, H, hH, e⟩ ⟨d', H', hH', e'⟩
      exact ⟨d + d', fun z => H z * H' z, hH.mul hH' le_rfl, fun p => by simp [e, e']⟩
  obtain ⟨d, H, hH, e⟩ := key
  refine ⟨d, H, hH, fun p hp => ?_⟩
  have := hnear ⟨p, hp⟩
  simpa [e] using this

/-- A positive rule is as close to the integral as a polynomial that it integrates exactly is to the
function. -/
lemma ref_near {n d : ℕ} {x w : Fin n → ℝ} {r : QuadRule2D} (hr : IsTensorRule x w r)
    (hex : ExactUpTo ⟨n, x, w⟩ d) (hw : ∀ k, 0 ≤ r.weights k) (hmem : ∀ k, (r.xi k, r.eta k) ∈ refSquare)
    {G P : ℝ × ℝ → ℝ} (hG : ContinuousOn G refSquare) (hP : IsQ d P) {δ : ℝ}
    (hnear : ∀ p ∈ refSquare, |P p - G p| ≤ δ) :
    |∑ k, r.weights k * G (r.xi k, r.eta k) - ∫ p in refSquare, G p| ≤ 8 * δ := by
  obtain ⟨hPc, hsum⟩ := ref_exact hr hex hP
  have h4 : ∑ k, r.weights k = 4 := by
    have := (ref_exact hr hex (isQ_const d 1)).2
    simpa [refSquare_volume] using this
  have e1 : |∑ k, r.weights k * G (r.xi k, r.eta k) - ∑ k, r.weights k * P (r.xi k, r.eta k)| ≤ 4 * δ := by
    rw [← Finset.sum_sub_distrib]
    calc |∑ k, (r.weights k * G (r.xi k, r.eta k) - r.weights k * P (r.xi k, r.eta k))|
        ≤ ∑ k, |r.weights k * G (r.xi k, r.eta k) - r.weights k * P (r.xi k, r.eta k)| :=
          Finset.abs_sum_le_sum_abs _ _
      _ ≤ ∑ k, r.weights k * δ := by
          refine Finset.sum_le_sum fun k _ => ?_
          rw [← mul_sub, abs_mul, abs_of_nonneg (hw k), abs_sub_comm]
          exact mul_le_mul_of_nonneg_left (hnear _ (hmem k)) (hw k)
      _ = 4 * δ := by rw [← Finset.sum_mul, h4]
  have e2 : |(∫ p in refSquare, P p) - ∫ p in refSquare, G p| ≤ 4 * δ := by
    rw [← integral_sub (hPc.continuousOn.integrableOn_compact refSquare_compact)
      (hG.integrableOn_compact refSquare_compact)]
    have := norm_setIntegral_le_of_norm_le_const (μ := volume) (f := fun p => P p - G p) (C := δ)
      refSquare_compact.measure_lt_top fun p hp => hnear p hp
    rw [refSquare_volume, Real.norm_eq_abs] at this
    linarith
  rw [hsum] at e1
  have := abs_sub_le (∑ k, r.weights k * G (r.xi k, r.eta k)) (∫ p in refSquare, P p)
    (∫ p in refSquare, G p)
  linarith

end FastVPINNs
