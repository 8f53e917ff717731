import Verif.Spec.Defect
import Verif.Props.Consistency
import Mathlib.Analysis.SpecialFunctions.Integrals.Basic

/-! # C84: a small loss means a small defect of the differential equation -/

namespace FastVPINNs

open Spec MeasureTheory Polynomial Topology

/-- `ρ` is the defect of the equation on `K`: it is continuous there, and `u` is a classical solution
with the right-hand side `f + ρ`. -/
structure Spec.IsDefect (K : Set (ℝ × ℝ)) (a u : ℝ × ℝ → ℝ) (b : ℝ × ℝ) (r : ℝ) (f ρ : ℝ → ℝ → ℝ) : Prop where
  continuous : ContinuousOn (fun z : ℝ × ℝ => ρ z.1 z.2) K
  solves : ClassicalSolution K a u b r fun x y => f x y + ρ x y

/-! ### The reference square -/

lemma edgeWeight_continuous : Continuous edgeWeight := by
  unfold edgeWeight
  fun_prop

lemma edgeWeight_nonneg {p : ℝ × ℝ} (hp : p ∈ refSquare) : 0 ≤ edgeWeight p := by
  obtain ⟨h1, h2, h3, h4⟩ := hp
  unfold edgeWeight
  have : 0 ≤ 1 - p.1 ^ 2 := by nlinarith
  have : 0 ≤ 1 - p.2 ^ 2 := by nlinarith
  positivity

lemma edgeWeight_pos {p : ℝ × ℝ} (hp : p ∈ openSquare) : 0 < edgeWeight p := by
  obtain ⟨⟨h1, h2⟩, h3, h4⟩ := hp
  unfold edgeWeight
  have : 0 < 1 - p.1 ^ 2 := by nlinarith
  have : 0 < 1 - p.2 ^ 2 := by nlinarith
  positivity

lemma edgeWeight_le {p : ℝ × ℝ} (hp : p ∈ refSquare) : edgeWeight p ≤ 1 := by
  obtain ⟨h1, h2, h3, h4⟩ := hp
  unfold edgeWeight
  have : 0 ≤ 1 - p.1 ^ 2 := by nlinarith
  have : 0 ≤ 1 - p.2 ^ 2 := by nlinarith
  nlinarith [sq_nonneg p.1, sq_nonneg p.2]

lemma density_eq (c : Quad) (ρ : ℝ → ℝ → ℝ) (p : ℝ × ℝ) :
    density c ρ p = bilinDet c p.1 p.2 * ρ (bmap c p).1 (bmap c p).2 := by
  have e : (bilinearImage c : ℝ × ℝ → ℝ × ℝ) = fun p => (quadBilinear c).originalFromRef p.1 p.2 :=
    funext fun p => (bmap_eq c p).symm
  rw [density, ← bmap_eq, e]
  rw [show p = (p.1, p.2) from rfl, bilin_jacobianDet]

lemma density_continuous {c : Quad} (hc : ConvexCCW c) {ρ : ℝ → ℝ → ℝ}
    (hρ : ContinuousOn (fun z : ℝ × ℝ => ρ z.1 z.2) (cellSet c)) : ContinuousOn (density c ρ) refSquare := by
  rw [show density c ρ = _ from funext (density_eq c ρ)]
  exact (bilinDet_continuous c).continuousOn.mul
    (hρ.comp (bmap_continuous c).continuousOn fun p hp => bmap_mem hc hp)

lemma sum_split (N : ℕ) (g : ℕ → ℕ → ℝ) :
    ∑ t ∈ Finset.range (N ^ 2), g (t / N) (t % N) = ∑ i ∈ Finset.range N, ∑ j ∈ Finset.range N, g i j := by
  rcases Nat.eq_zero_or_pos N with rfl | hN
  · simp
  rw [← Finset.sum_product']
  refine Finset.sum_bij' (fun t _ => (t / N, t % N)) (fun q _ => N * q.1 + q.2) ?_ ?_ ?_ ?_ ?_
  · intro t ht
    rw [Finset.mem_range, sq] at ht
    simp only [Finset.mem_product, Finset.mem_range]
    exact ⟨Nat.div_lt_of_lt_mul ht, Nat.mod_lt _ hN⟩
  · rintro ⟨i, j⟩ hij
    simp only [Finset.mem_product, Finset.mem_range] at hij ⊢
    calc N * i + j < N * i + N := by omega
      _ = N * (i + 1) := by ring
      _ ≤ N * N := Nat.mul_le_mul_left _ hij.1
      _ = N ^ 2 := by ring
  · intro t _
    exact Nat.div_add_mod t N
  · rintro ⟨i, j⟩ hij
    simp only [Finset.mem_product, Finset.mem_range] at hij
    simp only [Prod.mk.injEq]
    exact ⟨by rw [Nat.mul_add_div hN, Nat.div_eq_of_lt hij.2, add_zero],
      by rw [Nat.mul_add_mod, Nat.mod_eq_of_lt hij.2]⟩
  · intro t _
    rfl

lemma testFamily_degree_eq {ty : String} (h : ty ≠ "jacobi_plain") (i : ℕ) :
    (testFamily ty i).degree = (i + 2 : ℕ) := by
  unfold testFamily
  rw [if_neg h]
  split_ifs
  · exact degree_chebyshevBubble i
  · exact degree_legendreBubble i

/-- The weighted monomial in one variable. -/
lemma weighted_power {ty : String} (hty : ty ≠ "jacobi_plain") {N i : ℕ} (hi : i < N) :
    ∃ c : ℕ → ℝ, ∀ x : ℝ, (1 - x ^ 2) * x ^ i = ∑ k ∈ Finset.range N, c k * (testFamily ty k).eval x := by
  obtain ⟨c, hc⟩ := bubbles_span (testFamily ty) (testFamily_degree_eq hty)
    (fun i => (testFamily_facts hty i).1) (fun i => (testFamily_facts hty i).2.1) N
    ((1 - X ^ 2) * X ^ i : ℝ[X]) (by
      refine natDegree_mul_le.trans ?_
      have : (1 - X ^ 2 : ℝ[X]).natDegree ≤ 2 := (natDegree_sub_le _ _).trans (by simp)
      have : (X ^ i : ℝ[X]).natDegree ≤ i := natDegree_X_pow_le i
      omega) (by simp) (by simp)
  refine ⟨c, fun x => ?_⟩
  have := congrArg (eval x) hc
  simpa [eval_finsetSum] using this

/-- Weighted polynomials are combinations of the reference test functions. -/
lemma testExpansion_exists {ty : String} (hty : ty ≠ "jacobi_plain") {N : ℕ} {P : ℝ × ℝ → ℝ}
    (hP : IsPolynomial (fun i j => i < N ∧ j < N) P) : ∃ coef, TestExpansion ty N P coef := by
  refine IsPolynomial.induct (p := fun P => ∃ coef, TestExpansion ty N P coef) ?_ ?_ hP
  · exact ⟨0, fun p => by simp⟩
  · rintro a i j P ⟨hi, hj⟩ ⟨coef, hcoef⟩
    obtain ⟨c, hc⟩ := weighted_power hty hi
    obtain ⟨d, hd⟩ := weighted_power hty hj
    refine ⟨fun t => a * (c (t / N) * d (t % N)) + coef t, fun p => ?_⟩
    simp only [add_mul, Finset.sum_add_distrib, ← hcoef p]
    rw [sum_split N fun i j => a * (c i * d j) * ((testFamily ty i).eval p.1 * (testFamily ty j).eval p.2)]
    have e : ∑ i ∈ Finset.range N, ∑ j ∈ Finset.range N,
        a * (c i * d j) * ((testFamily ty i).eval p.1 * (testFamily ty j).eval p.2)
        = a * (((1 - p.1 ^ 2) * p.1 ^ i) * ((1 - p.2 ^ 2) * p.2 ^ j)) := by
      rw [hc, hd, Finset.sum_mul_sum, Finset.mul_sum]
      refine Finset.sum_congr rfl fun i _ => ?_
      rw [Finset.mul_sum]
      exact Finset.sum_congr rfl fun j _ => by ring
    rw [e]
    unfold edgeWeight
    ring

/-- The weighted square of a function whose moments are small. -/
lemma weightedSq_le {ty : String} {N : ℕ} {P G : ℝ × ℝ → ℝ} {coef : ℕ → ℝ} (hP : Continuous P)
    (hcoef : TestExpansion ty N P coef) (hG : ContinuousOn G refSquare) {η : ℕ → ℝ}
    (hη : ∀ t < N ^ 2, |∫ p in refSquare, G p * refTest ty (t / N) (t % N) p| ≤ η t) :
    weightedSq G ≤ weightedSq (fun p => G p - P p) + 2 * ∑ t ∈ Finset.range (N ^ 2), |coef t| * η t := by
  have hw := edgeWeight_continuous.continuousOn (s := refSquare)
  have hPc := hP.continuousOn (s := refSquare)
  have int : ∀ {F : ℝ × ℝ → ℝ}, ContinuousOn F refSquare → IntegrableOn F refSquare := fun h =>
    h.integrableOn_compact refSquare_compact
  have i1 : IntegrableOn (fun p => edgeWeight p * (G p - P p) ^ 2) refSquare := int (hw.mul ((hG.sub hPc).pow 2))
  have i2 : IntegrableOn (fun p => G p * (edgeWeight p * P p)) refSquare := int (hG.mul (hw.mul hPc))
  have i3 : IntegrableOn (fun p => edgeWeight p * P p ^ 2) refSquare := int (hw.mul (hPc.pow 2))
  have i4 : ∀ t, IntegrableOn (fun p => coef t * (G p * refTest ty (t / N) (t % N) p)) refSquare := fun t =>
    (int (hG.mul (refTest_continuous ty (t / N) (t % N)).continuousOn)).const_mul _
  have e1 : weightedSq G = weightedSq (fun p => G p - P p)
      + 2 * (∫ p in refSquare, G p * (edgeWeight p * P p)) - ∫ p in refSquare, edgeWeight p * P p ^ 2 := by
    unfold weightedSq
    have i12 : IntegrableOn (fun p => edgeWeight p * (G p - P p) ^ 2 + 2 * (G p * (edgeWeight p * P p)))
      refSquare := i1.add (i2.const_mul 2)
    rw [← integral_const_mul, ← integral_add i1 (i2.const_mul 2), ← integral_sub i12 i3]
    exact setIntegral_congr_fun refSquare_measurable fun p _ => by ring
  have e2 : 0 ≤ ∫ p in refSquare, edgeWeight p * P p ^ 2 :=
    setIntegral_nonneg refSquare_measurable fun p hp => mul_nonneg (edgeWeight_nonneg hp) (sq_nonneg _)
  have e3 : ∫ p in refSquare, G p * (edgeWeight p * P p)
      = ∑ t ∈ Finset.range (N ^ 2), coef t * ∫ p in refSquare, G p * refTest ty (t / N) (t % N) p := by
    simp_rw [← integral_const_mul]
    rw [← integral_finsetSum _ fun t _ => i4 t]
    refine setIntegral_congr_fun refSquare_measurable fun p _ => ?_
    rw [hcoef p, Finset.mul_sum]
    exact Finset.sum_congr rfl fun t _ => by rw [refTest]; ring
  have e4 : ∑ t ∈ Finset.range (N ^ 2), coef t * ∫ p in refSquare, G p * refTest ty (t / N) (t % N) p
      ≤ ∑ t ∈ Finset.range (N ^ 2), |coef t| * η t := Finset.sum_le_sum fun t ht => by
    refine (le_abs_self _).trans ?_
    rw [abs_mul]
    exact mul_le_mul_of_nonneg_left (hη t (Finset.mem_range.1 ht)) (abs_nonneg _)
  rw [e1, e3]
  linarith

/-- A continuous function with weighted square zero is zero. -/
lemma eq_zero_of_weightedSq {G : ℝ × ℝ → ℝ} (hG : ContinuousOn G refSquare) (h : weightedSq G ≤ 0)
    {p : ℝ × ℝ} (hp : p ∈ refSquare) : G p = 0 := by
  have hopen : IsOpen openSquare := isOpen_Ioo.prod isOpen_Ioo
  have hcl : closure openSquare = refSquare := by
    rw [openSquare, closure_prod_eq, closure_Ioo (by norm_num), refSquare_eq]
  have hcont : ContinuousOn (fun p => edgeWeight p * G p ^ 2) refSquare :=
    edgeWeight_continuous.continuousOn.mul (hG.pow 2)
  have hint : IntegrableOn (fun p => edgeWeight p * G p ^ 2) openSquare :=
    (hcont.integrableOn_compact refSquare_compact).mono_set openSquare_subset
  have hnn : ∀ p ∈ openSquare, 0 ≤ edgeWeight p * G p ^ 2 := fun p hp =>
    mul_nonneg (edgeWeight_nonneg (openSquare_subset hp)) (sq_nonneg _)
  have hzero : ∫ p in openSquare, edgeWeight p * G p ^ 2 = 0 := by
    rw [setIntegral_congr_set openSquare_ae]
    exact le_antisymm h (setIntegral_nonneg refSquare_measurable fun p hp =>
      mul_nonneg (edgeWeight_nonneg hp) (sq_nonneg _))
  have hae := (setIntegral_eq_zero_iff_of_nonneg_ae
    ((ae_restrict_iff' hopen.measurableSet).2 (Filter.Eventually.of_forall hnn)) hint).1 hzero
  have hall : Set.EqOn (fun p => edgeWeight p * G p ^ 2) 0 openSquare :=
    Measure.eqOn_open_of_ae_eq hae hopen (hcont.mono openSquare_subset) continuousOn_const
  have hG0 : Set.EqOn G 0 openSquare := fun q hq => by
    have := hall hq
    simp only [Pi.zero_apply, mul_eq_zero, (edgeWeight_pos hq).ne', false_or] at this
    exact pow_eq_zero_iff (two_ne_zero) |>.1 this
  exact hG0.of_subset_closure hG continuousOn_const openSquare_subset hcl.ge hp

/-- The weak form is the integral of the defect against the test function, over the reference square. -/
lemma weakIntegral_density {c : Quad} (hc : ConvexCCW c) {ty : String} (hty : ty ≠ "jacobi_plain") {N t : ℕ}
    {ψ : ℝ × ℝ → ℝ} (hψ : IsTestFunction ty N c t ψ) {a u : ℝ × ℝ → ℝ} {b : ℝ × ℝ} {r : ℝ}
    {f ρ : ℝ → ℝ → ℝ} (hf : ContinuousOn (fun z : ℝ × ℝ => f z.1 z.2) (cellSet c))
    (hρ : IsDefect (cellSet c) a u b r f ρ) : weakIntegral (cellSet c) a u b r f ψ
      = ∫ p in refSquare, density c ρ p * refTest ty (t / N) (t % N) p := by
  have h0 := weakIntegral_zero hc hty hψ (f := fun x y => f x y + ρ x y) (hf.add hρ.continuous) hρ.solves
  rw [weakIntegral_eq hc hψ] at h0 ⊢
  have i1 : IntegrableOn (refIntegrand c ty (t / N) (t % N) a u b r fun x y => f x y + ρ x y) refSquare :=
    (refIntegrand_continuous hc ty (t / N) (t % N) b r hρ.solves.coefficient hρ.solves.smooth
      (f := fun x y => f x y + ρ x y) (hf.add hρ.continuous)).integrableOn_compact refSquare_compact
  have i2 : IntegrableOn (fun p => density c ρ p * refTest ty (t / N) (t % N) p) refSquare :=
    ((density_continuous hc hρ.continuous).mul
      (refTest_continuous ty (t / N) (t % N)).continuousOn).integrableOn_compact refSquare_compact
  rw [← zero_add (∫ p in refSquare, density c ρ p * refTest ty (t / N) (t % N) p), ← h0, ← integral_add i1 i2]
  refine setIntegral_congr_fun refSquare_measurable fun p _ => ?_
  simp only [refIntegrand, density_eq]
  ring

/-- **C84** (what a residual is).  Let `ρ` be the defect of the equation on a strictly convex cell: the
left-hand side for the network minus the forcing function.  For a test space that vanishes on the edges
the weak form is the integral of `ρ` times the test function. -/
theorem C84_pairing (c : Quad) (hc : ConvexCCW c) (ty : String) (hty : ty ≠ "jacobi_plain") (N t : ℕ)
    (ψ : ℝ × ℝ → ℝ) (hψ : IsTestFunction ty N c t ψ) (a u : ℝ × ℝ → ℝ) (b : ℝ × ℝ) (r : ℝ)
    (f ρ : ℝ → ℝ → ℝ) (hf : ContinuousOn (fun z : ℝ × ℝ => f z.1 z.2) (cellSet c))
    (hρ : IsDefect (cellSet c) a u b r f ρ) :
    weakIntegral (cellSet c) a u b r f ψ = ∫ z in cellSet c, ρ z.1 z.2 * ψ z := by
  rw [weakIntegral_density hc hty hψ hf hρ, cellSet, cell_change hc]
  refine setIntegral_congr_fun refSquare_measurable fun p hp => ?_
  have e := hψ p hp
  rw [← bmap_eq] at e
  simp only [density_eq, e, refTest]
  ring

/-- Small weak forms make the weighted defect small. -/
lemma defect_le {c : Quad} (hc : ConvexCCW c) {ty : String} (hty : ty ≠ "jacobi_plain") {N : ℕ}
    {ψ : ℕ → ℝ × ℝ → ℝ} (hψ : ∀ t < N ^ 2, IsTestFunction ty N c t (ψ t)) {a u : ℝ × ℝ → ℝ} {b : ℝ × ℝ}
    {r : ℝ} {f ρ : ℝ → ℝ → ℝ} (hf : ContinuousOn (fun z : ℝ × ℝ => f z.1 z.2) (cellSet c))
    (hρ : IsDefect (cellSet c) a u b r f ρ) {η : ℕ → ℝ}
    (hη : ∀ t < N ^ 2, |weakIntegral (cellSet c) a u b r f (ψ t)| ≤ η t) {P : ℝ × ℝ → ℝ} {coef : ℕ → ℝ}
    (hP : Continuous P) (hcoef : TestExpansion ty N P coef) :
    weightedSq (density c ρ) ≤ weightedSq (fun p => density c ρ p - P p)
      + 2 * ∑ t ∈ Finset.range (N ^ 2), |coef t| * η t :=
  weightedSq_le hP hcoef (density_continuous hc hρ.continuous) fun t ht => by
    rw [← weakIntegral_density hc hty (hψ t ht) hf hρ]
    exact hη t ht

/-- A defect with density zero. -/
lemma defect_zero {c : Quad} (hc : ConvexCCW c) {a u : ℝ × ℝ → ℝ} {b : ℝ × ℝ} {r : ℝ} {f ρ : ℝ → ℝ → ℝ}
    (hρ : IsDefect (cellSet c) a u b r f ρ) (h : weightedSq (density c ρ) ≤ 0) :
    (∀ z ∈ cellSet c, ρ z.1 z.2 = 0) ∧ ClassicalSolution (cellSet c) a u b r f := by
  have hz : ∀ z ∈ cellSet c, ρ z.1 z.2 = 0 := by
    intro z hz
    have hT : assignFeTransformation "quadrilateral" "bilinear" c = .ok (quadBilinear c) := by
      simp [assignFeTransformation]
    have himg : bmap c '' refSquare = convexHull ℝ (Set.range c) := (C25_square_onto_cell c _ hT).2.2.2 hc
    rw [cellSet, ← himg] at hz
    obtain ⟨p, hp, rfl⟩ := hz
    have := eq_zero_of_weightedSq (density_continuous hc hρ.continuous) h hp
    rw [density_eq, mul_eq_zero] at this
    exact this.resolve_left (bilinDet_pos hc hp).ne'
  refine ⟨hz, ⟨hρ.solves.smooth, hρ.solves.coefficient, hρ.solves.fluxX, hρ.solves.fluxY, fun z hzi => ?_⟩⟩
  have := hρ.solves.solves z hzi
  rwa [hz z (interior_subset hzi), add_zero] at this

/-- **C84** (the bound).  If the `N²` weak forms of a cell are at most `η t`, then the weighted square of
the defect is, up to a combination of these bounds, at most that of its distance from any polynomial of
degree less than `N` in each variable.  The coefficients of the combination depend on the polynomial and the
test space only; they exist for every such polynomial. -/
theorem C84_bound (ty : String) (hty : ty ≠ "jacobi_plain") (N : ℕ) (P : ℝ × ℝ → ℝ)
    (hP : IsPolynomial (fun i j => i < N ∧ j < N) P) :
    (∃ coef, TestExpansion ty N P coef) ∧
    ∀ coef, TestExpansion ty N P coef → ∀ (c : Quad), ConvexCCW c → ∀ (ψ : ℕ → ℝ × ℝ → ℝ),
      (∀ t < N ^ 2, IsTestFunction ty N c t (ψ t)) → ∀ (a u : ℝ × ℝ → ℝ) (b : ℝ × ℝ) (r : ℝ)
      (f ρ : ℝ → ℝ → ℝ), ContinuousOn (fun z : ℝ × ℝ => f z.1 z.2) (cellSet c) →
      IsDefect (cellSet c) a u b r f ρ → ∀ η : ℕ → ℝ,
      (∀ t < N ^ 2, |weakIntegral (cellSet c) a u b r f (ψ t)| ≤ η t) →
      weightedSq (density c ρ) ≤ weightedSq (fun p => density c ρ p - P p)
        + 2 * ∑ t ∈ Finset.range (N ^ 2), |coef t| * η t :=
  ⟨testExpansion_exists hty hP, fun _ hcoef _ hc _ hψ _ _ _ _ _ _ hf hρ _ hη =>
    defect_le hc hty hψ hf hρ hη hP.differentiable.continuous hcoef⟩

/-- **C84** (every defect is found).  If the defect is not zero somewhere in a strictly convex cell, then
its integral against some test function of the family is not zero.  The weak form of test function number
`N i + j` of the space of order `N` is the integral against the test function `(i, j)`, for every `N`. -/
theorem C84_detected (c : Quad) (hc : ConvexCCW c) (ty : String) (hty : ty ≠ "jacobi_plain")
    (a u : ℝ × ℝ → ℝ) (b : ℝ × ℝ) (r : ℝ) (f ρ : ℝ → ℝ → ℝ)
    (hf : ContinuousOn (fun z : ℝ × ℝ => f z.1 z.2) (cellSet c)) (hρ : IsDefect (cellSet c) a u b r f ρ) :
    ((∃ z ∈ cellSet c, ρ z.1 z.2 ≠ 0) → ∃ i j, moment c ρ ty i j ≠ 0) ∧
    ∀ N i j, i < N → j < N → N * i + j < N ^ 2 ∧ ∀ ψ, IsTestFunction ty N c (N * i + j) ψ →
      weakIntegral (cellSet c) a u b r f ψ = moment c ρ ty i j := by
  constructor
  swap
  · refine fun N i j hi hj => ⟨?_, fun ψ hψ => ?_⟩
    · calc N * i + j < N * i + N := by omega
        _ = N * (i + 1) := by ring
        _ ≤ N * N := Nat.mul_le_mul_left _ hi
        _ = N ^ 2 := by ring
    · rw [weakIntegral_density hc hty hψ hf hρ, Nat.mul_add_div (by omega), Nat.div_eq_of_lt hj, add_zero,
        Nat.mul_add_mod, Nat.mod_eq_of_lt hj]
      rfl
  rintro ⟨z, hz, hne⟩
  by_contra hall
  have hm : ∀ i j, ∫ p in refSquare, density c ρ p * refTest ty i j p = 0 := fun i j => by
    by_contra hw
    exact hall ⟨i, j, hw⟩
  have hG := density_continuous hc hρ.continuous
  refine hne ((defect_zero hc hρ ?_).1 z hz)
  refine le_of_forall_pos_le_add fun ε hε => ?_
  obtain ⟨d, P, hP, hnear⟩ := polynomial_near hG (ε := Real.sqrt (ε / 4)) (Real.sqrt_pos.2 (by positivity))
  have hP' : IsPolynomial (fun i j => i < d + 1 ∧ j < d + 1) P := hP.mono' fun i j h => ⟨by omega, by omega⟩
  obtain ⟨coef, hcoef⟩ := testExpansion_exists hty hP'
  have hPc : Continuous P := hP.differentiable.continuous
  have h1 := weightedSq_le hPc hcoef hG (η := fun _ => 0) fun t _ => by rw [hm, abs_zero]
  simp only [mul_zero, Finset.sum_const_zero, add_zero] at h1
  have h2 : weightedSq (fun p => density c ρ p - P p) ≤ ∫ _p in refSquare, ε / 4 := by
    refine setIntegral_mono_on ?_ (integrableOn_const refSquare_compact.measure_lt_top.ne) refSquare_measurable
      fun p hp => ?_
    · exact (edgeWeight_continuous.continuousOn.mul ((hG.sub hPc.continuousOn).pow 2)).integrableOn_compact
        refSquare_compact
    · have h3 := (hnear p hp).le
      rw [abs_sub_comm] at h3
      have h4 : (density c ρ p - P p) ^ 2 ≤ ε / 4 := by
        rw [← sq_abs, ← Real.sq_sqrt (show 0 ≤ ε / 4 by positivity)]
        exact pow_le_pow_left₀ (abs_nonneg _) h3 2
      calc edgeWeight p * (density c ρ p - P p) ^ 2 ≤ 1 * (ε / 4) :=
            mul_le_mul (edgeWeight_le hp) h4 (sq_nonneg _) zero_le_one
        _ = ε / 4 := one_mul _
  rw [setIntegral_const, refSquare_volume, smul_eq_mul] at h2
  linarith

/-! ### The reported losses -/

lemma residual_sq_le {m n : ℕ} (R : Fin m → Fin (n ^ 2) → ℝ) (k : Fin m) (t : Fin (n ^ 2)) :
    R k t ^ 2 ≤ (n : ℝ) ^ 2 * ∑ k, meanSq (R k) := by
  have h1 : meanSq (R k) ≤ ∑ k, meanSq (R k) :=
    Finset.single_le_sum (f := fun k => meanSq (R k)) (fun _ _ => meanSq_nonneg _) (Finset.mem_univ k)
  have hpos : (0 : ℝ) < (n ^ 2 : ℕ) := by exact_mod_cast t.pos
  have h2 : R k t ^ 2 ≤ (n ^ 2 : ℕ) * meanSq (R k) := by
    unfold meanSq
    rw [mul_div_cancel₀ _ hpos.ne', sq]
    exact Finset.single_le_sum (f := fun t => R k t * R k t) (fun _ _ => mul_self_nonneg _) (Finset.mem_univ t)
  push_cast at h2 hpos
  exact h2.trans (mul_le_mul_of_nonneg_left h1 hpos.le)

/-- The weak forms are bounded by the loss. -/
lemma weak_le_loss {cells : List Quad} {N : ℕ} {ψ : ℕ → ℕ → ℝ × ℝ → ℝ} {a u : ℝ × ℝ → ℝ} {b : ℝ × ℝ} {r : ℝ}
    {f : ℝ → ℝ → ℝ} {δ : ℕ → ℕ → ℝ} {R : Fin cells.length → Fin (N ^ 2) → ℝ}
    (hR : ResidualsNear cells N ψ a u b r f δ R) {k : ℕ} {c : Quad} (hk : cells[k]? = some c) {t : ℕ}
    (ht : t < N ^ 2) : |weakIntegral (cellSet c) a u b r f (ψ k t)|
      ≤ N * Real.sqrt (∑ k, meanSq (R k)) + 8 * δ k t := by
  obtain ⟨hk', rfl⟩ := List.getElem?_eq_some_iff.1 hk
  have h1 := hR ⟨k, hk'⟩ ⟨t, ht⟩
  have h2 : |R ⟨k, hk'⟩ ⟨t, ht⟩| ≤ N * Real.sqrt (∑ k, meanSq (R k)) := by
    rw [← Real.sqrt_sq (Nat.cast_nonneg N : (0 : ℝ) ≤ N), ← Real.sqrt_mul (sq_nonneg _), ← Real.sqrt_sq_eq_abs]
    exact Real.sqrt_le_sqrt (residual_sq_le R _ _)
  have h3 := abs_sub_abs_le_abs_sub (weakIntegral (cellSet cells[k]) a u b r f (ψ k t)) (R ⟨k, hk'⟩ ⟨t, ht⟩)
  rw [abs_sub_comm] at h3
  simp only at h1
  have h4 : |weakIntegral (cellSet cells[k]) a u b r f (ψ k t)| - |R ⟨k, hk'⟩ ⟨t, ht⟩| ≤ 8 * δ k t := h3.trans h1
  linarith

/-- On cell number `k` the weighted defect is at most the weighted distance from any polynomial of degree
less than `N` in each variable plus a combination of `N √L + 8 δ`. -/
def Spec.DefectBound (cells : List Quad) (ty : String) (N : ℕ) (ρ : ℝ → ℝ → ℝ) (L : ℝ) (δ : ℕ → ℕ → ℝ) : Prop :=
  ∀ k c, cells[k]? = some c → ∀ P, IsPolynomial (fun i j => i < N ∧ j < N) P →
    ∀ coef, TestExpansion ty N P coef → weightedSq (density c ρ) ≤ weightedSq (fun p => density c ρ p - P p)
      + 2 * ∑ t ∈ Finset.range (N ^ 2), |coef t| * (N * Real.sqrt L + 8 * δ k t)

lemma defectBound_of_residuals {cells : List Quad} {ty : String} (hty : ty ≠ "jacobi_plain") {N : ℕ}
    {ψ : ℕ → ℕ → ℝ × ℝ → ℝ} {f ρ : ℝ → ℝ → ℝ} (hV : VariationalSetup cells ty N ψ f) {a u : ℝ × ℝ → ℝ}
    {b : ℝ × ℝ} {r : ℝ} (hρ : ∀ c ∈ cells, IsDefect (cellSet c) a u b r f ρ) {δ : ℕ → ℕ → ℝ}
    {R : Fin cells.length → Fin (N ^ 2) → ℝ} (hR : ResidualsNear cells N ψ a u b r f δ R) :
    DefectBound cells ty N ρ (∑ k, meanSq (R k)) δ := fun k c hk P hP coef hcoef => by
  have hc := List.mem_of_getElem? hk
  exact defect_le (hV.convex c hc) hty (hV.test k c hk) (hV.forcing c hc) (hρ c hc)
    (fun t ht => weak_le_loss hR hk ht) hP.differentiable.continuous hcoef

/-- **C84** (loss zero).  If the bound holds with loss zero and exact integrals, and on every cell the density
of the defect is a polynomial of degree less than `N` in each variable, then `u` solves the equation on every
cell. -/
theorem C84_zero_loss (cells : List Quad) (hcells : ∀ c ∈ cells, ConvexCCW c) (ty : String)
    (hty : ty ≠ "jacobi_plain") (N : ℕ) (a u : ℝ × ℝ → ℝ) (b : ℝ × ℝ) (r : ℝ) (f ρ : ℝ → ℝ → ℝ)
    (hρ : ∀ c ∈ cells, IsDefect (cellSet c) a u b r f ρ)
    (hpoly : ∀ c ∈ cells, ∃ P, IsPolynomial (fun i j => i < N ∧ j < N) P ∧ ∀ p ∈ refSquare, density c ρ p = P p)
    (hb : DefectBound cells ty N ρ 0 fun _ _ => 0) :
    ∀ c ∈ cells, (∀ z ∈ cellSet c, ρ z.1 z.2 = 0) ∧ ClassicalSolution (cellSet c) a u b r f := by
  intro c hc
  obtain ⟨k, hk⟩ := List.mem_iff_getElem?.1 hc
  obtain ⟨P, hP, hPe⟩ := hpoly c hc
  obtain ⟨coef, hcoef⟩ := testExpansion_exists hty hP
  refine defect_zero (hcells c hc) (hρ c hc) ((hb k c hk P hP coef hcoef).trans ?_)
  have : weightedSq (fun p => density c ρ p - P p) = 0 := by
    unfold weightedSq
    rw [setIntegral_congr_fun refSquare_measurable (g := fun _ => 0) fun p hp => by simp [hPe p hp]]
    simp
  simp [this]

section Loss

variable {V : Type} {cells : List Quad} {s : FESettings} {ψ : ℕ → ℕ → ℝ × ℝ → ℝ} {f : ℝ → ℝ → ℝ}
  (hV : VariationalSetup cells s.feType s.feOrder.toNat ψ f) {nq : ℕ}
  {S : Fespace2D (ℝ → ℝ → ℝ) V (s.feOrder.toNat ^ 2) nq} {D : DataHandler2D (s.feOrder.toNat ^ 2) nq}
  (hR : Discretised cells f s S D) (hty : s.feType ≠ "jacobi_plain") (bdv : List (ℝ × ℝ) × List ℝ)

include hV hR hty

/-- **C84.**  Let the network be a function `u` with a continuous defect `ρ` on every cell, and let the
integrands of the weak forms be within `δ` of the polynomials that the rule integrates exactly.  Then the PDE
loss `L` that `DenseModel` reports, which is the loss that `DenseModel_Hard` reports, bounds the defect on
every cell: its weighted square is at most that of its distance from any polynomial of degree less than the
order of the test space, plus a combination of `N √L + 8 δ`. -/
theorem C84_train_step (kind : LossKind) (hk : kind.forward) (p : ParamDict) (e : ℝ)
    (b : ℝ × ℝ) (r : ℝ) (hco : ConstantCoefficients kind p e b r) (u : ℝ × ℝ → ℝ) (ρ : ℝ → ℝ → ℝ)
    (hρ : ∀ c ∈ cells, IsDefect (cellSet c) (fun _ => e) u b r f ρ) (δ : ℕ → ℕ → ℝ)
    (hδ : IntegrandsNear (ruleDegree s.quadType s.quadOrder) cells s.feOrder.toNat ψ (fun _ => e) u b r f δ)
    (net : Network 1) (hnet : RowWise net (fun _ => u)) (beta : ℝ) :
    ∃ out outH, trainStepDense (lossOf kind _ _ _) (modelDataOf D bdv S.nCells) net beta p = .ok out ∧
      trainStepHard (lossOf kind _ _ _) (modelDataOf D bdv S.nCells) net beta p = .ok outH ∧
      DefectBound cells s.feType s.feOrder.toNat ρ out.lossPde δ ∧
      DefectBound cells s.feType s.feOrder.toNat ρ outH.loss δ := by
  obtain ⟨out, outH, R, h1, h2, h3, h4, h5⟩ := C69_train_step hV hR bdv kind hk p e b r hco u
    (fun c hc => (hρ c hc).solves.smooth) δ hδ net hnet beta
  have := defectBound_of_residuals hty hV hρ h5
  exact ⟨out, outH, h1, h2, by rw [h3]; exact this, by rw [h4]; exact this⟩

/-- **C84** (inverse problems, constant coefficient).  The same for `DenseModel_Inverse`. -/
theorem C84_inverse (e : ℝ) (u : ℝ × ℝ → ℝ) (ρ : ℝ → ℝ → ℝ)
    (hρ : ∀ c ∈ cells, IsDefect (cellSet c) (fun _ => e) u (0, 0) 0 f ρ) (δ : ℕ → ℕ → ℝ)
    (hδ : IntegrandsNear (ruleDegree s.quadType s.quadOrder) cells s.feOrder.toNat ψ (fun _ => e) u (0, 0) 0
      f δ) {nS : ℕ} (sp : Fin nS → ℝ × ℝ) (sv : Fin nS → ℝ) (net : Network 1)
    (hnet : RowWise net (fun _ => u)) (beta : ℝ) (p ip : ParamDict) (he : HasParam ip "eps" e) :
    ∃ out, trainStepInverse (lossPoissonInverse _ _ _) (modelDataOf D bdv S.nCells) sp sv ip net beta p
        = .ok out ∧ DefectBound cells s.feType s.feOrder.toNat ρ out.lossPde δ := by
  obtain ⟨out, R, h1, h2, h3⟩ := C69_inverse hV hR bdv e u (fun c hc => (hρ c hc).solves.smooth) δ hδ sp sv
    net hnet beta p ip he
  exact ⟨out, h1, by rw [h2]; exact defectBound_of_residuals hty hV hρ h3⟩

/-- **C84** (inverse problems, coefficient field).  The same for `DenseModel_Inverse_Domain`. -/
theorem C84_inverse_domain (a u : ℝ × ℝ → ℝ) (b : ℝ × ℝ) (r : ℝ) (ρ : ℝ → ℝ → ℝ)
    (hρ : ∀ c ∈ cells, IsDefect (cellSet c) a u b r f ρ) (δ : ℕ → ℕ → ℝ)
    (hδ : IntegrandsNear (ruleDegree s.quadType s.quadOrder) cells s.feOrder.toNat ψ a u b r f δ)
    {nS : ℕ} (sp : Fin nS → ℝ × ℝ) (sv : Fin nS → ℝ) (net : Network 2) (hnet : RowWise net ![u, a])
    (beta : ℝ) (p : ParamDict) (hb1 : HasParam p "b_x" b.1) (hb2 : HasParam p "b_y" b.2)
    (hr' : HasParam p "c" r) :
    ∃ out, trainStepInverseDomain (lossCd2dInverseDomain _ _ _) (modelDataOf D bdv S.nCells) sp sv net
        beta p = .ok out ∧ DefectBound cells s.feType s.feOrder.toNat ρ out.lossPde δ := by
  obtain ⟨out, R, h1, h2, h3⟩ := C69_inverse_domain hV hR bdv a u b r
    (fun c hc => (hρ c hc).solves.coefficient) (fun c hc => (hρ c hc).solves.smooth) δ hδ sp sv net hnet beta p
    hb1 hb2 hr'
  exact ⟨out, h1, by rw [h2]; exact defectBound_of_residuals hty hV hρ h3⟩

end Loss

/-- **C84** (the loss finds the defect).  If the integral of the defect against the test function `(i, j)` on a
cell is not zero, then for every space of order `N > i, j` of the same family whose rule is exact enough for the
integrands, the PDE loss of `DenseModel` and the loss of `DenseModel_Hard` are at least the square of half this
integral divided by `N`.  (By `C84_detected` there is such a test function for every defect that is not zero.
The constructor takes orders below 1000.) -/
theorem C84_loss_positive (cells : List Quad) (ty : String) (hty : ty ≠ "jacobi_plain") (kind : LossKind)
    (hk : kind.forward) (p : ParamDict) (e : ℝ) (b : ℝ × ℝ) (r : ℝ)
    (hco : ConstantCoefficients kind p e b r) (u : ℝ × ℝ → ℝ) (f ρ : ℝ → ℝ → ℝ)
    (hρ : ∀ c ∈ cells, IsDefect (cellSet c) (fun _ => e) u b r f ρ)
    (c : Quad) (hc : c ∈ cells) (i j : ℕ) {V : Type} (s : FESettings) (hs : s.feType = ty)
    (hi : i < s.feOrder.toNat) (hj : j < s.feOrder.toNat) {nq : ℕ}
    (S : Fespace2D (ℝ → ℝ → ℝ) V (s.feOrder.toNat ^ 2) nq) (D : DataHandler2D (s.feOrder.toNat ^ 2) nq)
    (hR : Discretised cells f s S D) (ψ : ℕ → ℕ → ℝ × ℝ → ℝ)
    (hV : VariationalSetup cells s.feType s.feOrder.toNat ψ f)
    (hδ : IntegrandsNear (ruleDegree s.quadType s.quadOrder) cells s.feOrder.toNat ψ (fun _ => e) u b r f
      fun _ _ => |moment c ρ ty i j| / 16) (bdv : List (ℝ × ℝ) × List ℝ) (net : Network 1)
    (hnet : RowWise net (fun _ => u)) (beta : ℝ) :
    ∃ out outH, trainStepDense (lossOf kind _ _ _) (modelDataOf D bdv S.nCells) net beta p = .ok out ∧
      trainStepHard (lossOf kind _ _ _) (modelDataOf D bdv S.nCells) net beta p = .ok outH ∧
      (|moment c ρ ty i j| / 2 / s.feOrder.toNat) ^ 2 ≤ out.lossPde ∧
      (|moment c ρ ty i j| / 2 / s.feOrder.toNat) ^ 2 ≤ outH.loss := by
  subst hs
  obtain ⟨out, outH, R, h1, h2, h3, h4, h5⟩ := C69_train_step hV hR bdv kind hk p e b r hco u
    (fun c hc => (hρ c hc).solves.smooth) _ hδ net hnet beta
  obtain ⟨ht, hw'⟩ := (C84_detected c (hV.convex c hc) s.feType hty (fun _ => e) u b r f ρ (hV.forcing c hc)
    (hρ c hc)).2 s.feOrder.toNat i j hi hj
  obtain ⟨k, hkc⟩ := List.mem_iff_getElem?.1 hc
  obtain ⟨hk', hkc'⟩ := List.getElem?_eq_some_iff.1 hkc
  have h6 := h5 ⟨k, hk'⟩ ⟨_, ht⟩
  have h7 := hw' _ (hV.test k c hkc _ ht)
  generalize moment c ρ s.feType i j = w at *
  have h8 : |R ⟨k, hk'⟩ ⟨_, ht⟩ - w| ≤ 8 * (|w| / 16) := by
    have e : weakIntegral (cellSet cells[k]) (fun _ => e) u b r f (ψ k (s.feOrder.toNat * i + j)) = w := by
      rw [hkc', h7]
    simp only at h6
    have h6' : |R ⟨k, hk'⟩ ⟨_, ht⟩ - weakIntegral (cellSet cells[k]) (fun _ => _) u b r f
      (ψ k (s.feOrder.toNat * i + j))| ≤ 8 * (|w| / 16) := h6
    rwa [e] at h6'
  have h9 : |w| / 2 ≤ |R ⟨k, hk'⟩ ⟨_, ht⟩| := by
    have := abs_sub_abs_le_abs_sub w (R ⟨k, hk'⟩ ⟨_, ht⟩)
    rw [abs_sub_comm] at this
    linarith
  have hNpos : (0 : ℝ) < s.feOrder.toNat := by
    exact_mod_cast (by omega : 0 < s.feOrder.toNat)
  have h10 : (|w| / 2 / s.feOrder.toNat) ^ 2 ≤ ∑ k, meanSq (R k) := by
    rw [div_pow, div_le_iff₀ (by positivity), mul_comm (∑ k, meanSq (R k))]
    refine le_trans ?_ (residual_sq_le R ⟨k, hk'⟩ ⟨_, ht⟩)
    rw [← sq_abs (R _ _)]
    exact pow_le_pow_left₀ (by positivity) h9 2
  exact ⟨out, outH, h1, h2, by rw [h3]; exact h10, by rw [h4]; exact h10⟩

/-! ### Polynomials: the loss is zero exactly for solutions -/

/-- The defect of the equation as a function. -/
noncomputable def strongDefect (a u : ℝ × ℝ → ℝ) (b : ℝ × ℝ) (r : ℝ) (f : ℝ → ℝ → ℝ) (x y : ℝ) : ℝ :=
  -(dx (fun z => a z * dx u z) (x, y) + dy (fun z => a z * dy u z) (x, y))
    + (b.1 * dx u (x, y) + b.2 * dy u (x, y)) + r * u (x, y) - f x y

section Polynomials

variable {q m : ℕ} {a u : ℝ × ℝ → ℝ} {f : ℝ → ℝ → ℝ} (ha : IsPolynomial (fun i j => i + j ≤ q) a)
  (hu : IsPolynomial (fun i j => i + j ≤ m) u)
  (hf : IsPolynomial (fun i j => i + j ≤ q + m) fun z => f z.1 z.2) (b : ℝ × ℝ) (r : ℝ)

include ha hu

lemma flux_polynomial : IsPolynomial (fun i j => i + j ≤ q + m) (fun z => a z * dx u z) ∧
    IsPolynomial (fun i j => i + j ≤ q + m) (fun z => a z * dy u z) :=
  ⟨ha.mul (E' := fun i j => i + j ≤ m) (fun i j i' j' h1 h2 => by omega)
    (hu.dx (E' := fun i j => i + j ≤ m) fun i j h => by omega),
  ha.mul (E' := fun i j => i + j ≤ m) (fun i j i' j' h1 h2 => by omega)
    (hu.dy (E' := fun i j => i + j ≤ m) fun i j h => by omega)⟩

include hf

lemma strongDefect_polynomial :
    IsPolynomial (fun i j => i + j ≤ q + m) fun z => strongDefect a u b r f z.1 z.2 := by
  obtain ⟨h1, h2⟩ := flux_polynomial ha hu
  have e1 := h1.dx (E' := fun i j => i + j ≤ q + m) fun i j h => by omega
  have e2 := h2.dy (E' := fun i j => i + j ≤ q + m) fun i j h => by omega
  have e3 := hu.dx (E' := fun i j => i + j ≤ q + m) fun i j h => by omega
  have e4 := hu.dy (E' := fun i j => i + j ≤ q + m) fun i j h => by omega
  have e5 : IsPolynomial (fun i j => i + j ≤ q + m) u := hu.mono' fun i j h => by omega
  have := ((((e1.add e2).const_mul (-1)).add ((e3.const_mul b.1).add (e4.const_mul b.2))).add
    (e5.const_mul r)).add (hf.const_mul (-1))
  refine cast (congrArg _ (funext fun z => ?_)) this
  simp only [strongDefect, Prod.mk.eta]
  ring

lemma polynomial_defect (K : Set (ℝ × ℝ)) : IsDefect K a u b r f (strongDefect a u b r f) := by
  obtain ⟨h1, h2⟩ := flux_polynomial ha hu
  have e3 := hu.dx (E' := fun i j => i + j ≤ q + m) fun i j h => by omega
  have e4 := hu.dy (E' := fun i j => i + j ≤ q + m) fun i j h => by omega
  refine ⟨(strongDefect_polynomial ha hu hf b r).differentiable.continuous.continuousOn,
    ⟨hu.differentiable.continuous.continuousOn, e3.differentiable.continuous.continuousOn,
      e4.differentiable.continuous.continuousOn⟩, ha.differentiable.continuous.continuousOn,
    fun z _ => h1.differentiable z, fun z _ => h2.differentiable z, fun z _ => ?_⟩
  simp only [strongDefect, Prod.mk.eta]
  ring

lemma density_isQ (c : Quad) : IsQ (q + m + 1) (density c (strongDefect a u b r f)) := by
  have := (isQ_bilinDet c).mul (isQ_comp (strongDefect_polynomial ha hu hf b r) c) (f := q + m + 1) (by omega)
  refine cast (congrArg _ (funext fun p => ?_)) this
  rw [density_eq]

lemma refIntegrand_isQ (c : Quad) (ty : String) {N i j : ℕ} (hi : i < N) (hj : j < N) :
    IsQ (q + m + N + 2) (refIntegrand c ty i j a u b r f) := by
  have hQ : ∀ {d e : ℕ} {G : ℝ × ℝ → ℝ}, IsQ d G → d ≤ e → IsQ e G := fun h hd =>
    h.mono' fun i j h => ⟨by omega, by omega⟩
  have hT := refTest_isQ ty hi hj
  have hTx : IsQ (N + 1) (dx (refTest ty i j)) := hT.dx fun i j h => ⟨by omega, by omega⟩
  have hTy : IsQ (N + 1) (dy (refTest ty i j)) := hT.dy fun i j h => ⟨by omega, by omega⟩
  have lin : ∀ a0 a1 a2 : ℝ, IsQ 1 fun p => a0 + a1 * p.1 + a2 * p.2 := fun a0 a1 a2 =>
    cast (congrArg _ (funext fun p => by ring)) (isQ_bilinear a0 a1 a2 0)
  have hgx : IsQ (N + 2) (refGradX c ty i j) := by
    have := ((lin (QuadBilinear.yc2 c) (QuadBilinear.yc3 c) 0).mul hTx (f := N + 2) (by omega)).add
      (((lin (QuadBilinear.yc1 c) 0 (QuadBilinear.yc3 c)).mul hTy (f := N + 2) (by omega)).const_mul (-1))
    refine cast (congrArg _ (funext fun p => ?_)) this
    simp only [refGradX]
    ring
  have hgy : IsQ (N + 2) (refGradY c ty i j) := by
    have := ((lin (QuadBilinear.xc1 c) 0 (QuadBilinear.xc3 c)).mul hTy (f := N + 2) (by omega)).add
      (((lin (QuadBilinear.xc2 c) (QuadBilinear.xc3 c) 0).mul hTx (f := N + 2) (by omega)).const_mul (-1))
    refine cast (congrArg _ (funext fun p => ?_)) this
    simp only [refGradY]
    ring
  obtain ⟨h1, h2⟩ := flux_polynomial ha hu
  have e1 := (isQ_comp h1 c).mul hgx (f := q + m + N + 2) (by omega)
  have e2 := (isQ_comp h2 c).mul hgy (f := q + m + N + 2) (by omega)
  have e3 := hu.dx (E' := fun i j => i + j ≤ q + m) fun i j h => by omega
  have e4 := hu.dy (E' := fun i j => i + j ≤ q + m) fun i j h => by omega
  have e5 : IsPolynomial (fun i j => i + j ≤ q + m) u := hu.mono' fun i j h => by omega
  have e6 := isQ_comp ((((e3.const_mul b.1).add (e4.const_mul b.2)).add (e5.const_mul r)).add
    (hf.const_mul (-1))) c
  have e7 := e6.mul ((isQ_bilinDet c).mul hT (f := N + 2) (by omega)) (f := q + m + N + 2) (by omega)
  refine cast (congrArg _ (funext fun p => ?_)) ((e1.add e2).add e7)
  simp only [refIntegrand]
  ring

/-- For polynomials the quadrature is exact. -/
lemma integrandsNear_polynomial {cells : List Quad} (hcells : ∀ c ∈ cells, ConvexCCW c) {ty : String} {N : ℕ}
    {ψ : ℕ → ℕ → ℝ × ℝ → ℝ} (hψ : ∀ k c, cells[k]? = some c → ∀ t < N ^ 2, IsTestFunction ty N c t (ψ k t))
    {d : ℕ} (hd : q + m + N + 2 ≤ d) : IntegrandsNear d cells N ψ a u b r f fun _ _ => 0 := by
  intro k c hk t ht
  have hN : 0 < N := Nat.pos_of_ne_zero fun h => by simp [h] at ht
  have hi : t / N < N := by rw [Nat.div_lt_iff_lt_mul hN, ← sq]; exact ht
  have hQ : IsQ d (refIntegrand c ty (t / N) (t % N) a u b r f) :=
    (refIntegrand_isQ ha hu hf b r c ty hi (Nat.mod_lt _ hN)).mono' fun i j h => ⟨by omega, by omega⟩
  refine ⟨refIntegrand c ty (t / N) (t % N) a u b r f, hQ, fun ξ hξ η hη => ?_⟩
  have e : (bilinearImage c : ℝ × ℝ → ℝ × ℝ) = fun p => (quadBilinear c).originalFromRef p.1 p.2 :=
    funext fun p => (bmap_eq _ p).symm
  rw [← bmap_eq, e, bilin_jacobianDet]
  have := weakIntegrand_eq (hcells c (List.mem_of_getElem? hk)) (hψ k c hk t ht) a u b r f (p := (ξ, η)) ⟨hξ, hη⟩
  simp only at this
  rw [this, sub_self, abs_zero]

/-- Residuals of polynomials: the loss is zero exactly for solutions. -/
lemma loss_zero_iff {cells : List Quad} {ty : String} (hty : ty ≠ "jacobi_plain") {N : ℕ}
    {ψ : ℕ → ℕ → ℝ × ℝ → ℝ} (hV : VariationalSetup cells ty N ψ f) (hN : q + m + 2 ≤ N)
    {R : Fin cells.length → Fin (N ^ 2) → ℝ} (hR : ResidualsNear cells N ψ a u b r f (fun _ _ => 0) R) :
    ∑ k, meanSq (R k) = 0 ↔ ∀ c ∈ cells, SolvesOn (interior (cellSet c)) a u b r f := by
  have hρ := fun c (_ : c ∈ cells) => polynomial_defect ha hu hf b r (cellSet c)
  constructor
  · intro h0
    have hb := defectBound_of_residuals hty hV hρ hR
    rw [h0] at hb
    exact fun c hc => ((C84_zero_loss cells hV.convex ty hty N a u b r f _ hρ (fun c _ =>
      ⟨_, (density_isQ ha hu hf b r c).mono' fun i j h => ⟨by omega, by omega⟩, fun _ _ => rfl⟩) hb c hc).2).solves
  · intro hs
    have hcl : ∀ c ∈ cells, ClassicalSolution (cellSet c) a u b r f := fun c hc =>
      ⟨(hρ c hc).solves.smooth, (hρ c hc).solves.coefficient, (hρ c hc).solves.fluxX, (hρ c hc).solves.fluxY,
        hs c hc⟩
    obtain ⟨h1, h2⟩ := loss_small hV hty hcl hR
    exact le_antisymm (by simpa using h2) h1

end Polynomials

section PolynomialLoss

variable {V : Type} {cells : List Quad} {s : FESettings} {ψ : ℕ → ℕ → ℝ × ℝ → ℝ} {f : ℝ → ℝ → ℝ} {nq : ℕ}
  {S : Fespace2D (ℝ → ℝ → ℝ) V (s.feOrder.toNat ^ 2) nq} {D : DataHandler2D (s.feOrder.toNat ^ 2) nq}
  (hR : Discretised cells f s S D) (hcells : ∀ c ∈ cells, ConvexCCW c) (hty : s.feType ≠ "jacobi_plain")
  (bdv : List (ℝ × ℝ) × List ℝ)

include hR hcells hty

/-- **C84** (polynomials).  Let network and forcing function be polynomials of total degree at most `m`, let
the order `N` of the test space be at least `m + 2`, and the degree of the rule at least `m + N + 2`.  Then the
PDE loss that `DenseModel` reports, and the loss that `DenseModel_Hard` reports, is zero if and only if the
equation holds in the interior of every cell. -/
theorem C84_polynomial_iff (kind : LossKind) (hk : kind.forward) (p : ParamDict) (e : ℝ)
    (b : ℝ × ℝ) (r : ℝ) (hco : ConstantCoefficients kind p e b r) (m : ℕ) (u : ℝ × ℝ → ℝ)
    (hu : IsPolynomial (fun i j => i + j ≤ m) u) (hf : IsPolynomial (fun i j => i + j ≤ m) fun z => f z.1 z.2)
    (hN : m + 2 ≤ s.feOrder.toNat) (hd : m + s.feOrder.toNat + 2 ≤ ruleDegree s.quadType s.quadOrder)
    (net : Network 1) (hnet : RowWise net (fun _ => u)) (beta : ℝ) :
    ∃ out outH, trainStepDense (lossOf kind _ _ _) (modelDataOf D bdv S.nCells) net beta p = .ok out ∧
      trainStepHard (lossOf kind _ _ _) (modelDataOf D bdv S.nCells) net beta p = .ok outH ∧
      (out.lossPde = 0 ↔ ∀ c ∈ cells, SolvesOn (interior (cellSet c)) (fun _ => e) u b r f) ∧
      (outH.loss = 0 ↔ ∀ c ∈ cells, SolvesOn (interior (cellSet c)) (fun _ => e) u b r f) := by
  obtain ⟨ψ, hψ⟩ := testFunctions_exist cells hcells s.feType s.feOrder.toNat
  have hV : VariationalSetup cells s.feType s.feOrder.toNat ψ f :=
    ⟨hcells, hψ, fun c _ => hf.differentiable.continuous.continuousOn⟩
  have ha : IsPolynomial (fun i j => i + j ≤ 0) fun _ : ℝ × ℝ => e := ⟨[(e, 0, 0)], by simp, by simp⟩
  have hf' : IsPolynomial (fun i j => i + j ≤ 0 + m) fun z => f z.1 z.2 := hf.mono' fun i j h => by omega
  obtain ⟨out, outH, R, h1, h2, h3, h4, h5⟩ := C69_train_step hV hR bdv kind hk p e b r hco u
    (fun c _ => (polynomial_defect ha hu hf' b r (cellSet c)).solves.smooth) _
    (integrandsNear_polynomial ha hu hf' b r hcells hψ (by omega)) net hnet beta
  have := loss_zero_iff ha hu hf' b r hty hV (by omega) h5
  exact ⟨out, outH, h1, h2, by rw [h3]; exact this, by rw [h4]; exact this⟩

/-- **C84** (polynomials, inverse problem with a constant coefficient).  The same for `DenseModel_Inverse`. -/
theorem C84_polynomial_inverse (e : ℝ) (m : ℕ) (u : ℝ × ℝ → ℝ) (hu : IsPolynomial (fun i j => i + j ≤ m) u)
    (hf : IsPolynomial (fun i j => i + j ≤ m) fun z => f z.1 z.2) (hN : m + 2 ≤ s.feOrder.toNat)
    (hd : m + s.feOrder.toNat + 2 ≤ ruleDegree s.quadType s.quadOrder) {nS : ℕ} (sp : Fin nS → ℝ × ℝ)
    (sv : Fin nS → ℝ) (net : Network 1) (hnet : RowWise net (fun _ => u)) (beta : ℝ) (p ip : ParamDict)
    (he : HasParam ip "eps" e) :
    ∃ out, trainStepInverse (lossPoissonInverse _ _ _) (modelDataOf D bdv S.nCells) sp sv ip net beta p
        = .ok out ∧
      (out.lossPde = 0 ↔ ∀ c ∈ cells, SolvesOn (interior (cellSet c)) (fun _ => e) u (0, 0) 0 f) := by
  obtain ⟨ψ, hψ⟩ := testFunctions_exist cells hcells s.feType s.feOrder.toNat
  have hV : VariationalSetup cells s.feType s.feOrder.toNat ψ f :=
    ⟨hcells, hψ, fun c _ => hf.differentiable.continuous.continuousOn⟩
  have ha : IsPolynomial (fun i j => i + j ≤ 0) fun _ : ℝ × ℝ => e := ⟨[(e, 0, 0)], by simp, by simp⟩
  have hf' : IsPolynomial (fun i j => i + j ≤ 0 + m) fun z => f z.1 z.2 := hf.mono' fun i j h => by omega
  obtain ⟨out, R, h1, h2, h3⟩ := C69_inverse hV hR bdv e u
    (fun c _ => (polynomial_defect ha hu hf' (0, 0) 0 (cellSet c)).solves.smooth) _
    (integrandsNear_polynomial ha hu hf' (0, 0) 0 hcells hψ (by omega)) sp sv net hnet beta p ip he
  exact ⟨out, h1, by rw [h2]; exact loss_zero_iff ha hu hf' (0, 0) 0 hty hV (by omega) h3⟩

/-- **C84** (polynomials, inverse problem with a coefficient field).  The same for `DenseModel_Inverse_Domain`,
with a diffusion coefficient that is a polynomial of total degree at most `q`. -/
theorem C84_polynomial_domain (a u : ℝ × ℝ → ℝ) (b : ℝ × ℝ) (r : ℝ) (q m : ℕ)
    (ha : IsPolynomial (fun i j => i + j ≤ q) a) (hu : IsPolynomial (fun i j => i + j ≤ m) u)
    (hf : IsPolynomial (fun i j => i + j ≤ q + m) fun z => f z.1 z.2) (hN : q + m + 2 ≤ s.feOrder.toNat)
    (hd : q + m + s.feOrder.toNat + 2 ≤ ruleDegree s.quadType s.quadOrder) {nS : ℕ} (sp : Fin nS → ℝ × ℝ)
    (sv : Fin nS → ℝ) (net : Network 2) (hnet : RowWise net ![u, a]) (beta : ℝ) (p : ParamDict)
    (hb1 : HasParam p "b_x" b.1) (hb2 : HasParam p "b_y" b.2) (hr' : HasParam p "c" r) :
    ∃ out, trainStepInverseDomain (lossCd2dInverseDomain _ _ _) (modelDataOf D bdv S.nCells) sp sv net
        beta p = .ok out ∧
      (out.lossPde = 0 ↔ ∀ c ∈ cells, SolvesOn (interior (cellSet c)) a u b r f) := by
  obtain ⟨ψ, hψ⟩ := testFunctions_exist cells hcells s.feType s.feOrder.toNat
  have hV : VariationalSetup cells s.feType s.feOrder.toNat ψ f :=
    ⟨hcells, hψ, fun c _ => hf.differentiable.continuous.continuousOn⟩
  have hρ := fun c (_ : c ∈ cells) => polynomial_defect ha hu hf b r (cellSet c)
  obtain ⟨out, R, h1, h2, h3⟩ := C69_inverse_domain hV hR bdv a u b r
    (fun c hc => (hρ c hc).solves.coefficient) (fun c hc => (hρ c hc).solves.smooth) _
    (integrandsNear_polynomial ha hu hf b r hcells hψ hd) sp sv net hnet beta p hb1 hb2 hr'
  exact ⟨out, h1, by rw [h2]; exact loss_zero_iff ha hu hf b r hty hV hN h3⟩

end PolynomialLoss

/-! ### Examples -/

/-- The settings of the examples: order 5, six Gauss points. -/
def defectSettings : FESettings := ⟨"quadrilateral", 5, "jacobi", 6, "gauss-legendre", "bilinear"⟩

lemma defect_space (f : ℝ → ℝ → ℝ) : ∃ nq, ∃ S : Fespace2D (ℝ → ℝ → ℝ) ℝ (defectSettings.feOrder.toNat ^ 2) nq, ∃ D,
    Discretised demoCells f defectSettings S D := by
  obtain ⟨ext, h1, -⟩ := quadRoutines_exist
  have hr : RoutinesOK ext 6 "gauss-legendre" := ⟨fun _ => h1 _ (by decide), fun h => absurd h (by decide)⟩
  obtain ⟨nq, S, h⟩ := (C63_constructor ext [(0, 0), (1, 1)] demoCells demoBoundary defectSettings demoDict
    f).2 ⟨rfl, by simp [demoCells], by simp [defectSettings],
      by simp [defectSettings, supportedFeType], by simp [defectSettings], Or.inl rfl, Or.inl rfl, by
        intro e he _
        simp only [demoBoundary, List.mem_cons, List.not_mem_nil, or_false] at he
        rcases he with rfl | rfl
        · exact ⟨fun x y => x * y, rfl⟩
        · exact ⟨fun x _ => x, rfl⟩⟩
  obtain ⟨-, D, S', hD, -⟩ := C41_layout ext _ _ _ _ _ _ _ S h
  exact ⟨nq, S, D, ⟨ext, _, _, _, _, S', h, hr, hD⟩, fun h => absurd h (by decide)⟩

lemma square_polynomial : IsPolynomial (fun i j => i + j ≤ 2) fun z : ℝ × ℝ => z.1 ^ 2 :=
  ⟨[(1, 2, 0)], by simp, by simp⟩

lemma const_polynomial (m : ℕ) (κ : ℝ) : IsPolynomial (fun i j => i + j ≤ m) fun _ : ℝ × ℝ => κ :=
  ⟨[(κ, 0, 0)], by simp, by simp⟩

/-- The network that is `x²`. -/
def squareNet : Network 1 := fun _ X i _ => (X i).1 ^ 2

lemma square_defect (κ x y : ℝ) :
    strongDefect (fun _ => 1) (fun z => z.1 ^ 2) (0, 0) 0 (fun _ _ => κ) x y = -2 - κ := by
  have e1 : dx (fun z : ℝ × ℝ => z.1 ^ 2) = fun z => 2 * z.1 := by
    funext z
    simp [dx]
  have e2 : dy (fun z : ℝ × ℝ => z.1 ^ 2) = fun _ => 0 := by
    funext z
    simp [dy]
  simp only [strongDefect, e1, e2]
  simp [dx, dy]

/-- For a network that is `x²` and a constant forcing function `κ`, on the unit square and a kite, the loss is
zero exactly for `κ = -2`. -/
example (κ beta : ℝ) (bdv : List (ℝ × ℝ) × List ℝ) :
    ∃ nq, ∃ S : Fespace2D (ℝ → ℝ → ℝ) ℝ (defectSettings.feOrder.toNat ^ 2) nq, ∃ D, ∃ out : TrainOut 1,
      Discretised demoCells (fun _ _ => κ) defectSettings S D ∧
      trainStepDense (lossOf .poisson _ _ _) (modelDataOf D bdv S.nCells) squareNet beta
        (some [("eps", 1)]) = .ok out ∧ (out.lossPde = 0 ↔ κ = -2) := by
  obtain ⟨nq, S, D, hS⟩ := defect_space fun _ _ => κ
  obtain ⟨out, -, h1, -, h2, -⟩ := C84_polynomial_iff hS (fun c hc => (demo_cells_ok c hc).1) (by decide) bdv
    .poisson (Or.inl rfl) (some [("eps", 1)]) 1 (0, 0) 0 ⟨1, ⟨_, rfl, rfl⟩, rfl, rfl, rfl⟩ 2
    (fun z => z.1 ^ 2) square_polynomial (const_polynomial 2 κ) (by decide) (by decide)
    squareNet (fun _ _ _ _ => rfl) beta
  refine ⟨nq, S, D, out, hS, h1, h2.trans ⟨fun h => ?_, fun h c _ z _ => ?_⟩⟩
  · have h3 := h (squareCell 1) (by simp [demoCells]) _
      (bmap_interior (demo_cells_ok _ (by simp [demoCells])).1 (p := (0, 0)) ⟨by norm_num, by norm_num⟩)
    have h4 := square_defect κ (bmap (squareCell 1) (0, 0)).1 (bmap (squareCell 1) (0, 0)).2
    unfold strongDefect at h4
    rw [Prod.mk.eta] at h4
    rw [h3] at h4
    linarith
  · have h4 := square_defect κ z.1 z.2
    unfold strongDefect at h4
    rw [Prod.mk.eta] at h4
    linarith

lemma bubble_zero (x : ℝ) : (testFamily "jacobi" 0).eval x = (3 / 2) * (x ^ 2 - 1) := by
  have h : Nat.choose 4 2 = 6 := by decide
  simp [testFamily, legendreBubble, legendreP, shiftedLegendre, Finset.sum_range_succ, h]
  ring

lemma square_moment : moment (squareCell 1) (fun _ _ => -2) "jacobi" 0 0 = -2 := by
  have hd : ∀ p : ℝ × ℝ, density (squareCell 1) (fun _ _ => -2) p = -1 / 2 := fun p => by
    rw [density_eq]
    simp only [bilinDet, QuadBilinear.xc1, QuadBilinear.xc2, QuadBilinear.xc3, QuadBilinear.yc1,
      QuadBilinear.yc2, QuadBilinear.yc3, squareCell]
    simp
    norm_num
  simp only [moment, hd, bubble_zero]
  rw [integral_const_mul, refSquare_integral_mul (fun s => 3 / 2 * (s ^ 2 - 1)) fun s => 3 / 2 * (s ^ 2 - 1),
    intervalIntegral.integral_const_mul, intervalIntegral.integral_sub (by simp) (by simp), integral_pow]
  norm_num

/-- The hypotheses of `C84_loss_positive` for the same network and forcing function zero: the defect is `-2`, and
the loss is at least `1 / 25`. -/
example (beta : ℝ) (bdv : List (ℝ × ℝ) × List ℝ) :
    ∃ nq, ∃ S : Fespace2D (ℝ → ℝ → ℝ) ℝ (defectSettings.feOrder.toNat ^ 2) nq, ∃ D, ∃ out : TrainOut 1,
      Discretised demoCells (fun _ _ => 0) defectSettings S D ∧
      trainStepDense (lossOf .poisson _ _ _) (modelDataOf D bdv S.nCells) squareNet beta
        (some [("eps", 1)]) = .ok out ∧ 1 / 25 ≤ out.lossPde := by
  obtain ⟨nq, S, D, hS⟩ := defect_space fun _ _ => 0
  have hcells : ∀ c ∈ demoCells, ConvexCCW c := fun c hc => (demo_cells_ok c hc).1
  obtain ⟨ψ, hψ⟩ := testFunctions_exist demoCells hcells defectSettings.feType defectSettings.feOrder.toNat
  have ha : IsPolynomial (fun i j => i + j ≤ 0) fun _ : ℝ × ℝ => (1 : ℝ) := const_polynomial 0 1
  have hρ : ∀ c ∈ demoCells, IsDefect (cellSet c) (fun _ => 1) (fun z => z.1 ^ 2) (0, 0) 0 (fun _ _ => 0)
      fun _ _ => -2 := fun c _ => by
    have := polynomial_defect (f := fun _ _ => 0) ha square_polynomial (const_polynomial _ 0) (0, 0) 0 (cellSet c)
    have e : strongDefect (fun _ => 1) (fun z => z.1 ^ 2) (0, 0) 0 (fun _ _ => (0 : ℝ)) = fun _ _ => -2 := by
      funext x y
      rw [square_defect]
      norm_num
    rwa [e] at this
  have hnear := integrandsNear_polynomial (f := fun _ _ => 0) ha square_polynomial (const_polynomial _ 0) (0, 0) 0 hcells hψ
    (d := ruleDegree defectSettings.quadType defectSettings.quadOrder) (by decide)
  obtain ⟨out, -, h1, -, h2, -⟩ := C84_loss_positive demoCells "jacobi" (by decide) .poisson (Or.inl rfl)
    (some [("eps", 1)]) 1 (0, 0) 0 ⟨1, ⟨_, rfl, rfl⟩, rfl, rfl, rfl⟩ (fun z => z.1 ^ 2) (fun _ _ => 0)
    (fun _ _ => -2) hρ (squareCell 1) (by simp [demoCells]) 0 0 defectSettings rfl (by decide) (by decide) S D hS
    ψ ⟨hcells, hψ, fun _ _ => continuousOn_const⟩ (fun k c hk t ht => by
      obtain ⟨P, hP, h⟩ := hnear k c hk t ht
      exact ⟨P, hP, fun ξ hξ η hη => (h ξ hξ η hη).trans (by positivity)⟩) bdv
    squareNet (fun _ _ _ _ => rfl) beta
  refine ⟨nq, S, D, out, hS, h1, le_trans ?_ h2⟩
  rw [square_moment, show defectSettings.feOrder.toNat = 5 from rfl]
  norm_num

/-- The hypotheses of `C84_polynomial_domain`: the solution `x²` with the coefficient `1 + x`. -/
example (beta : ℝ) (bdv : List (ℝ × ℝ) × List ℝ) {nS : ℕ} (sp : Fin nS → ℝ × ℝ) (sv : Fin nS → ℝ) :
    ∃ nq, ∃ S : Fespace2D (ℝ → ℝ → ℝ) ℝ (defectSettings.feOrder.toNat ^ 2) nq, ∃ D, ∃ out : TrainOutInverse 1,
      Discretised demoCells (fun x _ => -2 - 4 * x) defectSettings S D ∧
      trainStepInverseDomain (lossCd2dInverseDomain _ _ _) (modelDataOf D bdv S.nCells) sp sv
        (fun _ X i => ![(X i).1 ^ 2, 1 + (X i).1]) beta (some [("b_x", 0), ("b_y", 0), ("c", 0)]) = .ok out ∧
      out.lossPde = 0 := by
  obtain ⟨nq, S, D, hS⟩ := defect_space fun x _ => -2 - 4 * x
  obtain ⟨out, h1, h2⟩ := C84_polynomial_domain hS (fun c hc => (demo_cells_ok c hc).1) (by decide) bdv
    (fun z => 1 + z.1) (fun z => z.1 ^ 2) (0, 0) 0 1 2 ⟨[(1, 0, 0), (1, 1, 0)], by simp, by simp⟩
    square_polynomial ⟨[(-2, 0, 0), (-4, 1, 0)], by simp, fun z => by simp; ring⟩ (by decide) (by decide) sp sv
    (fun _ X i => ![(X i).1 ^ 2, 1 + (X i).1]) (fun n X i j => by fin_cases j <;> rfl) beta
    (some [("b_x", 0), ("b_y", 0), ("c", 0)]) ⟨_, rfl, rfl⟩ ⟨_, rfl, rfl⟩ ⟨_, rfl, rfl⟩
  refine ⟨nq, S, D, out, hS, h1, h2.2 fun c _ z _ => ?_⟩
  have e1 : dx (fun z : ℝ × ℝ => z.1 ^ 2) = fun z => 2 * z.1 := by
    funext z
    simp [dx]
  have e2 : dy (fun z : ℝ × ℝ => z.1 ^ 2) = fun _ => 0 := by
    funext z
    simp [dy]
  have e3 : dx (fun z : ℝ × ℝ => (1 + z.1) * (2 * z.1)) z = 2 + 4 * z.1 := by
    refine (((hasDerivAt_id z.1).const_add 1).mul ((hasDerivAt_id z.1).const_mul 2)).deriv.trans ?_
    simp
    ring
  simp only [e1, e2, e3]
  simp [dy]
  ring

end FastVPINNs
