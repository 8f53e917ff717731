import Verif.Lemmas.Basis
import Mathlib.Algebra.Polynomial.Sequence
import Mathlib.Algebra.Polynomial.Roots

/-! # Consequences of the tensor structure; independence and span -/

namespace FastVPINNs

open Polynomial

lemma index_split {N : ℕ} (k : Fin (N ^ 2)) :
    k.val / N < N ∧ k.val % N < N ∧ k.val = N * (k.val / N) + k.val % N := by
  have hk := k.isLt
  have hN : 0 < N := by
    rcases Nat.eq_zero_or_pos N with h | h
    · subst h; simp at hk
    · exact h
  refine ⟨?_, Nat.mod_lt _ hN, (Nat.div_add_mod _ _).symm⟩
  rw [Nat.div_lt_iff_lt_mul hN]
  simpa [sq] using hk

lemma hasDerivAt_left (p : ℝ[X]) (c x : ℝ) :
    HasDerivAt (fun s => p.eval s * c) ((derivative p).eval x * c) x :=
  (p.hasDerivAt x).mul_const c

lemma hasDerivAt_right (p : ℝ[X]) (c x : ℝ) :
    HasDerivAt (fun s => c * p.eval s) (c * (derivative p).eval x) x :=
  (p.hasDerivAt x).const_mul c

lemma derivativesCorrect_of_tensor {N : ℕ} {B : BasisFunction2D (N ^ 2)} {φ : ℕ → ℝ[X]}
    (h : Spec.IsTensorBasis N B φ) : Spec.DerivativesCorrect B := by
  constructor <;> intro q xi eta k p <;> obtain ⟨hi, hj, hk⟩ := index_split k
  · simp only [h.value _ _ p _ _ k hi hj hk, h.gradx _ _ p _ _ k hi hj hk, Function.update_self]
    exact hasDerivAt_left _ _ _
  · simp only [h.value _ _ p _ _ k hi hj hk, h.grady _ _ p _ _ k hi hj hk, Function.update_self]
    exact hasDerivAt_right _ _ _
  · simp only [h.gradx _ _ p _ _ k hi hj hk, h.gradxx _ _ p _ _ k hi hj hk, Function.update_self]
    exact hasDerivAt_left _ _ _
  · simp only [h.gradx _ _ p _ _ k hi hj hk, h.gradxy _ _ p _ _ k hi hj hk, Function.update_self]
    exact hasDerivAt_right _ _ _
  · simp only [h.grady _ _ p _ _ k hi hj hk, h.gradxy _ _ p _ _ k hi hj hk, Function.update_self]
    exact hasDerivAt_left _ _ _
  · simp only [h.grady _ _ p _ _ k hi hj hk, h.gradyy _ _ p _ _ k hi hj hk, Function.update_self]
    exact hasDerivAt_right _ _ _

lemma vanish_of_tensor {N : ℕ} {B : BasisFunction2D (N ^ 2)} {φ : ℕ → ℝ[X]}
    (h : Spec.IsTensorBasis N B φ) (h1 : ∀ i, (φ i).eval 1 = 0) (h2 : ∀ i, (φ i).eval (-1) = 0)
    {q : ℕ} (xi eta : Fin q → ℝ) (k : Fin (N ^ 2)) (p : Fin q)
    (hb : Spec.OnReferenceBoundary (xi p) (eta p)) : B.value xi eta k p = 0 := by
  obtain ⟨hi, hj, hk⟩ := index_split k
  rw [h.value _ _ p _ _ k hi hj hk]
  rcases hb with ⟨h | h, -⟩ | ⟨h | h, -⟩ <;> simp [h, h1, h2]

/-- Two bases with the same one-dimensional functions have the same six matrices. -/
lemma eq_of_tensor {N : ℕ} {B B' : BasisFunction2D (N ^ 2)} {φ : ℕ → ℝ[X]}
    (h : Spec.IsTensorBasis N B φ) (h' : Spec.IsTensorBasis N B' φ)
    {q : ℕ} (xi eta : Fin q → ℝ) :
    B.value xi eta = B'.value xi eta ∧ B.gradx xi eta = B'.gradx xi eta ∧
    B.grady xi eta = B'.grady xi eta ∧ B.gradxx xi eta = B'.gradxx xi eta ∧
    B.gradxy xi eta = B'.gradxy xi eta ∧ B.gradyy xi eta = B'.gradyy xi eta := by
  refine ⟨?_, ?_, ?_, ?_, ?_, ?_⟩ <;> ext k p <;> obtain ⟨hi, hj, hk⟩ := index_split k
  · rw [h.value _ _ p _ _ k hi hj hk, h'.value _ _ p _ _ k hi hj hk]
  · rw [h.gradx _ _ p _ _ k hi hj hk, h'.gradx _ _ p _ _ k hi hj hk]
  · rw [h.grady _ _ p _ _ k hi hj hk, h'.grady _ _ p _ _ k hi hj hk]
  · rw [h.gradxx _ _ p _ _ k hi hj hk, h'.gradxx _ _ p _ _ k hi hj hk]
  · rw [h.gradxy _ _ p _ _ k hi hj hk, h'.gradxy _ _ p _ _ k hi hj hk]
  · rw [h.gradyy _ _ p _ _ k hi hj hk, h'.gradyy _ _ p _ _ k hi hj hk]

/-! ### The four bases are tensor bases -/

/-- Evaluation of `φ i`, of its derivative and of its second derivative. -/
noncomputable abbrev ev0 (φ : ℕ → ℝ[X]) : ℕ → ℝ → ℝ := fun i x => (φ i).eval x
noncomputable abbrev ev1 (φ : ℕ → ℝ[X]) : ℕ → ℝ → ℝ := fun i x => (derivative (φ i)).eval x
noncomputable abbrev ev2 (φ : ℕ → ℝ[X]) : ℕ → ℝ → ℝ :=
  fun i x => (derivative (derivative (φ i))).eval x

theorem legendre_tensor (N : ℕ) :
    Spec.IsTensorBasis N (Basis2DQNLegendre (N ^ 2)) Spec.legendreBubble where
  value _ _ p _ _ k hi hj hk := fill_sq Legendre.testFcnx Legendre.testFcny
    (ev0 Spec.legendreBubble) (ev0 Spec.legendreBubble)
    Legendre.testFcnx_eq Legendre.testFcny_eq _ _ p _ _ k hi hj hk
  gradx _ _ p _ _ k hi hj hk := fill_sq Legendre.dtestFcn Legendre.testFcny
    (ev1 Spec.legendreBubble) (ev0 Spec.legendreBubble)
    Legendre.dtestFcn_eq Legendre.testFcny_eq _ _ p _ _ k hi hj hk
  grady _ _ p _ _ k hi hj hk := fill_sq Legendre.testFcnx Legendre.dtestFcn
    (ev0 Spec.legendreBubble) (ev1 Spec.legendreBubble)
    Legendre.testFcnx_eq Legendre.dtestFcn_eq _ _ p _ _ k hi hj hk
  gradxx _ _ p _ _ k hi hj hk := fill_sq Legendre.ddtestFcn Legendre.testFcny
    (ev2 Spec.legendreBubble) (ev0 Spec.legendreBubble)
    Legendre.ddtestFcn_eq Legendre.testFcny_eq _ _ p _ _ k hi hj hk
  gradxy _ _ p _ _ k hi hj hk := fill_sq Legendre.dtestFcn Legendre.dtestFcn
    (ev1 Spec.legendreBubble) (ev1 Spec.legendreBubble)
    Legendre.dtestFcn_eq Legendre.dtestFcn_eq _ _ p _ _ k hi hj hk
  gradyy _ _ p _ _ k hi hj hk := fill_sq Legendre.testFcnx Legendre.ddtestFcn
    (ev0 Spec.legendreBubble) (ev2 Spec.legendreBubble)
    Legendre.testFcnx_eq Legendre.ddtestFcn_eq _ _ p _ _ k hi hj hk

theorem legendreSpecial_tensor (N : ℕ) :
    Spec.IsTensorBasis N (Basis2DQNLegendreSpecial (N ^ 2)) Spec.legendreBubble where
  value _ _ p _ _ k hi hj hk := fill_sq LegendreSpecial.testFcn LegendreSpecial.testFcn
    (ev0 Spec.legendreBubble) (ev0 Spec.legendreBubble)
    LegendreSpecial.testFcn_eq LegendreSpecial.testFcn_eq _ _ p _ _ k hi hj hk
  gradx _ _ p _ _ k hi hj hk := fill_sq LegendreSpecial.testGradFcn LegendreSpecial.testFcn
    (ev1 Spec.legendreBubble) (ev0 Spec.legendreBubble)
    LegendreSpecial.testGradFcn_eq LegendreSpecial.testFcn_eq _ _ p _ _ k hi hj hk
  grady _ _ p _ _ k hi hj hk := fill_sq LegendreSpecial.testFcn LegendreSpecial.testGradFcn
    (ev0 Spec.legendreBubble) (ev1 Spec.legendreBubble)
    LegendreSpecial.testFcn_eq LegendreSpecial.testGradFcn_eq _ _ p _ _ k hi hj hk
  gradxx _ _ p _ _ k hi hj hk := fill_sq LegendreSpecial.testGradGradFcn LegendreSpecial.testFcn
    (ev2 Spec.legendreBubble) (ev0 Spec.legendreBubble)
    LegendreSpecial.testGradGradFcn_eq LegendreSpecial.testFcn_eq _ _ p _ _ k hi hj hk
  gradxy _ _ p _ _ k hi hj hk := fill_sq LegendreSpecial.testGradFcn LegendreSpecial.testGradFcn
    (ev1 Spec.legendreBubble) (ev1 Spec.legendreBubble)
    LegendreSpecial.testGradFcn_eq LegendreSpecial.testGradFcn_eq _ _ p _ _ k hi hj hk
  gradyy _ _ p _ _ k hi hj hk := fill_sq LegendreSpecial.testFcn LegendreSpecial.testGradGradFcn
    (ev0 Spec.legendreBubble) (ev2 Spec.legendreBubble)
    LegendreSpecial.testFcn_eq LegendreSpecial.testGradGradFcn_eq _ _ p _ _ k hi hj hk

theorem chebyshev_tensor (N : ℕ) :
    Spec.IsTensorBasis N (Basis2DQNChebyshev2 (N ^ 2)) Spec.chebyshevBubble where
  value _ _ p _ _ k hi hj hk := fill_sq Chebyshev2.testFcnx Chebyshev2.testFcny
    (ev0 Spec.chebyshevBubble) (ev0 Spec.chebyshevBubble)
    Chebyshev2.testFcnx_eq Chebyshev2.testFcny_eq _ _ p _ _ k hi hj hk
  gradx _ _ p _ _ k hi hj hk := fill_sq Chebyshev2.dtestFcn Chebyshev2.testFcny
    (ev1 Spec.chebyshevBubble) (ev0 Spec.chebyshevBubble)
    Chebyshev2.dtestFcn_eq Chebyshev2.testFcny_eq _ _ p _ _ k hi hj hk
  grady _ _ p _ _ k hi hj hk := fill_sq Chebyshev2.testFcnx Chebyshev2.dtestFcn
    (ev0 Spec.chebyshevBubble) (ev1 Spec.chebyshevBubble)
    Chebyshev2.testFcnx_eq Chebyshev2.dtestFcn_eq _ _ p _ _ k hi hj hk
  gradxx _ _ p _ _ k hi hj hk := fill_sq Chebyshev2.ddtestFcn Chebyshev2.testFcny
    (ev2 Spec.chebyshevBubble) (ev0 Spec.chebyshevBubble)
    Chebyshev2.ddtestFcn_eq Chebyshev2.testFcny_eq _ _ p _ _ k hi hj hk
  gradxy _ _ p _ _ k hi hj hk := fill_sq Chebyshev2.dtestFcn Chebyshev2.dtestFcn
    (ev1 Spec.chebyshevBubble) (ev1 Spec.chebyshevBubble)
    Chebyshev2.dtestFcn_eq Chebyshev2.dtestFcn_eq _ _ p _ _ k hi hj hk
  gradyy _ _ p _ _ k hi hj hk := fill_sq Chebyshev2.testFcnx Chebyshev2.ddtestFcn
    (ev0 Spec.chebyshevBubble) (ev2 Spec.chebyshevBubble)
    Chebyshev2.testFcnx_eq Chebyshev2.ddtestFcn_eq _ _ p _ _ k hi hj hk

theorem jacobiPlain_tensor (N : ℕ) :
    Spec.IsTensorBasis N (Basis2DQNJacobi (N ^ 2)) Spec.legendrePlain where
  value _ _ p _ _ k hi hj hk := fill_sq JacobiPlain.testFcnx JacobiPlain.testFcny
    (ev0 Spec.legendrePlain) (ev0 Spec.legendrePlain)
    JacobiPlain.testFcnx_eq JacobiPlain.testFcny_eq _ _ p _ _ k hi hj hk
  gradx _ _ p _ _ k hi hj hk := fill_sq JacobiPlain.dtestFcn JacobiPlain.testFcny
    (ev1 Spec.legendrePlain) (ev0 Spec.legendrePlain)
    JacobiPlain.dtestFcn_eq JacobiPlain.testFcny_eq _ _ p _ _ k hi hj hk
  grady _ _ p _ _ k hi hj hk := fill_sq JacobiPlain.testFcnx JacobiPlain.dtestFcn
    (ev0 Spec.legendrePlain) (ev1 Spec.legendrePlain)
    JacobiPlain.testFcnx_eq JacobiPlain.dtestFcn_eq _ _ p _ _ k hi hj hk
  gradxx _ _ p _ _ k hi hj hk := fill_sq JacobiPlain.ddtestFcn JacobiPlain.testFcny
    (ev2 Spec.legendrePlain) (ev0 Spec.legendrePlain)
    JacobiPlain.ddtestFcn_eq JacobiPlain.testFcny_eq _ _ p _ _ k hi hj hk
  gradxy _ _ p _ _ k hi hj hk := fill_sq JacobiPlain.dtestFcn JacobiPlain.dtestFcn
    (ev1 Spec.legendrePlain) (ev1 Spec.legendrePlain)
    JacobiPlain.dtestFcn_eq JacobiPlain.dtestFcn_eq _ _ p _ _ k hi hj hk
  gradyy _ _ p _ _ k hi hj hk := fill_sq JacobiPlain.testFcnx JacobiPlain.ddtestFcn
    (ev0 Spec.legendrePlain) (ev2 Spec.legendrePlain)
    JacobiPlain.testFcnx_eq JacobiPlain.ddtestFcn_eq _ _ p _ _ k hi hj hk

/-! ### End-point values and degrees -/

lemma legendreBubble_one (i : ℕ) : (Spec.legendreBubble i).eval 1 = 0 := by
  simp [Spec.legendreBubble, legendreP_eval_one]

lemma legendreBubble_neg_one (i : ℕ) : (Spec.legendreBubble i).eval (-1) = 0 := by
  simp [Spec.legendreBubble, legendreP_eval_neg_one, pow_add]

lemma chebyshevBubble_one (i : ℕ) : (Spec.chebyshevBubble i).eval 1 = 0 := by
  simp only [Spec.chebyshevBubble, eval_sub, Chebyshev.T_eval_one, sub_self]

lemma chebyshevBubble_neg_one (i : ℕ) : (Spec.chebyshevBubble i).eval (-1) = 0 := by
  simp only [Spec.chebyshevBubble, eval_sub, Chebyshev.T_eval_neg_one]
  push_cast
  rw [Int.negOnePow_add, Int.negOnePow_even 2 (by norm_num)]
  simp

lemma natDegree_legendreP (n : ℕ) : (legendreP n).natDegree = n := by
  rw [legendreP, natDegree_comp, natDegree_map_eq_of_injective (RingHom.injective_int _),
    natDegree_shiftedLegendre]
  have : (C (1 / 2) * (1 - X) : ℝ[X]).natDegree = 1 := by
    have : (C (1 / 2) * (1 - X) : ℝ[X]) = C (-1 / 2) * X + C (1 / 2) := by
      rw [show (-1 / 2 : ℝ) = -(1 / 2) by norm_num, C_neg]; ring
    rw [this]
    exact natDegree_linear (by norm_num)
  rw [this, mul_one]

lemma legendreP_ne_zero (n : ℕ) : legendreP n ≠ 0 := by
  intro h
  have := legendreP_eval_one n
  rw [h] at this
  simp at this

lemma degree_legendreP (n : ℕ) : (legendreP n).degree = n := by
  rw [degree_eq_natDegree (legendreP_ne_zero n), natDegree_legendreP]

lemma degree_legendreBubble (i : ℕ) : (Spec.legendreBubble i).degree = (i + 2 : ℕ) := by
  rw [Spec.legendreBubble, degree_sub_eq_left_of_degree_lt, degree_legendreP]
  rw [degree_legendreP, degree_legendreP]
  exact_mod_cast Nat.lt_add_of_pos_right (by norm_num)

lemma degree_chebyshevBubble (i : ℕ) : (Spec.chebyshevBubble i).degree = (i + 2 : ℕ) := by
  rw [Spec.chebyshevBubble, degree_sub_eq_left_of_degree_lt, Chebyshev.degree_T]
  · simp only [Int.natAbs_natCast]
  · rw [Chebyshev.degree_T, Chebyshev.degree_T]
    simp only [Int.natAbs_natCast]
    exact_mod_cast Nat.lt_add_of_pos_right (by norm_num)

/-- Any bubbles of degree `i+2` are linearly independent. -/
lemma bubbles_independent (φ : ℕ → ℝ[X]) (hd : ∀ i, (φ i).degree = (i + 2 : ℕ)) :
    LinearIndependent ℝ φ := by
  let S : Polynomial.Sequence ℝ :=
    { elems' := fun n => match n with
        | 0 => 1
        | 1 => X
        | i + 2 => φ i
      degree_eq' := by
        intro n
        match n with
        | 0 => simp
        | 1 => simp
        | i + 2 => exact hd i }
  have h := S.linearIndependent
  exact h.comp (fun i => i + 2) (fun a b hab => by simpa using hab)

/-- A polynomial of degree at most `N+1` that vanishes at `±1` is a combination of the first `N`
bubbles. -/
lemma bubbles_span (φ : ℕ → ℝ[X]) (hd : ∀ i, (φ i).degree = (i + 2 : ℕ))
    (h1 : ∀ i, (φ i).eval 1 = 0) (h2 : ∀ i, (φ i).eval (-1) = 0) (N : ℕ) (p : ℝ[X])
    (hp : p.natDegree ≤ N + 1) (hp1 : p.eval 1 = 0) (hp2 : p.eval (-1) = 0) :
    ∃ c : ℕ → ℝ, p = ∑ i ∈ Finset.range N, C (c i) * φ i := by
  induction N generalizing p with
  | zero =>
    refine ⟨0, ?_⟩
    simp only [Finset.range_zero, Finset.sum_empty]
    by_contra hne
    have hsub : ({1, -1} : Finset ℝ) ⊆ p.roots.toFinset := by
      intro x hx
      simp only [Finset.mem_insert, Finset.mem_singleton] at hx
      rw [Multiset.mem_toFinset, mem_roots hne]
      rcases hx with rfl | rfl
      · exact hp1
      · exact hp2
    have hc : ({1, -1} : Finset ℝ).card = 2 := by
      rw [Finset.card_pair]; norm_num
    have := Finset.card_le_card hsub
    have := p.roots.toFinset_card_le
    have := p.card_roots'
    omega
  | succ N ih =>
    have hlc : (φ N).coeff (N + 2) ≠ 0 := by
      have := hd N
      exact coeff_ne_zero_of_eq_degree this
    obtain ⟨c, hc⟩ := ih (p - C (p.coeff (N + 2) / (φ N).coeff (N + 2)) * φ N) (by
        rw [natDegree_le_iff_coeff_eq_zero]
        intro m hm
        rw [coeff_sub, coeff_C_mul]
        rcases Nat.lt_or_ge (N + 2) m with h | h
        · rw [coeff_eq_zero_of_natDegree_lt (by omega : p.natDegree < m),
            coeff_eq_zero_of_degree_lt (p := φ N) (n := m) (by rw [hd N]; exact_mod_cast h)]
          simp
        · have : m = N + 2 := by omega
          subst this
          field_simp
          simp) (by simp [hp1, h1]) (by simp [hp2, h2])
    refine ⟨Function.update c N (p.coeff (N + 2) / (φ N).coeff (N + 2)), ?_⟩
    rw [Finset.sum_range_succ, Function.update_self]
    rw [Finset.sum_congr rfl (g := fun i => C (c i) * φ i) (fun i hi => by
      rw [Function.update_of_ne (by simp at hi; omega)]), ← hc]
    ring

/-- A polynomial vanishing on `[-1,1]` is zero. -/
lemma eq_zero_of_eval_zero_on (p : ℝ[X]) (h : ∀ x ∈ Set.Icc (-1 : ℝ) 1, p.eval x = 0) : p = 0 := by
  apply Polynomial.eq_zero_of_infinite_isRoot
  apply Set.Infinite.mono (s := Set.Icc (-1 : ℝ) 1)
  · intro x hx; exact h x hx
  · exact Set.Icc_infinite (by norm_num)

/-- Products of linearly independent polynomials are linearly independent as functions on the
square. -/
lemma products_independent {N : ℕ} (φ : ℕ → ℝ[X]) (hφ : LinearIndependent ℝ φ)
    (c : ℕ → ℕ → ℝ)
    (h : ∀ x ∈ Set.Icc (-1 : ℝ) 1, ∀ y ∈ Set.Icc (-1 : ℝ) 1,
      ∑ i ∈ Finset.range N, ∑ j ∈ Finset.range N, c i j * ((φ i).eval x * (φ j).eval y) = 0)
    (i j : ℕ) (hi : i < N) (hj : j < N) : c i j = 0 := by
  have key : ∀ y ∈ Set.Icc (-1 : ℝ) 1, ∀ i < N, ∑ j ∈ Finset.range N, c i j * (φ j).eval y = 0 := by
    intro y hy
    have hz : ∑ i ∈ Finset.range N, (∑ j ∈ Finset.range N, c i j * (φ j).eval y) • φ i = 0 := by
      apply eq_zero_of_eval_zero_on
      intro x hx
      rw [eval_finsetSum]
      have := h x hx y hy
      rw [← this]
      apply Finset.sum_congr rfl
      intro i _
      rw [eval_smul, smul_eq_mul, Finset.sum_mul]
      apply Finset.sum_congr rfl
      intro j _
      ring
    intro i hi
    exact (linearIndependent_iff'.1 hφ) _ _ hz i (Finset.mem_range.2 hi)
  have hz : ∑ j ∈ Finset.range N, c i j • φ j = 0 := by
    apply eq_zero_of_eval_zero_on
    intro y hy
    rw [eval_finsetSum]
    simpa [eval_smul] using key y hy i hi
  exact (linearIndependent_iff'.1 hφ) _ _ hz j (Finset.mem_range.2 hj)

lemma tensor_independent {N : ℕ} {B : BasisFunction2D (N ^ 2)} {φ : ℕ → ℝ[X]}
    (h : Spec.IsTensorBasis N B φ) (hφ : LinearIndependent ℝ φ) (c : Fin (N ^ 2) → ℝ)
    (hc : ∀ x ∈ Set.Icc (-1 : ℝ) 1, ∀ y ∈ Set.Icc (-1 : ℝ) 1,
      ∑ k, c k * B.value (q := 1) (fun _ => x) (fun _ => y) k 0 = 0) : c = 0 := by
  have hlt : ∀ i j, i < N → j < N → N * i + j < N ^ 2 := by
    intro i j hi hj
    calc N * i + j < N * i + N := by omega
      _ = N * (i + 1) := by ring
      _ ≤ N * N := Nat.mul_le_mul_left _ hi
      _ = N ^ 2 := by ring
  have key := products_independent (N := N) φ hφ
    (fun i j => if hij : N * i + j < N ^ 2 then c ⟨N * i + j, hij⟩ else 0) (by
      intro x hx y hy
      rw [← hc x hx y hy]
      rw [← Finset.sum_product']
      symm
      apply Finset.sum_bij (fun (k : Fin (N ^ 2)) _ => (k.val / N, k.val % N))
      · intro k _
        obtain ⟨hi, hj, hk⟩ := index_split k
        simp [hi, hj]
      · intro a _ b _ hab
        obtain ⟨_, _, ha⟩ := index_split a
        obtain ⟨_, _, hb⟩ := index_split b
        simp only [Prod.mk.injEq] at hab
        ext
        rw [ha, hb, hab.1, hab.2]
      · intro ⟨i, j⟩ hij
        simp only [Finset.mem_product, Finset.mem_range] at hij
        refine ⟨⟨N * i + j, hlt i j hij.1 hij.2⟩, Finset.mem_univ _, ?_⟩
        have hN : 0 < N := by omega
        simp only [Prod.mk.injEq]
        constructor
        · rw [Nat.mul_add_div hN, Nat.div_eq_of_lt hij.2, add_zero]
        · rw [Nat.mul_add_mod, Nat.mod_eq_of_lt hij.2]
      · intro k _
        obtain ⟨hi, hj, hk⟩ := index_split k
        rw [h.value _ _ _ _ _ k hi hj hk]
        simp only [← hk, k.isLt, dite_true])
  ext k
  obtain ⟨hi, hj, hk⟩ := index_split k
  have := key _ _ hi hj
  simpa [← hk, k.isLt] using this

end FastVPINNs
