import Verif.Lemmas.Legendre

/-! # The Gauss–Lobatto rule -/

namespace FastVPINNs

open Polynomial

/-- `(1 - x²) P_N'`, whose roots are the Lobatto nodes. -/
noncomputable def lobattoPoly (N : ℕ) : ℝ[X] := (1 - X ^ 2) * derivative (legendreP N)

lemma derivative_lobattoPoly (N : ℕ) :
    derivative (lobattoPoly N) = C (-(N * (N + 1) : ℝ)) * legendreP N := legendre_ode N

lemma lobattoPoly_one (N : ℕ) : (lobattoPoly N).eval 1 = 0 := by simp [lobattoPoly]
lemma lobattoPoly_neg_one (N : ℕ) : (lobattoPoly N).eval (-1) = 0 := by simp [lobattoPoly]

lemma lobattoPoly_natDegree_le (N : ℕ) (hN : 1 ≤ N) : (lobattoPoly N).natDegree ≤ N + 1 := by
  refine natDegree_mul_le.trans ?_
  have h1 := natDegree_derivative_le (legendreP N)
  rw [natDegree_legendreP] at h1
  have h2 : (1 - X ^ 2 : ℝ[X]).natDegree ≤ 2 :=
    (natDegree_sub_le _ _).trans (by simp)
  omega

lemma lobattoPoly_coeff (N : ℕ) (hN : 1 ≤ N) :
    (lobattoPoly N).coeff (N + 1) = -(N * (legendreP N).coeff N) := by
  obtain ⟨n, rfl⟩ : ∃ n, N = n + 1 := ⟨N - 1, by omega⟩
  rw [lobattoPoly, sub_mul, one_mul, coeff_sub, coeff_X_pow_mul, coeff_derivative,
    coeff_derivative, coeff_eq_zero_of_natDegree_lt (n := n + 1 + 1 + 1)
      (by rw [natDegree_legendreP]; omega)]
  push_cast; ring

/-- Antiderivative of a polynomial. -/
lemma exists_antiderivative (p : ℝ[X]) (n : ℕ) (hp : p.natDegree ≤ n) :
    ∃ T : ℝ[X], derivative T = p ∧ T.natDegree ≤ n + 1 ∧ (n + 1) * T.coeff (n + 1) = p.coeff n := by
  refine ⟨∑ i ∈ Finset.range (n + 1), C (p.coeff i / (i + 1)) * X ^ (i + 1), ?_, ?_, ?_⟩
  · rw [derivative_sum]
    conv_rhs => rw [p.as_sum_range' (n + 1) (by omega)]
    apply Finset.sum_congr rfl
    intro i _
    rw [derivative_C_mul, derivative_X_pow, ← mul_assoc, ← C_mul, ← C_mul_X_pow_eq_monomial]
    congr 2
    push_cast
    field_simp
  · refine natDegree_sum_le_of_forall_le _ _ ?_
    intro i hi
    simp only [Finset.mem_range] at hi
    exact (natDegree_C_mul_X_pow_le _ _).trans (by omega)
  · rw [finsetSum_coeff]
    simp only [coeff_C_mul, coeff_X_pow]
    rw [Finset.sum_eq_single n]
    · simp; field_simp
    · intro b _ hb
      simp [show ¬ n = b from fun h => hb h.symm]
    · simp

/-- `(1 - x²) P_N'` is orthogonal to polynomials of degree `≤ N - 2`, and its product with a
polynomial of degree `N - 1` integrates to a multiple of `∫ P_N²`. -/
lemma integ_lobattoPoly_mul (n : ℕ) (S : ℝ[X]) (hS : S.natDegree ≤ n) :
    (legendreP (n + 1)).coeff (n + 1) * integ (lobattoPoly (n + 1) * S)
      = (n + 2) * S.coeff n * integ (legendreP (n + 1) * legendreP (n + 1)) := by
  obtain ⟨T, hT, hTd, hTc⟩ := exists_antiderivative S n hS
  have hc : (legendreP (n + 1)).coeff (n + 1) ≠ 0 :=
    coeff_ne_zero_of_eq_degree (degree_legendreP (n + 1))
  rw [← hT, integ_by_parts, lobattoPoly_one, lobattoPoly_neg_one, derivative_lobattoPoly,
    mul_assoc, integ_C_mul, integ_legendreP_mul (n + 1) T hTd, hT, ← hTc]
  push_cast
  field_simp
  ring

/-- Key identity of the Lobatto weights: at a root `a` of `(1-x²)P_N'`, with
`(1-x²)P_N' = (x-a) R`, one has `P_N(a) ∫ R = -2`. -/
lemma lobatto_key (n : ℕ) (a : ℝ) (R : ℝ[X]) (hR : lobattoPoly (n + 1) = (X - C a) * R) :
    (legendreP (n + 1)).eval a * integ R = -2 := by
  set L := legendreP (n + 1) with hL
  have hc : L.coeff (n + 1) ≠ 0 := coeff_ne_zero_of_eq_degree (degree_legendreP (n + 1))
  have hq0 : lobattoPoly (n + 1) ≠ 0 := by
    intro h
    have := lobattoPoly_coeff (n + 1) (by omega)
    rw [h, coeff_zero] at this
    have h2 : (((n + 1 : ℕ) : ℝ)) * L.coeff (n + 1) = 0 := by linarith
    rcases mul_eq_zero.1 h2 with h | h
    · norm_cast at h
    · exact hc h
  have hR0 : R ≠ 0 := by rintro rfl; exact hq0 (by rw [hR, mul_zero])
  have hRd : R.natDegree ≤ n + 1 := by
    have h1 := lobattoPoly_natDegree_le (n + 1) (by omega)
    rw [hR, natDegree_mul (X_sub_C_ne_zero a) hR0, natDegree_X_sub_C] at h1
    omega
  have hRc : R.coeff (n + 1) = -((n + 1 : ℝ) * L.coeff (n + 1)) := by
    have h1 := lobattoPoly_coeff (n + 1) (by omega)
    rw [hR, sub_mul, coeff_sub, coeff_X_mul, coeff_C_mul,
      coeff_eq_zero_of_natDegree_lt (by omega : R.natDegree < n + 1 + 1)] at h1
    push_cast at h1
    linarith
  -- S = (L - L(a)) / (X - a)
  obtain ⟨S, hS⟩ : ∃ S, L - C (L.eval a) = (X - C a) * S := by
    have : (X - C a) ∣ L - C (L.eval a) := by
      rw [dvd_iff_isRoot]; simp [IsRoot]
    exact this
  have hLd : (L - C (L.eval a)).natDegree ≤ n + 1 := by
    refine (natDegree_sub_le _ _).trans ?_
    rw [hL, natDegree_legendreP]; simp
  have hSd : S.natDegree ≤ n := by
    by_cases hS0 : S = 0
    · simp [hS0]
    rw [hS, natDegree_mul (X_sub_C_ne_zero a) hS0, natDegree_X_sub_C] at hLd
    omega
  have hSc : S.coeff n = L.coeff (n + 1) := by
    have h1 : (L - C (L.eval a)).coeff (n + 1) = L.coeff (n + 1) := by
      rw [coeff_sub, coeff_C_succ, sub_zero]
    rw [hS, sub_mul, coeff_sub, coeff_X_mul, coeff_C_mul,
      coeff_eq_zero_of_natDegree_lt (by omega : S.natDegree < n + 1)] at h1
    linarith
  have h1 : C (L.eval a) * R = L * R - lobattoPoly (n + 1) * S := by
    rw [hR]
    have : C (L.eval a) = L - (X - C a) * S := by rw [← hS]; ring
    rw [this]; ring
  have h2 := congrArg integ h1
  rw [integ_C_mul, integ_sub, integ_legendreP_mul (n + 1) R hRd, hRc] at h2
  have h3 := integ_lobattoPoly_mul n S hSd
  rw [hSc] at h3
  have h4 := integ_legendreP_sq (n + 1)
  rw [← hL] at h3 h4 h2
  have h5 : integ (lobattoPoly (n + 1) * S) = (n + 2) * integ (L * L) := by
    apply mul_left_cancel₀ hc
    rw [h3]; ring
  rw [h2, h5]
  push_cast at h4
  field_simp
  linarith


/-- The Lobatto rule with any enumeration of the nodes is exact up to degree `2N - 1`. -/
theorem lobatto_exact (n : ℕ) (x : Fin (n + 2) → ℝ) (hinj : Function.Injective x)
    (hx : ∀ i, (lobattoPoly (n + 1)).eval (x i) = 0) :
    (∀ i, (legendreP (n + 1)).eval (x i) ≠ 0) ∧
    ∀ p : ℝ[X], p.natDegree ≤ 2 * n + 1 →
      ∑ i, 2 / (((n : ℝ) + 1) * (n + 2) * ((legendreP (n + 1)).eval (x i)) ^ 2) * p.eval (x i)
        = integ p := by
  set q := lobattoPoly (n + 1) with hq
  set L := legendreP (n + 1) with hL
  have hc : L.coeff (n + 1) ≠ 0 := coeff_ne_zero_of_eq_degree (degree_legendreP (n + 1))
  have hqc : q.coeff (n + 2) ≠ 0 := by
    rw [hq, lobattoPoly_coeff (n + 1) (by omega)]
    have : (((n + 1 : ℕ) : ℝ)) ≠ 0 := by positivity
    exact neg_ne_zero.2 (mul_ne_zero this hc)
  have hqd : q.natDegree = n + 2 :=
    le_antisymm (lobattoPoly_natDegree_le (n + 1) (by omega)) (le_natDegree_of_ne_zero hqc)
  have hq0 : q ≠ 0 := by rintro h; rw [h] at hqc; simp at hqc
  -- the cofactors
  have hRex : ∀ i, ∃ R, q = (X - C (x i)) * R := fun i => by
    have : (X - C (x i)) ∣ q := by rw [dvd_iff_isRoot]; exact hx i
    exact this
  choose R hR using hRex
  have hkey : ∀ i, L.eval (x i) * integ (R i) = -2 := fun i => lobatto_key n (x i) (R i) (hR i)
  have hLne : ∀ i, L.eval (x i) ≠ 0 := by
    intro i h
    have := hkey i
    rw [h, zero_mul] at this
    norm_num at this
  refine ⟨hLne, ?_⟩
  have hRd : ∀ i, (R i).degree < ((n + 2 : ℕ) : WithBot ℕ) := by
    intro i
    have h0 : R i ≠ 0 := by intro h; apply hq0; rw [hR i, h, mul_zero]
    have h1 := hqd
    rw [hR i, natDegree_mul (X_sub_C_ne_zero _) h0, natDegree_X_sub_C] at h1
    rw [degree_eq_natDegree h0]
    exact_mod_cast (by omega : (R i).natDegree < n + 2)
  have hRself : ∀ i, (R i).eval (x i) = -((n + 1 : ℝ) * (n + 2) * L.eval (x i)) := by
    intro i
    have h1 := derivative_lobattoPoly (n + 1)
    rw [← hq, ← hL, hR i, derivative_mul] at h1
    have h2 := congrArg (eval (x i)) h1
    simp only [eval_add, eval_mul, eval_sub, eval_X, eval_C, derivative_sub, derivative_X,
      derivative_C, sub_self, eval_one, zero_mul] at h2
    push_cast at h2
    simp only [eval_zero, sub_zero, one_mul, add_zero] at h2
    rw [h2]; ring
  have hRother : ∀ i j, i ≠ j → (R i).eval (x j) = 0 := by
    intro i j hij
    have h1 := hx j
    rw [hR i, eval_mul] at h1
    rcases mul_eq_zero.1 h1 with h | h
    · simp only [eval_sub, eval_X, eval_C, sub_eq_zero] at h
      exact absurd (hinj h).symm hij
    · exact h
  have hcard : (Finset.univ : Finset (Fin (n + 2))).card = n + 2 := by simp
  have hinjOn : Set.InjOn x (Finset.univ : Finset (Fin (n + 2))) := hinj.injOn
  have hbasis : ∀ i, integ (Lagrange.basis Finset.univ x i)
      = 2 / (((n : ℝ) + 1) * (n + 2) * (L.eval (x i)) ^ 2) := by
    intro i
    have hne : (R i).eval (x i) ≠ 0 := by
      rw [hRself i]
      have : (n + 1 : ℝ) * (n + 2) ≠ 0 := by positivity
      exact neg_ne_zero.2 (mul_ne_zero this (hLne i))
    have h1 : C ((R i).eval (x i)) * Lagrange.basis Finset.univ x i = R i := by
      refine Polynomial.eq_of_degrees_lt_of_eval_index_eq (s := (Finset.univ : Finset (Fin (n + 2))))
        (v := x) hinjOn ?_ ?_ ?_
      · rw [degree_C_mul hne, Lagrange.degree_basis hinjOn (Finset.mem_univ i), hcard]
        exact_mod_cast (by omega : n + 2 - 1 < n + 2)
      · rw [hcard]; exact hRd i
      · intro j _
        rw [eval_mul, eval_C]
        by_cases hij : i = j
        · subst hij
          rw [Lagrange.eval_basis_self hinjOn (Finset.mem_univ i), mul_one]
        · rw [Lagrange.eval_basis_of_ne hij (Finset.mem_univ j), hRother i j hij, mul_zero]
    have h2 := congrArg integ h1
    rw [integ_C_mul, hRself i] at h2
    have h3 := hkey i
    rw [← h2] at h3
    have h4 := hLne i
    field_simp
    linarith
  intro p hp
  set s := p / q with hs
  set r := p % q with hr
  have hpqr : q * s + r = p := EuclideanDomain.div_add_mod p q
  have hrd : r.degree < ((n + 2 : ℕ) : WithBot ℕ) := by
    have := EuclideanDomain.mod_lt p hq0
    have h2 : r.degree < q.degree := this
    rwa [degree_eq_natDegree hq0, hqd] at h2
  have hint : integ (q * s) = 0 := by
    have hsn : s.natDegree ≤ n ∧ s.coeff n = 0 := by
      by_cases hs0 : s = 0
      · simp [hs0]
      have h1 : (q * s).natDegree = n + 2 + s.natDegree := by rw [natDegree_mul hq0 hs0, hqd]
      have h2 : (q * s).natDegree ≤ 2 * n + 1 := by
        have : q * s = p - r := by rw [← hpqr]; ring
        rw [this]
        refine (natDegree_sub_le _ _).trans ?_
        rw [max_le_iff]
        refine ⟨hp, ?_⟩
        by_contra hcon
        push Not at hcon
        by_cases hr0 : r = 0
        · rw [hr0] at hcon; simp at hcon
        · rw [degree_eq_natDegree hr0] at hrd
          have hrd' : r.natDegree < n + 2 := by exact_mod_cast hrd
          have : n = 0 := by omega
          subst this
          -- p has degree ≤ 1 < 2 so s = 0
          apply hs0
          rw [hs, Polynomial.div_eq_zero_iff hq0, degree_eq_natDegree hq0, hqd]
          exact lt_of_le_of_lt degree_le_natDegree (by exact_mod_cast (by omega))
      have h3 : s.natDegree < n := by omega
      exact ⟨h3.le, coeff_eq_zero_of_natDegree_lt h3⟩
    have h1 := integ_lobattoPoly_mul n s hsn.1
    rw [hsn.2, mul_zero, zero_mul] at h1
    rcases mul_eq_zero.1 h1 with h | h
    · exact absurd h hc
    · exact h
  rw [← hpqr, integ_add, hint, zero_add]
  have hr2 : r = Lagrange.interpolate Finset.univ x (fun i => r.eval (x i)) :=
    Lagrange.eq_interpolate hinjOn (by rw [hcard]; exact hrd)
  conv_rhs => rw [hr2, Lagrange.interpolate_apply, integ_sum]
  apply Finset.sum_congr rfl
  intro i _
  rw [integ_C_mul, hbasis i, eval_add, eval_mul, hx i, zero_mul, zero_add]
  ring

end FastVPINNs
