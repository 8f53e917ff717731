import Verif.Lemmas.TensorBasis
import Mathlib.Analysis.SpecialFunctions.Integrals.Basic
import Mathlib.MeasureTheory.Integral.IntervalIntegral.FundThmCalculus
import Mathlib.LinearAlgebra.Lagrange
import Mathlib.Topology.Algebra.Polynomial

/-! # Legendre polynomials: differential equation, orthogonality, norm -/

namespace FastVPINNs

open Polynomial intervalIntegral

/-- Integral of a polynomial over `[-1, 1]`. -/
noncomputable def integ (p : ℝ[X]) : ℝ := ∫ x in (-1 : ℝ)..1, p.eval x

lemma poly_intervalIntegrable (p : ℝ[X]) (a b : ℝ) :
    IntervalIntegrable (fun x => p.eval x) MeasureTheory.volume a b :=
  (Polynomial.continuous p).intervalIntegrable _ _

lemma integ_add (p q : ℝ[X]) : integ (p + q) = integ p + integ q := by
  unfold integ
  rw [← integral_add (poly_intervalIntegrable p _ _) (poly_intervalIntegrable q _ _)]
  simp

lemma integ_C_mul (c : ℝ) (p : ℝ[X]) : integ (C c * p) = c * integ p := by
  unfold integ
  rw [← integral_const_mul]
  simp

lemma integ_neg (p : ℝ[X]) : integ (-p) = - integ p := by
  have := integ_C_mul (-1) p
  simpa using this

lemma integ_sub (p q : ℝ[X]) : integ (p - q) = integ p - integ q := by
  rw [sub_eq_add_neg, integ_add, integ_neg, sub_eq_add_neg]

lemma integ_zero : integ 0 = 0 := by simp [integ]

lemma integ_sum {ι : Type*} (s : Finset ι) (f : ι → ℝ[X]) :
    integ (∑ i ∈ s, f i) = ∑ i ∈ s, integ (f i) := by
  classical
  induction s using Finset.induction_on with
  | empty => simp [integ_zero]
  | insert a s ha ih => rw [Finset.sum_insert ha, Finset.sum_insert ha, integ_add, ih]

lemma integ_derivative (p : ℝ[X]) : integ (derivative p) = p.eval 1 - p.eval (-1) := by
  unfold integ
  exact integral_eq_sub_of_hasDerivAt (fun x _ => p.hasDerivAt x) (poly_intervalIntegrable _ _ _)

/-- Integration by parts. -/
lemma integ_by_parts (p q : ℝ[X]) :
    integ (p * derivative q) = p.eval 1 * q.eval 1 - p.eval (-1) * q.eval (-1)
      - integ (derivative p * q) := by
  have := integ_derivative (p * q)
  rw [derivative_mul, integ_add, eval_mul, eval_mul] at this
  linarith

/-! ### Differential equation -/

lemma iterate_derivative_X_mul_succ (k : ℕ) (p : ℝ[X]) :
    derivative^[k + 1] (X * p) = X * derivative^[k + 1] p + C (k + 1 : ℝ) * derivative^[k] p := by
  induction k with
  | zero => simp; ring
  | succ k ih =>
    rw [Function.iterate_succ_apply', ih, derivative_add, derivative_mul, derivative_C_mul,
      derivative_X, ← Function.iterate_succ_apply' derivative (k + 1),
      ← Function.iterate_succ_apply' derivative k]
    push_cast
    rw [C_add, C_add, C_add, C_1]
    ring

lemma iterate_derivative_X_mul_derivative (k : ℕ) (p : ℝ[X]) :
    derivative^[k] (X * derivative p)
      = X * derivative^[k + 1] p + C (k : ℝ) * derivative^[k] p := by
  cases k with
  | zero => simp
  | succ k =>
    rw [iterate_derivative_X_mul_succ, ← Function.iterate_succ_apply derivative (k + 1),
      ← Function.iterate_succ_apply derivative k]
    push_cast
    rfl

/-- `((1 - x²) P_n')' = -n(n+1) P_n`. -/
theorem legendre_ode (n : ℕ) :
    derivative ((1 - X ^ 2) * derivative (legendreP n)) = C (-(n * (n + 1) : ℝ)) * legendreP n := by
  rw [legendreP_eq_jacobiP]
  apply eq_of_iterate_derivative_eval_eq _ _ 1
  intro k
  have h := iterate_derivative_jacobiP_eval_one k n 0 0
  set P := jacobiP n 0 0
  have e1 : (1 - X ^ 2) * derivative P = derivative P - X * (X * derivative P) := by ring
  rw [← Function.iterate_succ_apply derivative k, e1, iterate_derivative_sub,
    iterate_derivative_X_mul_succ, iterate_derivative_X_mul_derivative,
    iterate_derivative_X_mul_derivative, ← Function.iterate_succ_apply derivative (k + 1),
    iterate_derivative_C_mul]
  simp only [eval_sub, eval_add, eval_mul, eval_X, eval_C]
  push_cast
  linear_combination -h

/-! ### Orthogonality -/

lemma legendreP_orth_ne {m n : ℕ} (h : m ≠ n) : integ (legendreP m * legendreP n) = 0 := by
  have key : ∀ m n : ℕ, (m * (m + 1) : ℝ) * integ (legendreP m * legendreP n)
      = integ ((1 - X ^ 2) * derivative (legendreP m) * derivative (legendreP n)) := by
    intro m n
    rw [integ_by_parts, legendre_ode]
    simp only [eval_mul, eval_sub, eval_one, eval_pow, eval_X]
    rw [mul_assoc (C _), integ_C_mul]
    ring
  have h1 := key m n
  have h2 := key n m
  rw [mul_comm (legendreP n), mul_right_comm (1 - X ^ 2)] at h2
  have h3 : ((m * (m + 1) : ℝ) - n * (n + 1)) * integ (legendreP m * legendreP n) = 0 := by
    rw [sub_mul, h1, h2, sub_self]
  rcases mul_eq_zero.1 h3 with h4 | h4
  · exfalso
    apply h
    have h5 : ((m : ℝ) - n) * (m + n + 1) = 0 := by linarith
    rcases mul_eq_zero.1 h5 with h6 | h6
    · exact_mod_cast sub_eq_zero.1 h6
    · have : (0 : ℝ) < m + n + 1 := by positivity
      linarith
  · exact h4

/-- `P_n` is orthogonal to all polynomials of smaller degree. -/
theorem legendreP_orth (n : ℕ) (p : ℝ[X]) (hp : p.degree < n) : integ (legendreP n * p) = 0 := by
  let S : Polynomial.Sequence ℝ := { elems' := legendreP, degree_eq' := degree_legendreP }
  have hspan := S.span_degreeLT (m := n) (fun i _ => by
    rw [isUnit_iff_ne_zero]
    exact leadingCoeff_ne_zero.2 (legendreP_ne_zero i))
  have hmem : p ∈ degreeLT ℝ n := mem_degreeLT.2 hp
  rw [← hspan] at hmem
  refine Submodule.span_induction (p := fun p _ => integ (legendreP n * p) = 0) ?_ ?_ ?_ ?_ hmem
  · rintro _ ⟨i, hi, rfl⟩
    exact legendreP_orth_ne (by have : i < n := hi; omega)
  · simp [integ_zero]
  · intro x y _ _ hx hy; rw [mul_add, integ_add, hx, hy, add_zero]
  · intro a x _ hx
    rw [smul_eq_C_mul, mul_left_comm, integ_C_mul, hx, mul_zero]

/-- Pairing with `P_n` only sees the coefficient of `x^n`. -/
lemma integ_legendreP_mul (n : ℕ) (p : ℝ[X]) (hp : p.natDegree ≤ n) :
    integ (legendreP n * p)
      = p.coeff n / (legendreP n).coeff n * integ (legendreP n * legendreP n) := by
  have hc : (legendreP n).coeff n ≠ 0 := coeff_ne_zero_of_eq_degree (degree_legendreP n)
  have h := legendreP_orth n (p - C (p.coeff n / (legendreP n).coeff n) * legendreP n) (by
    rw [degree_lt_iff_coeff_zero]
    intro m hm
    rw [coeff_sub, coeff_C_mul]
    rcases Nat.lt_or_ge n m with h | h
    · rw [coeff_eq_zero_of_natDegree_lt (by omega : p.natDegree < m),
        coeff_eq_zero_of_natDegree_lt (by rw [natDegree_legendreP]; exact h :
          (legendreP n).natDegree < m)]
      simp
    · have : m = n := by omega
      subst this
      field_simp
      simp)
  rw [mul_sub, integ_sub, mul_left_comm, integ_C_mul] at h
  linarith

/-- `∫ P_n² = 2 / (2n+1)`. -/
theorem integ_legendreP_sq (n : ℕ) :
    (2 * n + 1) * integ (legendreP n * legendreP n) = 2 := by
  have hc : (legendreP n).coeff n ≠ 0 := coeff_ne_zero_of_eq_degree (degree_legendreP n)
  have h1 := integ_derivative (X * (legendreP n * legendreP n))
  have h2 : derivative (X * (legendreP n * legendreP n))
      = legendreP n * legendreP n + C 2 * (legendreP n * (X * derivative (legendreP n))) := by
    rw [derivative_mul, derivative_mul, derivative_X]
    have : (C 2 : ℝ[X]) = 2 := rfl
    rw [this]
    ring
  rw [h2, integ_add, integ_C_mul] at h1
  have h3 := integ_legendreP_mul n (X * derivative (legendreP n)) (by
    rcases Nat.eq_zero_or_pos n with rfl | hn
    · have : legendreP 0 = C ((legendreP 0).coeff 0) :=
        eq_C_of_natDegree_le_zero (by rw [natDegree_legendreP])
      rw [this]; simp
    · refine (natDegree_mul_le).trans ?_
      have := natDegree_derivative_le (legendreP n)
      rw [natDegree_legendreP] at this
      rw [natDegree_X]; omega)
  have h4 : (X * derivative (legendreP n)).coeff n = n * (legendreP n).coeff n := by
    cases n with
    | zero => simp
    | succ n => rw [coeff_X_mul, coeff_derivative]; push_cast; ring
  rw [h3, h4] at h1
  simp only [eval_mul, eval_X, legendreP_eval_one, legendreP_eval_neg_one] at h1
  have h5 : ((-1 : ℝ) ^ n) * (-1) ^ n = 1 := by
    rw [← mul_pow]; simp
  rw [h5] at h1
  field_simp at h1
  linarith

end FastVPINNs
