import Verif.Model.Orthopoly
import Mathlib.RingTheory.Polynomial.Chebyshev
import Mathlib.Tactic.Ring
import Mathlib.Tactic.FieldSimp
import Mathlib.Tactic.Linarith
import Mathlib.Tactic.Positivity
import Mathlib.Algebra.Polynomial.Derivative
import Mathlib.Algebra.Polynomial.Taylor
import Mathlib.Data.Nat.Choose.Cast

/-! # Classical facts about Jacobi, Legendre and Chebyshev polynomials -/

namespace FastVPINNs

open Polynomial Finset

lemma poch_succ_left (x : ℝ) (n : ℕ) :
    (ascPochhammer ℝ (n + 1)).eval x = x * (ascPochhammer ℝ n).eval (x + 1) := by
  rw [ascPochhammer_succ_left]; simp [eval_comp]

lemma poch_succ_right (x : ℝ) (n : ℕ) :
    (ascPochhammer ℝ (n + 1)).eval x = (ascPochhammer ℝ n).eval x * (x + n) := by
  rw [ascPochhammer_succ_right]; simp

/-- coefficient of `((x-1)/2)^k` in `jacobiP` -/
noncomputable def jcoef (n k : ℕ) (a b : ℝ) : ℝ :=
  (ascPochhammer ℝ (n - k)).eval (a + k + 1) * (ascPochhammer ℝ k).eval (n + a + b + 1)
        / (k.factorial * (n - k).factorial)

lemma jacobiP_eq (n : ℕ) (a b : ℝ) :
    jacobiP n a b = ∑ k ∈ range (n + 1), C (jcoef n k a b) * (C (1 / 2) * (X - 1)) ^ k := rfl

@[simp] lemma jacobiP_zero (a b : ℝ) : jacobiP 0 a b = 1 := by
  simp [jacobiP]

lemma jcoef_succ (n k : ℕ) (hk : k ≤ n) (a b : ℝ) :
    jcoef (n + 1) (k + 1) a b * (k + 1) = (n + 1 + a + b + 1) * jcoef n k (a + 1) (b + 1) := by
  unfold jcoef
  have h1 : n + 1 - (k + 1) = n - k := by omega
  rw [h1, poch_succ_left]
  have e1 : a + ((k + 1 : ℕ) : ℝ) + 1 = a + 1 + k + 1 := by push_cast; ring
  have e2 : ((n + 1 : ℕ) : ℝ) + a + b + 1 + 1 = n + (a + 1) + (b + 1) + 1 := by push_cast; ring
  rw [e1, e2, Nat.factorial_succ]
  have := Nat.factorial_ne_zero k
  have := Nat.factorial_ne_zero (n - k)
  push_cast
  field_simp
  try ring

/-- `d/dx P_{n+1}^{(a,b)} = (n+a+b+2)/2 P_n^{(a+1,b+1)}`. -/
theorem derivative_jacobiP_succ (n : ℕ) (a b : ℝ) :
    derivative (jacobiP (n + 1) a b)
      = C ((n + 1 + a + b + 1) / 2) * jacobiP n (a + 1) (b + 1) := by
  rw [jacobiP_eq, jacobiP_eq, sum_range_succ', derivative_add, derivative_sum]
  simp only [pow_zero, mul_one, derivative_C, add_zero]
  rw [mul_sum]
  refine sum_congr rfl fun k hk => ?_
  have hk' : k ≤ n := by simpa [Nat.lt_succ_iff] using hk
  have h := jcoef_succ n k hk' a b
  rw [derivative_C_mul, derivative_pow_succ]
  have hd : derivative (C (1 / 2 : ℝ) * (X - 1)) = C (1 / 2) := by
    simp
  rw [hd]
  have e : C (jcoef (n + 1) (k + 1) a b) * (C ((k : ℝ) + 1) * (C (1 / 2) * (X - 1)) ^ k * C (1 / 2))
      = C (jcoef (n + 1) (k + 1) a b * (k + 1) * (1 / 2)) * (C (1 / 2) * (X - 1)) ^ k := by
    simp only [C_mul]; ring
  rw [e, h]
  simp only [C_mul, ← mul_assoc]
  congr 1
  simp only [← C_mul]
  congr 1
  ring

theorem jacobiP_eval_one (n : ℕ) (a b : ℝ) :
    (jacobiP n a b).eval 1 = (ascPochhammer ℝ n).eval (a + 1) / n.factorial := by
  rw [jacobiP_eq, eval_finsetSum, sum_eq_single 0]
  · simp [jcoef]
  · intro k _ hk
    simp [hk]
  · simp

theorem jacobiP_eval_one_pos (n : ℕ) (a b : ℝ) (ha : -1 < a) : 0 < (jacobiP n a b).eval 1 := by
  rw [jacobiP_eval_one]
  have := ascPochhammer_pos n (a + 1) (by linarith)
  positivity

/-! ## Legendre -/

theorem legendreP_eq_jacobiP (n : ℕ) : legendreP n = jacobiP n 0 0 := by
  unfold legendreP
  rw [shiftedLegendre, Polynomial.map_sum, Polynomial.sum_comp, jacobiP_eq]
  refine sum_congr rfl fun k hk => ?_
  have hk' : k ≤ n := by simpa [Nat.lt_succ_iff] using hk
  rw [Polynomial.map_mul, Polynomial.map_pow, map_X, map_C, mul_comp, C_comp, pow_comp, X_comp]
  have e : (C (1 / 2 : ℝ) * (1 - X)) = C (-1) * (C (1 / 2) * (X - 1)) := by
    simp [mul_sub]; ring
  rw [e, mul_pow, ← mul_assoc, ← C_pow, ← C_mul]
  congr 2
  unfold jcoef
  have h1 : (ascPochhammer ℝ (n - k)).eval ((0 : ℝ) + k + 1) * k.factorial = n.factorial := by
    have := ascPochhammer_nat_eq_ascFactorial (k+1) (n-k)
    have h2 := Nat.factorial_mul_ascFactorial k (n - k)
    have h3 : k + (n - k) = n := by omega
    rw [h3] at h2
    rw [zero_add, show ((k : ℝ) + 1) = ((k + 1 : ℕ) : ℝ) by push_cast; ring,
      ← ascPochhammer_eval_cast, ascPochhammer_nat_eq_ascFactorial]
    rw [← h2]; push_cast; ring
  have h4 : (ascPochhammer ℝ k).eval ((n : ℝ) + 0 + 0 + 1) * n.factorial = (n + k).factorial := by
    have h2 := Nat.factorial_mul_ascFactorial n k
    rw [add_zero, add_zero, show ((n : ℝ) + 1) = ((n + 1 : ℕ) : ℝ) by push_cast; ring,
      ← ascPochhammer_eval_cast, ascPochhammer_nat_eq_ascFactorial]
    rw [← h2]; push_cast; ring
  have hc1 : ((n.choose k : ℕ) : ℝ) = n.factorial / (k.factorial * (n - k).factorial) :=
    Nat.cast_choose ℝ hk'
  have hc2 : (((n + k).choose n : ℕ) : ℝ) = (n + k).factorial / (n.factorial * k.factorial) := by
    rw [Nat.cast_choose ℝ (Nat.le_add_right n k)]
    simp
  have f1 : (n.factorial : ℝ) ≠ 0 := by positivity
  have f2 : (k.factorial : ℝ) ≠ 0 := by positivity
  have f3 : ((n - k).factorial : ℝ) ≠ 0 := by positivity
  have g1 : (ascPochhammer ℝ (n - k)).eval ((0 : ℝ) + k + 1) = n.factorial / k.factorial := by
    field_simp; exact h1
  have g2 : (ascPochhammer ℝ k).eval ((n : ℝ) + 0 + 0 + 1) = (n + k).factorial / n.factorial := by
    field_simp; exact h4
  rw [g1, g2]
  simp only [eq_intCast, Int.cast_mul, Int.cast_pow, Int.cast_neg, Int.cast_one, Int.cast_natCast]
  rw [hc1, hc2]
  have : ((-1 : ℝ) ^ k) * (-1) ^ k = 1 := by rw [← mul_pow]; simp
  field_simp
  linear_combination this

@[simp] theorem legendreP_eval_one (n : ℕ) : (legendreP n).eval 1 = 1 := by
  rw [legendreP_eq_jacobiP, jacobiP_eval_one]
  rw [zero_add, ascPochhammer_eval_one]
  field_simp

theorem legendreP_eval_neg (n : ℕ) (x : ℝ) :
    (legendreP n).eval (-x) = (-1) ^ n * (legendreP n).eval x := by
  have h := shiftedLegendre_eval_symm n ((1 / 2) * (1 - (-x)))
  unfold legendreP
  rw [eval_comp, eval_comp, eval_map, eval_map]
  simp only [eval_mul, eval_C, eval_sub, eval_one, eval_X]
  rw [aeval_def, aeval_def, show (1 : ℝ) - 1 / 2 * (1 - -x) = 1 / 2 * (1 - x) by ring] at h
  exact h

@[simp] theorem legendreP_eval_neg_one (n : ℕ) : (legendreP n).eval (-1) = (-1) ^ n := by
  rw [legendreP_eval_neg]; simp

/-! ## Chebyshev -/

/-- A real polynomial is determined by its derivatives at a point. -/
lemma eq_of_iterate_derivative_eval_eq (p q : ℝ[X]) (r : ℝ)
    (h : ∀ k, (derivative^[k] p).eval r = (derivative^[k] q).eval r) : p = q := by
  apply taylor_injective r
  ext k
  rw [taylor_coeff, taylor_coeff]
  have h1 : (k.factorial : ℝ) * (hasseDeriv k p).eval r = (derivative^[k] p).eval r := by
    have := congrFun (factorial_smul_hasseDeriv (R := ℝ) k) p
    rw [← this]; simp
  have h2 : (k.factorial : ℝ) * (hasseDeriv k q).eval r = (derivative^[k] q).eval r := by
    have := congrFun (factorial_smul_hasseDeriv (R := ℝ) k) q
    rw [← this]; simp
  have f : (k.factorial : ℝ) ≠ 0 := by positivity
  apply mul_left_cancel₀ f
  rw [h1, h2, h]

lemma iterate_derivative_one_succ (k : ℕ) : derivative^[k + 1] (1 : ℝ[X]) = 0 := by
  rw [Function.iterate_succ_apply, derivative_one]
  exact iterate_derivative_zero

theorem iterate_derivative_jacobiP_eval_one (k n : ℕ) (a b : ℝ) :
    2 * (a + k + 1) * (derivative^[k + 1] (jacobiP n a b)).eval 1
      = (n + a + b + 1 + k) * (n - k) * (derivative^[k] (jacobiP n a b)).eval 1 := by
  induction k generalizing n a b with
  | zero =>
    cases n with
    | zero => simp
    | succ m =>
      simp only [zero_add, Function.iterate_one, Function.iterate_zero, id_eq]
      rw [derivative_jacobiP_succ, eval_mul, eval_C, jacobiP_eval_one, jacobiP_eval_one,
        poch_succ_left, Nat.factorial_succ]
      have : (m.factorial : ℝ) ≠ 0 := by positivity
      push_cast
      field_simp
      ring
  | succ k ih =>
    cases n with
    | zero => simp only [jacobiP_zero, iterate_derivative_one_succ]; simp
    | succ m =>
      rw [Function.iterate_succ_apply derivative (k + 1), Function.iterate_succ_apply derivative k,
        Function.iterate_succ_apply derivative k (jacobiP (m + 1) a b),
        ← Function.iterate_succ_apply derivative k, derivative_jacobiP_succ, iterate_derivative_C_mul, iterate_derivative_C_mul,
        eval_mul, eval_mul, eval_C]
      have := ih m (a + 1) (b + 1)
      push_cast
      linear_combination ((m : ℝ) + 1 + a + b + 1) / 2 * this

/-- `P_n^{(-1/2,-1/2)} = P_n^{(-1/2,-1/2)}(1) T_n`. -/
theorem jacobiP_neg_half (n : ℕ) :
    jacobiP n (-1 / 2) (-1 / 2)
      = C ((jacobiP n (-1 / 2) (-1 / 2)).eval 1) * Chebyshev.T ℝ n := by
  apply eq_of_iterate_derivative_eval_eq _ _ 1
  intro k
  rw [iterate_derivative_C_mul, eval_mul, eval_C]
  induction k with
  | zero => simp
  | succ k ih =>
    have h1 := iterate_derivative_jacobiP_eval_one k n (-1 / 2) (-1 / 2)
    have h2 := Chebyshev.iterate_derivative_T_eval_one_recurrence (R := ℝ) n k
    have hk : (2 * (k : ℝ) + 1) ≠ 0 := by positivity
    apply mul_left_cancel₀ hk
    have e : (2 * (k : ℝ) + 1) = 2 * (-1 / 2 + k + 1) := by ring
    rw [mul_left_comm, h2]
    conv_lhs => rw [e]
    rw [h1, ih]
    push_cast
    ring

end FastVPINNs
