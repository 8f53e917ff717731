import Verif.Model.Basis
import Verif.Spec.Basis
import Verif.Lemmas.Jacobi
import Mathlib.Analysis.Calculus.Deriv.Polynomial
import Mathlib.Analysis.Calculus.Deriv.Mul

/-! # Auxiliary facts on the basis classes -/

namespace FastVPINNs

open Polynomial

lemma foldl_fill {num n1 q : ℕ} (fx fy : Fin n1 → Fin q → ℝ) (r : Fin num) (p : Fin q)
    (i j : ℕ) (hi : i < n1) (hj : j < n1) (hr : r.val = n1 * i + j) (l : List (Fin n1))
    (v : Fin num → Fin q → ℝ)
    (h : (⟨i, hi⟩ : Fin n1) ∈ l ∨ v r p = fx ⟨i, hi⟩ p * fy ⟨j, hj⟩ p) :
    l.foldl
    (fun (values : Fin num → Fin q → ℝ) (i : Fin n1) => fun r p =>
      if h : n1 * i.val ≤ r.val ∧ r.val < n1 * (i.val + 1) then
        fx i p * fy ⟨r.val - n1 * i.val, by rw [Nat.mul_succ] at h; omega⟩ p
      else values r p) v r p = fx ⟨i, hi⟩ p * fy ⟨j, hj⟩ p := by
  induction l generalizing v with
  | nil => simpa using h
  | cons a l ih =>
    rw [List.foldl_cons]
    apply ih
    by_cases hm : (⟨i, hi⟩ : Fin n1) ∈ l
    · exact Or.inl hm
    right
    by_cases ha : a = ⟨i, hi⟩
    · subst ha
      have : n1 * i ≤ r.val ∧ r.val < n1 * (i + 1) := by
        rw [Nat.mul_succ]; omega
      simp only [this, and_self, dite_true]
      congr 3
      omega
    · have hv : v r p = fx ⟨i, hi⟩ p * fy ⟨j, hj⟩ p := by
        rcases h with h | h
        · rcases List.mem_cons.1 h with h | h
          · exact absurd h.symm ha
          · exact absurd h hm
        · exact h
      have : ¬ (n1 * a.val ≤ r.val ∧ r.val < n1 * (a.val + 1)) := by
        rintro ⟨h1, h2⟩
        apply ha
        ext
        simp only
        have h3 : a.val < i + 1 := by
          apply Nat.lt_of_mul_lt_mul_left (a := n1)
          rw [Nat.mul_succ]; omega
        have h4 : i < a.val + 1 := by
          apply Nat.lt_of_mul_lt_mul_left (a := n1)
          omega
        omega
      simp only [this, dite_false, hv]

/-- Row `n1*i+j` of the filled matrix is row `i` of `fx` times row `j` of `fy`. -/
lemma fillRows_apply {num n1 q : ℕ} (fx fy : Fin n1 → Fin q → ℝ) (r : Fin num) (p : Fin q)
    (i j : ℕ) (hi : i < n1) (hj : j < n1) (hr : r.val = n1 * i + j) :
    fillRows fx fy r p = fx ⟨i, hi⟩ p * fy ⟨j, hj⟩ p :=
  foldl_fill fx fy r p i j hi hj hr _ _ (Or.inl (List.mem_finRange _))

lemma sqrt_sq (N : ℕ) : Nat.sqrt (N ^ 2) = N := Nat.sqrt_eq' N

/-- Rows of a tensor basis, in terms of the one-dimensional tables. -/
lemma fill_sq {N q : ℕ} (f g : (n : ℕ) → (Fin q → ℝ) → Fin n → Fin q → ℝ) (φ ψ : ℕ → ℝ → ℝ)
    (hf : ∀ n x i p, f n x i p = φ i.val (x p)) (hg : ∀ n x i p, g n x i p = ψ i.val (x p))
    (xi eta : Fin q → ℝ) (p : Fin q) (i j : ℕ) (k : Fin (N ^ 2)) (hi : i < N) (hj : j < N)
    (hk : k.val = N * i + j) :
    fillRows (num := N ^ 2) (f (Nat.sqrt (N ^ 2)) xi) (g (Nat.sqrt (N ^ 2)) eta) k p
      = φ i (xi p) * ψ j (eta p) := by
  have hN := sqrt_sq N
  rw [fillRows_apply _ _ k p i j (by rwa [hN]) (by rwa [hN]) (by rwa [hN]), hf, hg]

/-! ### One-dimensional functions -/

namespace Legendre

lemma testFcnx_eq {q : ℕ} (n : ℕ) (x : Fin q → ℝ) (i : Fin n) (p : Fin q) :
    testFcnx n x i p = (Spec.legendreBubble i.val).eval (x p) := by
  simp [testFcnx, jacobiWrapper, Spec.legendreBubble, legendreP_eq_jacobiP]

lemma testFcny_eq {q : ℕ} (n : ℕ) (x : Fin q → ℝ) (i : Fin n) (p : Fin q) :
    testFcny n x i p = (Spec.legendreBubble i.val).eval (x p) := by
  simp [testFcny, jacobiWrapper, Spec.legendreBubble, legendreP_eq_jacobiP]

lemma dtestFcn_eq {q : ℕ} (n : ℕ) (x : Fin q → ℝ) (i : Fin n) (p : Fin q) :
    dtestFcn n x i p = (derivative (Spec.legendreBubble i.val)).eval (x p) := by
  rcases i with ⟨i, hi⟩
  simp only [dtestFcn, jacobiWrapper, Spec.legendreBubble, legendreP_eq_jacobiP]
  rcases i with _ | _ | i
  · rw [derivative_sub, derivative_jacobiP_succ, jacobiP_zero]
    norm_num
  · rw [derivative_sub, derivative_jacobiP_succ, derivative_jacobiP_succ]
    norm_num
  · rw [derivative_sub, derivative_jacobiP_succ, derivative_jacobiP_succ]
    simp
    ring_nf
    simp

lemma ddtestFcn_eq {q : ℕ} (n : ℕ) (x : Fin q → ℝ) (i : Fin n) (p : Fin q) :
    ddtestFcn n x i p = (derivative (derivative (Spec.legendreBubble i.val))).eval (x p) := by
  rcases i with ⟨i, hi⟩
  simp only [ddtestFcn, jacobiWrapper, Spec.legendreBubble, legendreP_eq_jacobiP]
  rcases i with _ | _ | i
  · rw [derivative_sub, derivative_jacobiP_succ, jacobiP_zero]
    simp [derivative_jacobiP_succ]
    norm_num
  · rw [derivative_sub, derivative_jacobiP_succ, derivative_jacobiP_succ]
    simp [derivative_jacobiP_succ]
    norm_num
    ring
  · rw [derivative_sub, derivative_jacobiP_succ, derivative_jacobiP_succ]
    simp [derivative_jacobiP_succ]
    norm_num
    ring

end Legendre

namespace LegendreSpecial

lemma testFcn_eq {q : ℕ} (n : ℕ) (x : Fin q → ℝ) (i : Fin n) (p : Fin q) :
    testFcn n x i p = (Spec.legendreBubble i.val).eval (x p) := by
  simp [testFcn, Spec.legendreBubble]

lemma testGradFcn_eq {q : ℕ} (n : ℕ) (x : Fin q → ℝ) (i : Fin n) (p : Fin q) :
    testGradFcn n x i p = (derivative (Spec.legendreBubble i.val)).eval (x p) := by
  simp [testGradFcn, Spec.legendreBubble]

lemma testGradGradFcn_eq {q : ℕ} (n : ℕ) (x : Fin q → ℝ) (i : Fin n) (p : Fin q) :
    testGradGradFcn n x i p
      = (derivative (derivative (Spec.legendreBubble i.val))).eval (x p) := by
  simp [testGradGradFcn, Spec.legendreBubble]

end LegendreSpecial

namespace JacobiPlain

lemma testFcnx_eq {q : ℕ} (n : ℕ) (x : Fin q → ℝ) (i : Fin n) (p : Fin q) :
    testFcnx n x i p = (Spec.legendrePlain i.val).eval (x p) := by
  simp [testFcnx, jacobiWrapper, Spec.legendrePlain, legendreP_eq_jacobiP]

lemma testFcny_eq {q : ℕ} (n : ℕ) (x : Fin q → ℝ) (i : Fin n) (p : Fin q) :
    testFcny n x i p = (Spec.legendrePlain i.val).eval (x p) := by
  simp [testFcny, jacobiWrapper, Spec.legendrePlain, legendreP_eq_jacobiP]

lemma dtestFcn_eq {q : ℕ} (n : ℕ) (x : Fin q → ℝ) (i : Fin n) (p : Fin q) :
    dtestFcn n x i p = (derivative (Spec.legendrePlain i.val)).eval (x p) := by
  simp [dtestFcn, djacobi, Spec.legendrePlain, legendreP_eq_jacobiP]

lemma ddtestFcn_eq {q : ℕ} (n : ℕ) (x : Fin q → ℝ) (i : Fin n) (p : Fin q) :
    ddtestFcn n x i p = (derivative (derivative (Spec.legendrePlain i.val))).eval (x p) := by
  simp [ddtestFcn, djacobi, Spec.legendrePlain, legendreP_eq_jacobiP]

end JacobiPlain

lemma jacobiP_half_ne (n : ℕ) : (jacobiP n (-1 / 2) (-1 / 2)).eval 1 ≠ 0 :=
  (jacobiP_eval_one_pos n (-1 / 2) (-1 / 2) (by norm_num)).ne'

lemma chebyshev_eq (n : ℕ) : Chebyshev.T ℝ n
    = C (((jacobiP n (-1 / 2) (-1 / 2)).eval 1)⁻¹) * jacobiP n (-1 / 2) (-1 / 2) := by
  conv_rhs => rw [jacobiP_neg_half n]
  simp only [eval_mul, eval_C, Chebyshev.T_eval_one, mul_one]
  rw [← mul_assoc, ← C_mul, inv_mul_cancel₀ (jacobiP_half_ne n), C_1, one_mul]

namespace Chebyshev2

lemma testFcnx_eq {q : ℕ} (n : ℕ) (x : Fin q → ℝ) (i : Fin n) (p : Fin q) :
    testFcnx n x i p = (Spec.chebyshevBubble i.val).eval (x p) := by
  simp only [testFcnx, jacobiWrapper, Spec.chebyshevBubble, chebyshev_eq, Nat.add_sub_cancel,
    eval_sub, eval_mul, eval_C]
  ring

lemma testFcny_eq {q : ℕ} (n : ℕ) (x : Fin q → ℝ) (i : Fin n) (p : Fin q) :
    testFcny n x i p = (Spec.chebyshevBubble i.val).eval (x p) := by
  simp only [testFcny, jacobiWrapper, Spec.chebyshevBubble, chebyshev_eq, Nat.add_sub_cancel,
    eval_sub, eval_mul, eval_C]
  ring

lemma half1 : (-1 / 2 + 1 : ℝ) = 1 / 2 := by norm_num
lemma half2 : (1 / 2 + 1 : ℝ) = 3 / 2 := by norm_num

lemma dtestFcn_eq {q : ℕ} (n : ℕ) (x : Fin q → ℝ) (i : Fin n) (p : Fin q) :
    dtestFcn n x i p = (derivative (Spec.chebyshevBubble i.val)).eval (x p) := by
  rcases i with ⟨i, hi⟩
  simp only [dtestFcn, jacobiWrapper, Spec.chebyshevBubble, chebyshev_eq]
  rcases i with _ | _ | i
  · simp only [derivative_sub, derivative_C_mul, derivative_jacobiP_succ, jacobiP_zero, half1,
      derivative_one, eval_sub, eval_mul, eval_C, eval_zero, zero_add]
    norm_num
    ring
  · simp only [derivative_sub, derivative_C_mul, derivative_jacobiP_succ, half1,
      eval_sub, eval_mul, eval_C, zero_add]
    norm_num
    ring
  · rw [if_neg (by omega), if_neg (by omega), show i + 1 + 1 + 1 - 2 = i + 1 by omega,
      show i + 1 + 1 + 1 - 1 = i + 1 + 1 by omega]
    simp only [derivative_sub, derivative_C_mul, derivative_jacobiP_succ, half1,
      eval_sub, eval_mul, eval_C]
    push_cast
    ring

lemma ddtestFcn_eq {q : ℕ} (n : ℕ) (x : Fin q → ℝ) (i : Fin n) (p : Fin q) :
    ddtestFcn n x i p = (derivative (derivative (Spec.chebyshevBubble i.val))).eval (x p) := by
  rcases i with ⟨i, hi⟩
  simp only [ddtestFcn, jacobiWrapper, Spec.chebyshevBubble, chebyshev_eq]
  rcases i with _ | _ | i
  · simp only [derivative_sub, derivative_C_mul, derivative_jacobiP_succ, jacobiP_zero, half1,
      half2, derivative_one, derivative_zero, mul_zero, eval_sub, eval_mul, eval_C, eval_zero,
      zero_add]
    norm_num
    ring
  · simp only [derivative_sub, derivative_C_mul, derivative_jacobiP_succ, half1, jacobiP_zero,
      half2, derivative_one, eval_sub, eval_mul, eval_C, eval_zero, zero_add, mul_zero]
    norm_num
    ring
  · rw [if_neg (by omega), if_neg (by omega), show i + 1 + 1 + 1 - 3 = i by omega,
      show i + 1 + 1 + 1 - 1 = i + 1 + 1 by omega]
    simp only [derivative_sub, derivative_C_mul, derivative_jacobiP_succ, half1, half2,
      eval_sub, eval_mul, eval_C]
    push_cast
    ring

end Chebyshev2

end FastVPINNs
