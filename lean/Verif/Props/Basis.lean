import Verif.Model.Setup
import Verif.Lemmas.TensorBasis
import Mathlib.Analysis.SpecialFunctions.Trigonometric.Chebyshev.Basic

/-!
# C13–C21: the test functions

All statements are about the basis object `B` returned by
`FE2DSetupMain.assign_basis_function` for a given `fe_order` and `fe_type`.
-/

namespace FastVPINNs

open Polynomial

/-- What a successful call of `assign_basis_function` returns. -/
lemma assignBasisFunction_ok {o : ℤ} {t : String} {B : BasisFunction2D (o.toNat ^ 2)}
    (h : assignBasisFunction "quadrilateral" o t = .ok (some B)) :
    ((t = "legendre" ∨ t = "jacobi") ∧ B = Basis2DQNLegendre _) ∨
    (t = "legendre_special" ∧ B = Basis2DQNLegendreSpecial _) ∨
    (t = "chebyshev_2" ∧ B = Basis2DQNChebyshev2 _) ∨
    (t = "jacobi_plain" ∧ B = Basis2DQNJacobi _) := by
  unfold assignBasisFunction at h
  simp only [if_true] at h
  split_ifs at h with h1 h2 h3 h4 h5
  · simp only [Except.ok.injEq, Option.some.injEq] at h; exact Or.inl ⟨h2, h.symm⟩
  · simp only [Except.ok.injEq, Option.some.injEq] at h; exact Or.inr (Or.inl ⟨h3, h.symm⟩)
  · simp only [Except.ok.injEq, Option.some.injEq] at h
    exact Or.inr (Or.inr (Or.inl ⟨h4, h.symm⟩))
  · simp only [Except.ok.injEq, Option.some.injEq] at h
    exact Or.inr (Or.inr (Or.inr ⟨h5, h.symm⟩))

/-- **C13.**  Row `N*i+j` of each of the six matrices is the product of the matching derivatives of
the `i`-th and `j`-th one-dimensional functions; there are `N^2` rows (by type). -/
theorem C13_basis_rows (o : ℤ) (t : String) (B : BasisFunction2D (o.toNat ^ 2))
    (h : assignBasisFunction "quadrilateral" o t = .ok (some B)) :
    Spec.IsTensorBasis o.toNat B (Spec.testFamily t) := by
  rcases assignBasisFunction_ok h with ⟨rfl | rfl, rfl⟩ | ⟨rfl, rfl⟩ | ⟨rfl, rfl⟩ | ⟨rfl, rfl⟩
  · simpa [Spec.testFamily] using legendre_tensor o.toNat
  · simpa [Spec.testFamily] using legendre_tensor o.toNat
  · simpa [Spec.testFamily] using legendreSpecial_tensor o.toNat
  · simpa [Spec.testFamily] using chebyshev_tensor o.toNat
  · simpa [Spec.testFamily] using jacobiPlain_tensor o.toNat

/-- Every supported `fe_type` with `fe_order = 3` meets the hypothesis of C13 (and C14–C21). -/
example : ∀ t ∈ ["legendre", "jacobi", "legendre_special", "chebyshev_2", "jacobi_plain"],
    ∃ B, assignBasisFunction "quadrilateral" 3 t = .ok (some B) := by
  intro t ht
  simp only [List.mem_cons, List.not_mem_nil, or_false] at ht
  rcases ht with rfl | rfl | rfl | rfl | rfl <;> exact ⟨_, by unfold assignBasisFunction; simp; rfl⟩

/-- **C14.**  Test functions of all families except `jacobi_plain` vanish on the four sides of the
reference square. -/
theorem C14_vanish_on_boundary (o : ℤ) (t : String) (B : BasisFunction2D (o.toNat ^ 2))
    (h : assignBasisFunction "quadrilateral" o t = .ok (some B)) (ht : t ≠ "jacobi_plain")
    {q : ℕ} (xi eta : Fin q → ℝ) (k : Fin (o.toNat ^ 2)) (p : Fin q)
    (hb : Spec.OnReferenceBoundary (xi p) (eta p)) : B.value xi eta k p = 0 := by
  rcases assignBasisFunction_ok h with ⟨-, rfl⟩ | ⟨-, rfl⟩ | ⟨-, rfl⟩ | ⟨ht', -⟩
  · exact vanish_of_tensor (legendre_tensor _) legendreBubble_one legendreBubble_neg_one _ _ _ _ hb
  · exact vanish_of_tensor (legendreSpecial_tensor _) legendreBubble_one legendreBubble_neg_one
      _ _ _ _ hb
  · exact vanish_of_tensor (chebyshev_tensor _) chebyshevBubble_one chebyshevBubble_neg_one
      _ _ _ _ hb
  · exact absurd ht' ht

example : Spec.OnReferenceBoundary 1 (1 / 3) := by
  left; norm_num

/-- **C15.**  legendre (also selected by `jacobi`, and `legendre_special`): the derivative methods
return the partial derivatives of the values. -/
theorem C15_legendre_derivatives (o : ℤ) (t : String) (B : BasisFunction2D (o.toNat ^ 2))
    (h : assignBasisFunction "quadrilateral" o t = .ok (some B))
    (ht : t = "legendre" ∨ t = "jacobi" ∨ t = "legendre_special") : Spec.DerivativesCorrect B :=
  have _ := ht
  derivativesCorrect_of_tensor (C13_basis_rows o t B h)

/-- **C16.**  chebyshev_2: the derivative methods return the partial derivatives of the values. -/
theorem C16_chebyshev_derivatives (o : ℤ) (B : BasisFunction2D (o.toNat ^ 2))
    (h : assignBasisFunction "quadrilateral" o "chebyshev_2" = .ok (some B)) :
    Spec.DerivativesCorrect B :=
  derivativesCorrect_of_tensor (C13_basis_rows o _ B h)

/-- **C17.**  jacobi_plain: the derivative methods return the partial derivatives of the values. -/
theorem C17_jacobi_plain_derivatives (o : ℤ) (B : BasisFunction2D (o.toNat ^ 2))
    (h : assignBasisFunction "quadrilateral" o "jacobi_plain" = .ok (some B)) :
    Spec.DerivativesCorrect B :=
  derivativesCorrect_of_tensor (C13_basis_rows o _ B h)

/-- C15 on a concrete case: order 5, first function (a special case in the source). -/
example : HasDerivAt
    (fun s => (Basis2DQNLegendre 25).value (Function.update ![0.3, 0.7] 1 s) ![0.2, 0.1] 0 1)
    ((Basis2DQNLegendre 25).gradx ![0.3, 0.7] ![0.2, 0.1] 0 1) 0.7 :=
  (C15_legendre_derivatives 5 "legendre" (Basis2DQNLegendre 25)
    (by unfold assignBasisFunction; simp) (Or.inl rfl)).dx ![0.3, 0.7] ![0.2, 0.1] (0 : Fin 25) 1

/-- **C18.**  `legendre`, `jacobi` and `legendre_special` return the same six matrices. -/
theorem C18_same_test_space (o : ℤ) (t t' : String) (B B' : BasisFunction2D (o.toNat ^ 2))
    (ht : t = "legendre" ∨ t = "jacobi" ∨ t = "legendre_special")
    (ht' : t' = "legendre" ∨ t' = "jacobi" ∨ t' = "legendre_special")
    (h : assignBasisFunction "quadrilateral" o t = .ok (some B))
    (h' : assignBasisFunction "quadrilateral" o t' = .ok (some B')) {q : ℕ} (xi eta : Fin q → ℝ) :
    B.value xi eta = B'.value xi eta ∧ B.gradx xi eta = B'.gradx xi eta ∧
    B.grady xi eta = B'.grady xi eta ∧ B.gradxx xi eta = B'.gradxx xi eta ∧
    B.gradxy xi eta = B'.gradxy xi eta ∧ B.gradyy xi eta = B'.gradyy xi eta := by
  have e : Spec.testFamily t = Spec.testFamily t' := by
    rcases ht with rfl | rfl | rfl <;> rcases ht' with rfl | rfl | rfl <;> simp [Spec.testFamily]
  have h1 := C13_basis_rows o t B h
  rw [e] at h1
  exact eq_of_tensor h1 (C13_basis_rows o t' B' h') xi eta

example (xi eta : Fin 7 → ℝ) :
    (Basis2DQNLegendre 16).gradyy xi eta = (Basis2DQNLegendreSpecial 16).gradyy xi eta :=
  (C18_same_test_space 4 "jacobi" "legendre_special" (Basis2DQNLegendre 16)
    (Basis2DQNLegendreSpecial 16) (by simp) (by simp) (by unfold assignBasisFunction; simp)
    (by unfold assignBasisFunction; simp) xi eta).2.2.2.2.2

/-- **C19.**  Row `N*i+j` of the `chebyshev_2` values is
`(T_{i+2}(ξ) - T_i(ξ)) * (T_{j+2}(η) - T_j(η))`. -/
theorem C19_chebyshev_values (o : ℤ) (B : BasisFunction2D (o.toNat ^ 2))
    (h : assignBasisFunction "quadrilateral" o "chebyshev_2" = .ok (some B))
    {q : ℕ} (xi eta : Fin q → ℝ) (p : Fin q) (i j : ℕ) (k : Fin (o.toNat ^ 2))
    (hi : i < o.toNat) (hj : j < o.toNat) (hk : k.val = o.toNat * i + j) :
    B.value xi eta k p =
      ((Chebyshev.T ℝ (i + 2)).eval (xi p) - (Chebyshev.T ℝ i).eval (xi p)) *
      ((Chebyshev.T ℝ (j + 2)).eval (eta p) - (Chebyshev.T ℝ j).eval (eta p)) := by
  rw [(C13_basis_rows o _ B h).value xi eta p i j k hi hj hk]
  simp [Spec.testFamily, Spec.chebyshevBubble]

/-- C19 on a concrete case: at `ξ = cos a`, `η = cos b` the function `(i, j) = (1, 2)` of order 3 is
`(cos 3a - cos a) (cos 4b - cos 2b)`. -/
example (a b : ℝ) : (Basis2DQNChebyshev2 9).value ![Real.cos a] ![Real.cos b] 5 0
    = (Real.cos (3 * a) - Real.cos a) * (Real.cos (4 * b) - Real.cos (2 * b)) := by
  have := C19_chebyshev_values 3 (Basis2DQNChebyshev2 9) (by unfold assignBasisFunction; simp)
    ![Real.cos a] ![Real.cos b] 0 1 2 (5 : Fin 9) (by simp) (by simp) (by simp)
  rw [this]
  have h3 := Chebyshev.T_real_cos a 3
  have h1 := Chebyshev.T_real_cos a 1
  have h4 := Chebyshev.T_real_cos b 4
  have h2 := Chebyshev.T_real_cos b 2
  norm_num at *

/-- **C20.**  For the bubble families the one-dimensional functions are linearly independent, the
first `N` of them span all polynomials of degree at most `N+1` vanishing at `±1`, and the `N^2`
functions returned by `value` are linearly independent as functions on the reference square. -/
theorem C20_independent_and_spanning (o : ℤ) (t : String) (B : BasisFunction2D (o.toNat ^ 2))
    (h : assignBasisFunction "quadrilateral" o t = .ok (some B)) (ht : t ≠ "jacobi_plain") :
    LinearIndependent ℝ (Spec.testFamily t) ∧
    (∀ p : ℝ[X], p.natDegree ≤ o.toNat + 1 → p.eval 1 = 0 → p.eval (-1) = 0 →
      ∃ c : ℕ → ℝ, p = ∑ i ∈ Finset.range o.toNat, C (c i) * Spec.testFamily t i) ∧
    (∀ c : Fin (o.toNat ^ 2) → ℝ,
      (∀ x ∈ Set.Icc (-1 : ℝ) 1, ∀ y ∈ Set.Icc (-1 : ℝ) 1,
        ∑ k, c k * B.value (q := 1) (fun _ => x) (fun _ => y) k 0 = 0) → c = 0) := by
  have hd : ∀ i, (Spec.testFamily t i).degree = (i + 2 : ℕ) := by
    intro i; unfold Spec.testFamily
    split_ifs with h1
    · exact degree_chebyshevBubble i
    · exact degree_legendreBubble i
  have h1 : ∀ i, (Spec.testFamily t i).eval 1 = 0 := by
    intro i; unfold Spec.testFamily
    split_ifs with h1
    · exact chebyshevBubble_one i
    · exact legendreBubble_one i
  have h2 : ∀ i, (Spec.testFamily t i).eval (-1) = 0 := by
    intro i; unfold Spec.testFamily
    split_ifs with h1
    · exact chebyshevBubble_neg_one i
    · exact legendreBubble_neg_one i
  refine ⟨bubbles_independent _ hd, fun p hp hp1 hp2 => bubbles_span _ hd h1 h2 _ p hp hp1 hp2, ?_⟩
  intro c hc
  exact tensor_independent (C13_basis_rows o t B h) (bubbles_independent _ hd) c hc

/-- C20 on a concrete case: `X^2 * (1 - X^2)` is a combination of the first three functions. -/
example : ∃ c : ℕ → ℝ, (X ^ 2 * (1 - X ^ 2) : ℝ[X])
    = ∑ i ∈ Finset.range 3, C (c i) * Spec.testFamily "legendre" i :=
  (C20_independent_and_spanning 3 "legendre" (Basis2DQNLegendre 9)
    (by unfold assignBasisFunction; simp) (by simp)).2.1 _
    (by
      have : (X ^ 2 * (1 - X ^ 2) : ℝ[X]) = X ^ 2 - X ^ 4 := by ring
      rw [this]
      exact (natDegree_sub_le _ _).trans (by simp))
    (by simp) (by simp)

/-- **C21.**  Every test function of `jacobi_plain` takes the value `1` at the corner `(1, 1)` of the
reference square, so none vanishes on the boundary. -/
theorem C21_jacobi_plain_not_vanishing (o : ℤ) (B : BasisFunction2D (o.toNat ^ 2))
    (h : assignBasisFunction "quadrilateral" o "jacobi_plain" = .ok (some B))
    {q : ℕ} (xi eta : Fin q → ℝ) (k : Fin (o.toNat ^ 2)) (p : Fin q)
    (hx : xi p = 1) (hy : eta p = 1) :
    Spec.OnReferenceBoundary (xi p) (eta p) ∧ B.value xi eta k p = 1 := by
  refine ⟨?_, ?_⟩
  · left; simp [hx, hy]
  · obtain ⟨hi, hj, hk⟩ := index_split k
    rw [(C13_basis_rows o _ B h).value xi eta p _ _ k hi hj hk, hx, hy]
    simp [Spec.testFamily, Spec.legendrePlain, legendreP_eval_one]

example : (Basis2DQNJacobi 9).value ![1] ![1] 4 0 = 1 :=
  (C21_jacobi_plain_not_vanishing 3 (Basis2DQNJacobi 9) (by unfold assignBasisFunction; simp)
    ![1] ![1] (4 : Fin 9) 0 rfl rfl).2

/-- **C21.**  On the four sides of the reference square row `N*i+j` of the `jacobi_plain` values is, up to its sign,
the one-dimensional function in the other variable: no function vanishes on a whole side. -/
theorem C21_jacobi_plain_sides (o : ℤ) (B : BasisFunction2D (o.toNat ^ 2))
    (h : assignBasisFunction "quadrilateral" o "jacobi_plain" = .ok (some B))
    {q : ℕ} (xi eta : Fin q → ℝ) (p : Fin q) (i j : ℕ) (k : Fin (o.toNat ^ 2))
    (hi : i < o.toNat) (hj : j < o.toNat) (hk : k.val = o.toNat * i + j) :
    (xi p = 1 → B.value xi eta k p = (legendreP j).eval (eta p)) ∧
    (xi p = -1 → B.value xi eta k p = (-1) ^ i * (legendreP j).eval (eta p)) ∧
    (eta p = 1 → B.value xi eta k p = (legendreP i).eval (xi p)) ∧
    (eta p = -1 → B.value xi eta k p = (-1) ^ j * (legendreP i).eval (xi p)) := by
  rw [(C13_basis_rows o _ B h).value xi eta p i j k hi hj hk]
  refine ⟨fun e => ?_, fun e => ?_, fun e => ?_, fun e => ?_⟩ <;> rw [e] <;>
    simp [Spec.testFamily, Spec.legendrePlain, legendreP_eval_one, legendreP_eval_neg_one, mul_comm]

example : (Basis2DQNJacobi 9).value ![-1] ![1 / 3] 4 0 = (-1) ^ 1 * (legendreP 1).eval (1 / 3) :=
  (C21_jacobi_plain_sides 3 (Basis2DQNJacobi 9) (by unfold assignBasisFunction; simp)
    ![-1] ![1 / 3] 0 1 1 (4 : Fin 9) (by simp) (by simp) (by simp)).2.1 rfl

end FastVPINNs
