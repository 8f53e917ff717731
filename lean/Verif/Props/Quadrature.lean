import Verif.Lemmas.GaussExists

/-! # C22–C24: the quadrature rules -/

namespace FastVPINNs

open Polynomial intervalIntegral

/-- **C22**.  Whatever rule the set-up returns, it has `n * n` points for `quad_order = n` (the
number `get_num_quad_points` reports) and it is the tensor product, first coordinate fastest, of a
1D rule with `n` points; for `gauss-legendre` this is the rule of `leggauss(n)`, for `gauss-jacobi`
its nodes are `-1`, the nodes of `roots_jacobi(n-2, 1, 1)`, `1`. -/
theorem C22_tensor_order (ext : QuadRoutines) (Q : ℤ) (t : String) (r : QuadRule2D)
    (h : assignQuadratureRules ext "quadrilateral" Q t = .ok r) :
    (r.num : ℤ) = getNumQuadPoints Q ∧
    ∃ n : ℕ, Q = n + 2 ∧ ∃ x w : Fin (n + 2) → ℝ, Spec.IsTensorRule x w r ∧
      (t = "gauss-legendre" → x = (ext.leggauss (n + 2)).1 ∧ w = (ext.leggauss (n + 2)).2) ∧
      (t = "gauss-jacobi" → x 0 = -1 ∧ x (Fin.last (n + 1)) = 1 ∧
        ∀ i : Fin n, x i.succ.castSucc = (ext.rootsJacobi n 1 1).1 i) := by
  unfold assignQuadratureRules quadratureformulasQuad2D at h
  simp only [if_true] at h
  split_ifs at h with h1 h2 h3 h4 h5 h6
  · obtain ⟨n, hn⟩ : ∃ n : ℕ, Q = n + 2 := ⟨(Q - 2).toNat, by omega⟩
    have hQ : Q.toNat = n + 2 := by omega
    injection h with h
    subst h
    constructor
    · simp only [tensorRule, getNumQuadPoints]
      rw [hQ, hn]; push_cast; ring
    · refine ⟨n, hn, ?_⟩
      rw [hQ]
      exact ⟨_, _, tensorRule_isTensorRule ⟨n + 2, _, _⟩, fun _ => ⟨rfl, rfl⟩, fun h => absurd (h3.symm.trans h)
        (by decide)⟩
  · obtain ⟨n, hn⟩ : ∃ n : ℕ, Q = n + 2 := ⟨(Q - 2).toNat, by omega⟩
    have hQ : Q.toNat = n + 2 := by omega
    injection h with h
    subst h
    rw [hQ]
    constructor
    · simp only [tensorRule, getNumQuadPoints, gaussLobattoJacobiWeights]
      rw [hn]; push_cast; ring
    · refine ⟨n, hn, _, _, tensorRule_isTensorRule (gaussLobattoJacobiWeights ext (n + 2)),
        fun h => absurd h h3, fun _ => ?_⟩
      refine ⟨rfl, ?_, ?_⟩
      · change (Fin.cons (-1) (Fin.snoc (α := fun _ => ℝ) _ 1) : Fin (n + 2) → ℝ) (Fin.last (n + 1))
          = 1
        rw [← Fin.succ_last, Fin.cons_succ, Fin.snoc_last]
      · intro i
        change (Fin.cons (-1) (Fin.snoc (α := fun _ => ℝ) (ext.rootsJacobi n (0 + 1) (0 + 1)).1 1)
          : Fin (n + 2) → ℝ) i.castSucc.succ = _
        rw [Fin.cons_succ, Fin.snoc_castSucc, zero_add]

/-- **C23**.  A tensor product rule inherits exactness: if the 1D rule is exact for degree at most
`d`, the 2D rule is exact for all polynomials of degree at most `d` in each variable; its weights
add up to `4`, and they are positive if the 1D weights are. -/
theorem C23_exact_2d {n : ℕ} (x w : Fin n → ℝ) (r : QuadRule2D) (d : ℕ)
    (h : Spec.IsTensorRule x w r) (hx : Spec.ExactUpTo ⟨n, x, w⟩ d) :
    Spec.Exact2D r d ∧
    (∀ p q : ℝ[X], p.natDegree ≤ d → q.natDegree ≤ d →
      ∑ k, r.weights k * (p.eval (r.xi k) * q.eval (r.eta k))
        = (∫ s in (-1 : ℝ)..1, p.eval s) * ∫ s in (-1 : ℝ)..1, q.eval s) ∧
    ∑ k, r.weights k = 4 ∧ ((∀ i, 0 < w i) → ∀ k, 0 < r.weights k) := by
  have hp : ∀ p q : ℝ[X], p.natDegree ≤ d → q.natDegree ≤ d →
      ∑ k, r.weights k * (p.eval (r.xi k) * q.eval (r.eta k))
        = (∫ s in (-1 : ℝ)..1, p.eval s) * ∫ s in (-1 : ℝ)..1, q.eval s := by
    intro p q hp hq
    rw [tensor_sum_mul h (fun s => p.eval s) (fun s => q.eval s), ← hx p hp, ← hx q hq]
  refine ⟨exact2D_of_tensor h hx, hp, ?_, ?_⟩
  · have := hp 1 1 (by simp) (by simp)
    simp only [eval_one, mul_one, integral_const, sub_neg_eq_add, smul_eq_mul] at this
    rw [this]; norm_num
  · intro hw k
    obtain ⟨i, j, hk⟩ := tensor_index h k
    rw [h.weight i j k hk]
    exact mul_pos (hw i) (hw j)

/-- **C23** from the API: the rule returned for `gauss-legendre` is exact for degree `2n-1` in each
variable when `leggauss` behaves as documented. -/
theorem C23_gauss_legendre_exact (ext : QuadRoutines) (Q : ℤ) (r : QuadRule2D)
    (h : assignQuadratureRules ext "quadrilateral" Q "gauss-legendre" = .ok r)
    (hext : Spec.LeggaussOK ext Q.toNat) :
    Spec.Exact2D r (2 * Q.toNat - 1) ∧ ∑ k, r.weights k = 4 ∧ (∀ k, 0 < r.weights k) ∧
    (∀ k, -1 < r.xi k ∧ r.xi k < 1 ∧ -1 < r.eta k ∧ r.eta k < 1) := by
  obtain ⟨-, n, hn, x, w, hT, hl, -⟩ := C22_tensor_order ext Q _ r h
  have hQ : Q.toNat = n + 2 := by omega
  rw [hQ] at hext ⊢
  obtain ⟨rfl, rfl⟩ := hl rfl
  obtain ⟨h1, -, h2, h3⟩ := C23_exact_2d _ _ r _ hT hext.exact
  refine ⟨h1, h2, h3 hext.pos, fun k => ?_⟩
  obtain ⟨i, j, hk⟩ := tensor_index hT k
  rw [hT.xi i j k hk, hT.eta i j k hk]
  exact ⟨(hext.mem i).1, (hext.mem i).2, (hext.mem j).1, (hext.mem j).2⟩

/-- **C24**.  The rule returned for `gauss-jacobi` is the tensor product of a 1D rule that contains
both end points, is strictly increasing, has positive weights adding up to `2`, and is exact for
degree `2Q-3` (Gauss–Lobatto). -/
theorem C24_gauss_lobatto (ext : QuadRoutines) (Q : ℤ) (r : QuadRule2D)
    (h : assignQuadratureRules ext "quadrilateral" Q "gauss-jacobi" = .ok r)
    (hext : Spec.RootsJacobiOK ext (Q.toNat - 2)) :
    ∃ n : ℕ, Q = n + 1 ∧ ∃ x w : Fin (n + 1) → ℝ, Spec.IsTensorRule x w r ∧
      StrictMono x ∧ x 0 = -1 ∧ x (Fin.last n) = 1 ∧ (∀ i, 0 < w i) ∧ ∑ i, w i = 2 ∧
      Spec.ExactUpTo ⟨n + 1, x, w⟩ (2 * (n + 1) - 3) ∧ Spec.Exact2D r (2 * (n + 1) - 3) := by
  unfold assignQuadratureRules quadratureformulasQuad2D at h
  simp only [if_true, String.reduceEq, if_false] at h
  split_ifs at h with h1 h2 h3
  obtain ⟨n, hn⟩ : ∃ n : ℕ, Q = n + 2 := ⟨(Q - 2).toNat, by omega⟩
  have hQ : Q.toNat = n + 2 := by omega
  injection h with h
  subst h
  rw [hQ] at hext ⊢
  obtain ⟨x, w, hr, hmono, h0, hl, -, hpos, hex⟩ := lobatto_rule ext n hext
  rw [hr]
  have hd : 2 * (n + 1 + 1) - 3 = 2 * n + 1 := by omega
  have hT := tensorRule_isTensorRule ⟨n + 2, x, w⟩
  refine ⟨n + 1, by rw [hn]; push_cast; ring, x, w, hT, hmono, h0, hl, hpos, ?_, ?_, ?_⟩
  · have := hex 1 (by simp)
    simp only [eval_one, mul_one, integral_const, sub_neg_eq_add, smul_eq_mul] at this
    rw [this]; norm_num
  · rw [hd]; exact hex
  · rw [hd]; exact (C23_exact_2d _ _ _ _ hT hex).1

/-- The hypotheses are met, for every order and both rules: routines with the documented behaviour
exist, and with them the set-up returns rules of which C22, C23 and C24 speak (here at orders 5 and
3; the 3-point rule is the one with nodes `-1, 0, 1`). -/
example : ∃ ext : QuadRoutines,
    (∃ r, assignQuadratureRules ext "quadrilateral" 5 "gauss-legendre" = .ok r ∧ r.num = 25 ∧
      Spec.Exact2D r 9) ∧
    ∃ r, assignQuadratureRules ext "quadrilateral" 3 "gauss-jacobi" = .ok r ∧
      Spec.Exact2D r 3 := by
  obtain ⟨ext, h1, h2⟩ := quadRoutines_exist
  refine ⟨ext, ?_, ?_⟩
  · have he : ∃ r, assignQuadratureRules ext "quadrilateral" 5 "gauss-legendre" = .ok r := by
      simp [assignQuadratureRules, quadratureformulasQuad2D]
    obtain ⟨r, hr⟩ := he
    refine ⟨r, hr, ?_, (C23_gauss_legendre_exact ext 5 r hr (h1 _ (by decide))).1⟩
    have := (C22_tensor_order ext 5 _ r hr).1
    simp only [getNumQuadPoints] at this
    omega
  · have he : ∃ r, assignQuadratureRules ext "quadrilateral" 3 "gauss-jacobi" = .ok r := by
      simp [assignQuadratureRules, quadratureformulasQuad2D]
    obtain ⟨r, hr⟩ := he
    refine ⟨r, hr, ?_⟩
    obtain ⟨n, hn, x, w, -, -, -, -, -, -, -, h⟩ := C24_gauss_lobatto ext 3 r hr (h2 _)
    have : n = 2 := by omega
    subst this
    exact h

end FastVPINNs
