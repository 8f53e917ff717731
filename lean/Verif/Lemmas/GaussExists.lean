import Verif.Lemmas.Quadrature
import Mathlib.Analysis.Calculus.LocalExtr.Polynomial
import Mathlib.Data.Finset.Sort
import Mathlib.MeasureTheory.Integral.IntervalIntegral.FundThmCalculus

/-!
# The documented behaviour of `leggauss` and `roots_jacobi` is satisfiable

Existence, for every number of points, of nodes and weights as `Spec.LeggaussOK` and
`Spec.RootsJacobiOK` describe them, so that the hypotheses of the quadrature theorems are never
vacuous.
-/

namespace FastVPINNs

open Polynomial intervalIntegral

/-- The roots of `P_N` and of `P_N'` are disjoint. -/
lemma legendreP_ne_zero_of_derivative (n : ℕ) (a : ℝ)
    (h : (derivative (legendreP (n + 1))).eval a = 0) : (legendreP (n + 1)).eval a ≠ 0 := by
  have h1 : (X - C a) ∣ lobattoPoly (n + 1) := by
    rw [dvd_iff_isRoot, IsRoot.def, lobattoPoly, eval_mul, h, mul_zero]
  obtain ⟨R, hR⟩ := h1
  have h2 := lobatto_key n a R hR
  intro h3
  rw [h3, zero_mul] at h2
  norm_num at h2

/-- `P_N'` has only simple roots. -/
lemma derivative_legendreP_simple (n : ℕ) (a : ℝ)
    (h : (derivative (legendreP (n + 1))).eval a = 0) :
    (derivative (derivative (legendreP (n + 1)))).eval a ≠ 0 := by
  intro h2
  have h3 := congrArg (eval a) (legendre_ode (n + 1))
  rw [derivative_mul, eval_add, eval_mul, eval_mul, h, h2, eval_mul, eval_C] at h3
  have h4 := legendreP_ne_zero_of_derivative n a h
  have h5 : ((n + 1 : ℕ) : ℝ) * ((n + 1 : ℕ) + 1) ≠ 0 := by positivity
  simp only [mul_zero, add_zero] at h3
  rcases mul_eq_zero.1 h3.symm with h | h
  · exact h5 (by linarith)
  · exact h4 h

lemma jacobiP_pos (n : ℕ) (a b x : ℝ) (ha : -1 < a) (hab : 0 ≤ a + b) (hx : 1 ≤ x) :
    0 < (jacobiP n a b).eval x := by
  unfold jacobiP
  rw [eval_finsetSum]
  have hpos : ∀ (m : ℕ) (t : ℝ), 0 < t → 0 < (ascPochhammer ℝ m).eval t := fun m t ht =>
    ascPochhammer_pos m t ht
  apply Finset.sum_pos'
  · intro k _
    simp only [eval_mul, eval_C, eval_pow, eval_sub, eval_X, eval_one]
    have h1 := hpos (n - k) (a + k + 1) (by have : (0 : ℝ) ≤ k := by positivity
                                            linarith)
    have h2 := hpos k (n + a + b + 1) (by have : (0 : ℝ) ≤ n := by positivity
                                          linarith)
    have h3 : 0 ≤ 1 / 2 * (x - 1) := by linarith
    positivity
  · refine ⟨0, by simp, ?_⟩
    simp only [eval_C, pow_zero, mul_one]
    have h1 := hpos (n - 0) (a + (0 : ℕ) + 1) (by push_cast; linarith)
    have h2 := hpos 0 (n + a + b + 1) (by have : (0 : ℝ) ≤ n := by positivity
                                          linarith)
    positivity

lemma legendreP_root_mem (n : ℕ) (a : ℝ) (h : (legendreP n).eval a = 0) : -1 < a ∧ a < 1 := by
  have key : ∀ x, 1 ≤ x → (legendreP n).eval x ≠ 0 := by
    intro x hx
    rw [legendreP_eq_jacobiP]
    exact (jacobiP_pos n 0 0 x (by norm_num) (by norm_num) hx).ne'
  constructor
  · by_contra hc
    push Not at hc
    apply key (-a) (by linarith)
    rw [legendreP_eval_neg, h, mul_zero]
  · by_contra hc
    push Not at hc
    exact key a hc h

lemma legendreP_comp_neg (n : ℕ) : (legendreP n).comp (-X) = C ((-1) ^ n) * legendreP n := by
  apply Polynomial.funext
  intro x
  simp only [eval_comp, eval_neg, eval_X, eval_mul, eval_C, legendreP_eval_neg]

lemma derivative_legendreP_eval_neg (n : ℕ) (x : ℝ) :
    (derivative (legendreP n)).eval (-x) = -(-1) ^ n * (derivative (legendreP n)).eval x := by
  have h := congrArg (fun p => (derivative p).eval x) (legendreP_comp_neg n)
  simp only [derivative_comp, derivative_neg, derivative_X, eval_mul, eval_neg, eval_one, eval_comp,
    eval_X, derivative_C_mul, eval_C] at h
  linarith

lemma derivative_legendreP_root_mem (n : ℕ) (a : ℝ)
    (h : (derivative (legendreP (n + 1))).eval a = 0) : -1 < a ∧ a < 1 := by
  have key : ∀ x, 1 ≤ x → (derivative (legendreP (n + 1))).eval x ≠ 0 := by
    intro x hx
    rw [legendreP_eq_jacobiP, derivative_jacobiP_succ, eval_mul, eval_C]
    have h1 := jacobiP_pos n (0 + 1) (0 + 1) x (by norm_num) (by norm_num) hx
    have h2 : (0 : ℝ) < ((n : ℝ) + 2 + 0 + 0) / 2 := by positivity
    exact mul_ne_zero (by positivity) h1.ne'
  constructor
  · by_contra hc
    push Not at hc
    apply key (-a) (by linarith)
    rw [derivative_legendreP_eval_neg, h, mul_zero]
  · by_contra hc
    push Not at hc
    exact key a hc h

/-- A real-rooted polynomial stays real-rooted under differentiation. -/
lemma card_roots_iterate (p : ℝ[X]) (k : ℕ) :
    Multiset.card p.roots ≤ Multiset.card (derivative^[k] p).roots + k := by
  induction k with
  | zero => simp
  | succ k ih =>
    rw [Function.iterate_succ_apply']
    have := card_roots_le_derivative (derivative^[k] p)
    omega

lemma nodup_roots_of_simple (p : ℝ[X]) (hp : p ≠ 0)
    (h : ∀ a, p.eval a = 0 → (derivative p).eval a ≠ 0) : p.roots.Nodup := by
  rw [Multiset.nodup_iff_count_le_one]
  intro a
  rw [count_roots]
  by_contra hc
  push Not at hc
  have h1 := (one_lt_rootMultiplicity_iff_isRoot hp).1 hc
  exact h a h1.1 h1.2

lemma shifted_card_roots (n : ℕ) :
    n ≤ Multiset.card ((shiftedLegendre n).map (Int.castRingHom ℝ)).roots := by
  have h1 := congrArg (Polynomial.map (Int.castRingHom ℝ)) (factorial_mul_shiftedLegendre_eq n)
  rw [← iterate_derivative_map] at h1
  simp only [Polynomial.map_mul, Polynomial.map_natCast, Polynomial.map_pow, Polynomial.map_sub,
    Polynomial.map_one, map_X] at h1
  have h2 := card_roots_iterate (X ^ n * (1 - X) ^ n : ℝ[X]) n
  have h3 : (1 - X : ℝ[X]) ≠ 0 := by
    have := X_sub_C_ne_zero (1 : ℝ)
    intro h
    apply this
    rw [C_1, ← neg_sub, h, neg_zero]
  have h4 : (1 - X : ℝ[X]).roots = {1} := by
    rw [← neg_sub, roots_neg, ← C_1, roots_X_sub_C]
  rw [roots_mul (mul_ne_zero (pow_ne_zero _ X_ne_zero) (pow_ne_zero _ h3)), roots_pow, roots_pow,
    roots_X, h4, ← h1] at h2
  have h5 : ((n.factorial : ℕ) : ℝ[X]) = C (n.factorial : ℝ) := by simp
  rw [h5, roots_C_mul _ (by positivity)] at h2
  simp only [Multiset.card_add, Multiset.card_nsmul, Multiset.card_singleton] at h2
  omega

/-- `P_n` has `n` different roots. -/
lemma legendreP_roots (n : ℕ) : ∃ s : Finset ℝ, s.card = n ∧ ∀ a ∈ s, (legendreP n).eval a = 0 := by
  classical
  set S := (shiftedLegendre n).map (Int.castRingHom ℝ) with hS
  have hev : ∀ x, S.eval x = (legendreP n).eval (1 - 2 * x) := by
    intro x
    rw [legendreP, eval_comp]
    simp only [eval_mul, eval_C, eval_sub, eval_one, eval_X]
    congr 1
    ring
  have hcomp : S = (legendreP n).comp (1 - C 2 * X) := by
    apply Polynomial.funext
    intro x
    rw [hev, eval_comp]
    simp
  have hS0 : S ≠ 0 := by
    intro h
    have h1 := hev 0
    rw [h] at h1
    simp at h1
  have hnd : S.roots.Nodup := by
    apply nodup_roots_of_simple S hS0
    intro a ha hda
    cases n with
    | zero =>
      rw [hev] at ha
      rw [legendreP_eq_jacobiP] at ha
      simp at ha
    | succ m =>
      rw [hev] at ha
      rw [hcomp, derivative_comp, eval_mul, eval_comp] at hda
      simp only [eval_sub, eval_one, eval_mul, eval_C, eval_X, derivative_sub, derivative_one,
        derivative_C_mul, derivative_X, mul_one, zero_sub, eval_neg] at hda
      have hda' : (derivative (legendreP (m + 1))).eval (1 - 2 * a) = 0 := by linarith
      exact legendreP_ne_zero_of_derivative m _ hda' ha
  have hcard : n ≤ S.roots.toFinset.card := by
    rw [Multiset.toFinset_card_of_nodup hnd]
    exact shifted_card_roots n
  obtain ⟨t, ht, htc⟩ := Finset.exists_subset_card_eq hcard
  have hinj : Function.Injective (fun x : ℝ => 1 - 2 * x) := by
    intro a b h
    have h' : 1 - 2 * a = 1 - 2 * b := h
    linarith
  refine ⟨t.image (fun x => 1 - 2 * x), ?_, ?_⟩
  · rw [Finset.card_image_of_injective _ hinj, htc]
  · intro a ha
    obtain ⟨x, hx, rfl⟩ := Finset.mem_image.1 ha
    have h1 := ht hx
    rw [Multiset.mem_toFinset, mem_roots hS0] at h1
    rw [← hev]
    exact h1

/-- `P_{n+1}'` has `n` different roots. -/
lemma derivative_legendreP_roots (n : ℕ) :
    ∃ s : Finset ℝ, s.card = n ∧ ∀ a ∈ s, (derivative (legendreP (n + 1))).eval a = 0 := by
  classical
  obtain ⟨s, hs, hroot⟩ := legendreP_roots (n + 1)
  have h1 : s ⊆ (legendreP (n + 1)).roots.toFinset := by
    intro a ha
    rw [Multiset.mem_toFinset, mem_roots (legendreP_ne_zero _)]
    exact hroot a ha
  have h2 : n + 1 ≤ Multiset.card (legendreP (n + 1)).roots := by
    exact hs.symm.le.trans ((Finset.card_le_card h1).trans (Multiset.toFinset_card_le _))
  have h3 := card_roots_le_derivative (legendreP (n + 1))
  have h0 : derivative (legendreP (n + 1)) ≠ 0 := by
    intro h
    have h4 := derivative_eq_zero.1 h
    rw [natDegree_legendreP] at h4
    omega
  have hnd := nodup_roots_of_simple _ h0 (derivative_legendreP_simple n)
  have h4 : n ≤ (derivative (legendreP (n + 1))).roots.toFinset.card := by
    rw [Multiset.toFinset_card_of_nodup hnd]
    omega
  obtain ⟨t, ht, htc⟩ := Finset.exists_subset_card_eq h4
  refine ⟨t, htc, fun a ha => ?_⟩
  have h5 := ht ha
  rw [Multiset.mem_toFinset, mem_roots h0] at h5
  exact h5

/-- A Gauss–Legendre rule exists for every number of points. -/
theorem gauss_legendre_exists (n : ℕ) : ∃ x w : Fin n → ℝ, StrictMono x ∧
    (∀ i, -1 < x i ∧ x i < 1) ∧ (∀ i, 0 < w i) ∧ (0 < n → Spec.ExactUpTo ⟨n, x, w⟩ (2 * n - 1)) := by
  classical
  obtain ⟨s, hs, hroot⟩ := legendreP_roots n
  set x : Fin n → ℝ := fun i => s.orderEmbOfFin hs i with hxdef
  have hx : ∀ i, (legendreP n).eval (x i) = 0 := fun i => hroot _ (s.orderEmbOfFin_mem hs i)
  have hmono : StrictMono x := (s.orderEmbOfFin hs).strictMono
  have hinjOn : Set.InjOn x (Finset.univ : Finset (Fin n)) := hmono.injective.injOn
  have hcard : (Finset.univ : Finset (Fin n)).card = n := by simp
  set w : Fin n → ℝ := fun i => integ (Lagrange.basis Finset.univ x i) with hw
  have hexact : ∀ p : ℝ[X], p.degree < ((2 * n : ℕ) : WithBot ℕ) →
      ∑ i, w i * p.eval (x i) = integ p := by
    intro p hp
    set L := legendreP n with hL
    have hL0 : L ≠ 0 := legendreP_ne_zero n
    have hpqr : L * (p / L) + p % L = p := EuclideanDomain.div_add_mod p L
    have hrd : (p % L).degree < (n : WithBot ℕ) := by
      have h2 : (p % L).degree < L.degree := EuclideanDomain.mod_lt p hL0
      rwa [hL, degree_legendreP] at h2
    have hint : integ (L * (p / L)) = 0 := by
      apply legendreP_orth
      by_cases hlt : p.degree < L.degree
      · rw [(Polynomial.div_eq_zero_iff hL0).2 hlt, degree_zero]
        exact WithBot.bot_lt_coe _
      · push Not at hlt
        have h1 := degree_add_div hL0 hlt
        rw [hL, degree_legendreP] at h1
        by_contra hc
        push Not at hc
        have h2 : ((2 * n : ℕ) : WithBot ℕ) ≤ p.degree := by
          rw [← h1, two_mul, Nat.cast_add]
          exact add_le_add le_rfl hc
        exact absurd hp (not_lt.2 h2)
    have hr2 : p % L = Lagrange.interpolate Finset.univ x (fun i => (p % L).eval (x i)) :=
      Lagrange.eq_interpolate hinjOn (by rw [hcard]; exact hrd)
    have h3 : integ p = integ (p % L) := by
      conv_lhs => rw [← hpqr]
      rw [integ_add, hint, zero_add]
    rw [h3, hr2, Lagrange.interpolate_apply, integ_sum]
    apply Finset.sum_congr rfl
    intro i _
    rw [integ_C_mul]
    have h4 : p.eval (x i) = (p % L).eval (x i) := by
      conv_lhs => rw [← hpqr]
      rw [eval_add, eval_mul, hx i, zero_mul, zero_add]
    rw [h4]
    ring
  refine ⟨x, w, hmono, fun i => legendreP_root_mem n _ (hx i), ?_, ?_⟩
  · intro i
    set b := Lagrange.basis Finset.univ x i with hb
    have hbd : b.degree = ((n - 1 : ℕ) : WithBot ℕ) := by
      rw [hb, Lagrange.degree_basis hinjOn (Finset.mem_univ i), hcard]
    have hbi : b.eval (x i) = 1 := Lagrange.eval_basis_self hinjOn (Finset.mem_univ i)
    have h1 := hexact (b * b) (by
      rw [degree_mul, hbd, ← Nat.cast_add]
      exact_mod_cast (by have := i.pos; omega : n - 1 + (n - 1) < 2 * n))
    rw [Finset.sum_eq_single i (fun j _ hj => by
      rw [eval_mul, hb, Lagrange.eval_basis_of_ne (Ne.symm hj) (Finset.mem_univ j)]; ring)
      (fun h => absurd (Finset.mem_univ i) h), eval_mul, hbi, one_mul, mul_one] at h1
    rw [h1]
    unfold integ
    apply integral_pos (by norm_num) (Polynomial.continuous _).continuousOn
    · intro t _
      rw [eval_mul]; exact mul_self_nonneg _
    · have := legendreP_root_mem n _ (hx i)
      exact ⟨x i, ⟨this.1.le, this.2.le⟩, by rw [eval_mul, hbi]; norm_num⟩
  · intro hn p hp
    exact hexact p (lt_of_le_of_lt degree_le_natDegree (by exact_mod_cast (by omega)))

/-- The roots of `P_n^{(1,1)}`: `n` different numbers in `(-1, 1)`. -/
theorem roots_jacobi_exists (n : ℕ) : ∃ x : Fin n → ℝ, StrictMono x ∧
    (∀ i, -1 < x i ∧ x i < 1) ∧ ∀ i, (jacobiP n 1 1).eval (x i) = 0 := by
  obtain ⟨s, hs, hroot⟩ := derivative_legendreP_roots n
  refine ⟨fun i => s.orderEmbOfFin hs i, (s.orderEmbOfFin hs).strictMono, fun i =>
    derivative_legendreP_root_mem n _ (hroot _ (s.orderEmbOfFin_mem hs i)), fun i => ?_⟩
  have h1 := hroot _ (s.orderEmbOfFin_mem hs i)
  rw [legendreP_eq_jacobiP, derivative_jacobiP_succ, eval_mul, eval_C, zero_add] at h1
  rcases mul_eq_zero.1 h1 with h | h
  · exfalso
    have : (0 : ℝ) < (n : ℝ) + 2 := by positivity
    linarith
  · exact h

/-- There are external routines that behave as documented, for every number of points at once. -/
theorem quadRoutines_exist : ∃ ext : QuadRoutines,
    (∀ n, 0 < n → Spec.LeggaussOK ext n) ∧ ∀ n, Spec.RootsJacobiOK ext n := by
  choose x w h1 h2 h3 h4 using gauss_legendre_exists
  choose y k1 k2 k3 using roots_jacobi_exists
  exact ⟨⟨fun n => (x n, w n), fun n _ _ => (y n, fun _ => 0)⟩,
    fun n hn => ⟨h1 n, h2 n, h3 n, h4 n hn⟩, fun n => ⟨k1 n, k2 n, k3 n⟩⟩

end FastVPINNs
