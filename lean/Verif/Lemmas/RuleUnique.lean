import Verif.Lemmas.GaussExists
import Mathlib.LinearAlgebra.Lagrange

/-! # Gauss and Gauss–Lobatto rules are unique -/

namespace FastVPINNs

open Polynomial intervalIntegral

/-- A polynomial whose square has weighted integral zero is zero. -/
lemma eq_zero_of_integ_sq {E D : ℝ[X]} (hE : ∀ x ∈ Set.Ioo (-1 : ℝ) 1, 0 < E.eval x)
    (h : integ (E * D * D) = 0) : D = 0 := by
  by_contra hD
  have hfin : (D.rootSet ℝ).Finite := D.rootSet_finite ℝ
  have hinf : (Set.Ioo (-1 : ℝ) 1).Infinite := Set.Ioo_infinite (by norm_num)
  obtain ⟨t, ht, htr⟩ := hinf.exists_notMem_finite hfin
  have hDt : D.eval t ≠ 0 := by
    intro h0
    exact htr (by rw [mem_rootSet]; exact ⟨hD, by simpa using h0⟩)
  have hnn : ∀ x ∈ Set.Icc (-1 : ℝ) 1, 0 ≤ (E * D * D).eval x := by
    intro x hx
    have hcl : x ∈ closure (Set.Ioo (-1 : ℝ) 1) := by rw [closure_Ioo (by norm_num)]; exact hx
    have hEx : 0 ≤ E.eval x :=
      closure_minimal (fun y hy => (hE y hy).le) (isClosed_le continuous_const E.continuous) hcl
    rw [eval_mul, eval_mul, mul_assoc]
    exact mul_nonneg hEx (mul_self_nonneg _)
  have : 0 < integ (E * D * D) := by
    unfold integ
    apply integral_pos (by norm_num) (Polynomial.continuous _).continuousOn
    · intro x hx; exact hnn x ⟨hx.1.le, hx.2⟩
    · refine ⟨t, ⟨ht.1.le, ht.2.le⟩, ?_⟩
      rw [eval_mul, eval_mul, mul_assoc]
      exact mul_pos (hE t ht) (mul_self_pos.2 hDt)
  exact absurd h this.ne'

/-- The polynomial that vanishes at the nodes. -/
noncomputable def nodePoly {n : ℕ} (x : Fin n → ℝ) : ℝ[X] := ∏ i, (X - C (x i))

lemma nodePoly_monic {n : ℕ} (x : Fin n → ℝ) : (nodePoly x).Monic :=
  monic_prod_of_monic _ _ fun i _ => monic_X_sub_C (x i)

lemma nodePoly_natDegree {n : ℕ} (x : Fin n → ℝ) : (nodePoly x).natDegree = n := by
  unfold nodePoly
  rw [natDegree_prod_of_monic _ _ fun i _ => monic_X_sub_C (x i)]
  simp

lemma nodePoly_eval {n : ℕ} (x : Fin n → ℝ) (i : Fin n) : (nodePoly x).eval (x i) = 0 := by
  unfold nodePoly
  rw [eval_prod]
  exact Finset.prod_eq_zero (Finset.mem_univ i) (by simp)

/-- The node polynomial is orthogonal to the polynomials of low degree. -/
lemma nodePoly_orth {n : ℕ} {x w : Fin n → ℝ} {d : ℕ} (h : Spec.ExactUpTo ⟨n, x, w⟩ d) (q : ℝ[X])
    (hq : n + q.natDegree ≤ d) : integ (nodePoly x * q) = 0 := by
  have := h (nodePoly x * q) (natDegree_mul_le.trans (by rw [nodePoly_natDegree]; exact hq))
  unfold integ
  rw [← this]
  exact Finset.sum_eq_zero fun i _ => by
    simp only [eval_mul]
    rw [nodePoly_eval, zero_mul, mul_zero]

/-- Rules whose node polynomials share the factor `E` and that are exact up to degree
`2 n - 1 - deg E` have the same node polynomial. -/
lemma nodePoly_unique {n d : ℕ} {x w x' w' : Fin n → ℝ} (h : Spec.ExactUpTo ⟨n, x, w⟩ d)
    (h' : Spec.ExactUpTo ⟨n, x', w'⟩ d) {E p p' : ℝ[X]} (s : ℝ)
    (hE : ∀ t ∈ Set.Ioo (-1 : ℝ) 1, 0 < (C s * E).eval t) (hEm : E.Monic)
    (hx : nodePoly x = E * p) (hx' : nodePoly x' = E * p')
    (hd : 2 * n ≤ d + 1 + E.natDegree) : nodePoly x = nodePoly x' := by
  have hp : p.Monic := by
    have := nodePoly_monic x
    rw [hx] at this
    exact hEm.of_mul_monic_left this
  have hp' : p'.Monic := by
    have := nodePoly_monic x'
    rw [hx'] at this
    exact hEm.of_mul_monic_left this
  have e1 : E.natDegree + p.natDegree = n := by
    rw [← nodePoly_natDegree x, hx, hEm.natDegree_mul hp]
  have e2 : E.natDegree + p'.natDegree = n := by
    rw [← nodePoly_natDegree x', hx', hEm.natDegree_mul hp']
  by_cases h0 : p.natDegree = 0
  · have h1 := hp.natDegree_eq_zero.1 h0
    have h2 := hp'.natDegree_eq_zero.1 (by omega)
    rw [hx, hx', h1, h2]
  have hdeg : (p - p').natDegree < p.natDegree := by
    have hdp : p.degree = p'.degree := by
      rw [degree_eq_natDegree hp.ne_zero, degree_eq_natDegree hp'.ne_zero]
      congr 1; omega
    have := degree_sub_lt_left hdp hp.ne_zero (by rw [hp.leadingCoeff, hp'.leadingCoeff])
    by_cases hz : p - p' = 0
    · rw [hz, natDegree_zero]; omega
    · exact natDegree_lt_natDegree hz this
  have o1 := nodePoly_orth h (p - p') (by omega)
  have o2 := nodePoly_orth h' (p - p') (by omega)
  have hz : integ (C s * E * (p - p') * (p - p')) = 0 := by
    have : C s * E * (p - p') * (p - p')
        = C s * (nodePoly x * (p - p') - nodePoly x' * (p - p')) := by rw [hx, hx']; ring
    rw [this, integ_C_mul, integ_sub, o1, o2]; ring
  have := sub_eq_zero.1 (eq_zero_of_integ_sq hE hz)
  rw [hx, hx', this]

/-- Increasing nodes are determined by their polynomial. -/
lemma nodes_eq {n : ℕ} {x x' : Fin n → ℝ} (hx : StrictMono x) (hx' : StrictMono x')
    (h : nodePoly x = nodePoly x') : x = x' := by
  have hr : ∀ {x x' : Fin n → ℝ}, nodePoly x = nodePoly x' → Set.range x ⊆ Set.range x' := by
    rintro x x' h _ ⟨i, rfl⟩
    have h1 := nodePoly_eval x i
    rw [h] at h1
    unfold nodePoly at h1
    rw [eval_prod, Finset.prod_eq_zero_iff] at h1
    obtain ⟨j, -, hj⟩ := h1
    simp only [eval_sub, eval_X, eval_C] at hj
    exact ⟨j, by linarith⟩
  exact (hx.range_inj hx').1 (Set.Subset.antisymm (hr h) (hr h.symm))

/-- The nodes and the exactness determine the weights. -/
lemma weights_eq {n d : ℕ} {x w w' : Fin n → ℝ} (hx : StrictMono x) (h : Spec.ExactUpTo ⟨n, x, w⟩ d)
    (h' : Spec.ExactUpTo ⟨n, x, w'⟩ d) (hd : n ≤ d + 1) : w = w' := by
  classical
  funext i
  have hinjOn : Set.InjOn x (Finset.univ : Finset (Fin n)) := hx.injective.injOn
  have hdeg : (Lagrange.basis Finset.univ x i).natDegree ≤ d := by
    have := Lagrange.degree_basis hinjOn (Finset.mem_univ i)
    rw [natDegree_eq_of_degree_eq_some this]
    simp only [Finset.card_univ, Fintype.card_fin]
    omega
  have key : ∀ w : Fin n → ℝ, ∑ j, w j * (Lagrange.basis Finset.univ x i).eval (x j) = w i := by
    intro w
    rw [Finset.sum_eq_single i (fun j _ hj => by
      rw [Lagrange.eval_basis_of_ne (Ne.symm hj) (Finset.mem_univ j)]; ring)
      (fun h => absurd (Finset.mem_univ i) h), Lagrange.eval_basis_self hinjOn (Finset.mem_univ i), mul_one]
  rw [← key w, ← key w']
  exact (h _ hdeg).trans (h' _ hdeg).symm

/-- The `n`-point rule of a given kind: increasing nodes, and exact up to degree `2n - 1`, or with the
end points as nodes and exact up to degree `2n - 3`. -/
structure KnownRule (qt : String) (n : ℕ) (x w : Fin n → ℝ) : Prop where
  three : 3 ≤ n
  mono : StrictMono x
  mem : ∀ i, -1 ≤ x i ∧ x i ≤ 1
  exact : Spec.ExactUpTo ⟨n, x, w⟩ (2 * n - 3)
  gauss : qt = "gauss-legendre" → Spec.ExactUpTo ⟨n, x, w⟩ (2 * n - 1)
  ends : qt ≠ "gauss-legendre" → ∀ i : Fin n, (i.val = 0 → x i = -1) ∧ (i.val + 1 = n → x i = 1)

lemma nodePoly_ends {n : ℕ} {x : Fin (n + 2) → ℝ} (h0 : x 0 = -1) (h1 : x (Fin.last (n + 1)) = 1) :
    ∃ p, nodePoly x = ((X - C (-1)) * (X - C 1)) * p := by
  refine ⟨∏ i : Fin n, (X - C (x i.succ.castSucc)), ?_⟩
  unfold nodePoly
  rw [Fin.prod_univ_castSucc, Fin.prod_univ_succ, h1]
  rw [show (Fin.castSucc (0 : Fin (n + 1))) = 0 from rfl, h0]
  ring

/-- There is only one rule of each kind. -/
theorem KnownRule.unique {qt : String} {n : ℕ} {x w x' w' : Fin n → ℝ} (h : KnownRule qt n x w)
    (h' : KnownRule qt n x' w') : x = x' ∧ w = w' := by
  have h3 := h.three
  have hx : x = x' := by
    apply nodes_eq h.mono h'.mono
    by_cases hq : qt = "gauss-legendre"
    · refine nodePoly_unique (E := 1) (h.gauss hq) (h'.gauss hq) 1 (by simp) monic_one (one_mul _).symm
        (one_mul _).symm ?_
      simp only [natDegree_one]; omega
    · obtain ⟨m, rfl⟩ : ∃ m, n = m + 2 := ⟨n - 2, by omega⟩
      have e0 := (h.ends hq 0).1 rfl
      have e1 := (h.ends hq (Fin.last _)).2 rfl
      have e0' := (h'.ends hq 0).1 rfl
      have e1' := (h'.ends hq (Fin.last _)).2 rfl
      obtain ⟨p, hp⟩ := nodePoly_ends e0 e1
      obtain ⟨p', hp'⟩ := nodePoly_ends e0' e1'
      have hm : ((X - C (-1)) * (X - C 1) : ℝ[X]).Monic := (monic_X_sub_C _).mul (monic_X_sub_C _)
      refine nodePoly_unique h.exact h'.exact (-1) ?_ hm hp hp' ?_
      · intro t ht
        simp only [eval_mul, eval_C, eval_sub, eval_X]
        nlinarith [ht.1, ht.2]
      · rw [(monic_X_sub_C _).natDegree_mul (monic_X_sub_C _), natDegree_X_sub_C, natDegree_X_sub_C]
        omega
  subst hx
  exact ⟨rfl, weights_eq h.mono h.exact h'.exact (by omega)⟩

/-- The reflected rule is of the same kind. -/
lemma KnownRule.reflect {qt : String} {n : ℕ} {x w : Fin n → ℝ} (h : KnownRule qt n x w) :
    KnownRule qt n (fun i => -x i.rev) (fun i => w i.rev) := by
  have hex : ∀ d, Spec.ExactUpTo ⟨n, x, w⟩ d → Spec.ExactUpTo ⟨n, fun i => -x i.rev, fun i => w i.rev⟩ d := by
    intro d hd p hp
    have h1 := hd (p.comp (-X)) (natDegree_comp_le.trans (by simpa using hp))
    simp only [eval_comp, eval_neg, eval_X] at h1
    have h2 : ∫ t in (-1 : ℝ)..1, p.eval (-t) = ∫ t in (-1 : ℝ)..1, p.eval t := by
      rw [intervalIntegral.integral_comp_neg fun t => p.eval t]; simp
    rw [h2] at h1
    rw [← h1]
    exact Equiv.sum_comp Fin.revPerm fun i => w i * p.eval (-x i)
  refine ⟨h.three, fun i j hij => ?_, fun i => ⟨by linarith [(h.mem i.rev).2], by linarith [(h.mem i.rev).1]⟩,
    hex _ h.exact, fun hq => hex _ (h.gauss hq), fun hq i => ?_⟩
  · have := h.mono (Fin.rev_lt_rev.2 hij)
    linarith
  · have := h.ends hq i.rev
    have h3 := h.three
    refine ⟨fun hi => ?_, fun hi => ?_⟩
    · rw [this.2 (by rw [Fin.val_rev]; omega)]
    · rw [this.1 (by rw [Fin.val_rev]; omega)]; norm_num

/-- Both rules are symmetric. -/
theorem KnownRule.symmetric {qt : String} {n : ℕ} {x w : Fin n → ℝ} (h : KnownRule qt n x w) (i : Fin n) :
    x i.rev = -x i ∧ w i.rev = w i := by
  obtain ⟨h1, h2⟩ := h.unique h.reflect
  have e1 := congrFun h1 i
  have e2 := congrFun h2 i
  exact ⟨by linarith, e2.symm⟩

end FastVPINNs
