import Verif.Lemmas.Lobatto
import Verif.Spec.Quadrature
import Verif.Model.Setup

/-! # Tensor product quadrature and the Gauss–Lobatto rule: auxiliary lemmas -/

namespace FastVPINNs

open Polynomial intervalIntegral

lemma divNat_modNat_of_eq {m n : ℕ} (i : Fin n) (j : Fin m) (k : Fin (m * n))
    (h : k.val = n * j.val + i.val) : k.divNat = j ∧ k.modNat = i := by
  have hn : 0 < n := i.pos
  constructor
  · apply Fin.ext
    rw [Fin.coe_divNat, h, Nat.mul_add_div hn, Nat.div_eq_of_lt i.isLt, add_zero]
  · apply Fin.ext
    rw [Fin.coe_modNat, h, Nat.mul_add_mod, Nat.mod_eq_of_lt i.isLt]

lemma tensorRule_isTensorRule (r : QuadRule1D) :
    Spec.IsTensorRule r.node r.weight (tensorRule r) where
  num := rfl
  xi i j k h := by
    obtain ⟨h1, h2⟩ := divNat_modNat_of_eq i j k h
    simp only [tensorRule, flatten, meshgridX, h2]
  eta i j k h := by
    obtain ⟨h1, h2⟩ := divNat_modNat_of_eq i j k h
    simp only [tensorRule, flatten, meshgridY, h1]
  weight i j k h := by
    obtain ⟨h1, h2⟩ := divNat_modNat_of_eq i j k h
    simp only [tensorRule, flatten, outer, h1, h2]
    ring

/-- A sum over the points of a tensor product rule is a double sum. -/
lemma tensor_sum {n : ℕ} {x w : Fin n → ℝ} {r : QuadRule2D} (h : Spec.IsTensorRule x w r)
    (f : ℝ → ℝ → ℝ) :
    ∑ k, r.weights k * f (r.xi k) (r.eta k) = ∑ i, ∑ j, w i * w j * f (x i) (x j) := by
  obtain ⟨num, weights, xi, eta⟩ := r
  obtain ⟨hn, hxi, heta, hw⟩ := h
  simp only at hn hxi heta hw ⊢
  subst hn
  rw [Finset.sum_comm, ← Fintype.sum_prod_type', ← finProdFinEquiv.sum_comp]
  apply Finset.sum_congr rfl
  rintro ⟨j, i⟩ _
  have hk : (finProdFinEquiv (j, i)).val = n * j.val + i.val := by
    simp [finProdFinEquiv, add_comm]
  rw [hxi i j _ hk, heta i j _ hk, hw i j _ hk]

lemma tensor_sum_mul {n : ℕ} {x w : Fin n → ℝ} {r : QuadRule2D} (h : Spec.IsTensorRule x w r)
    (f g : ℝ → ℝ) :
    ∑ k, r.weights k * (f (r.xi k) * g (r.eta k)) = (∑ i, w i * f (x i)) * ∑ j, w j * g (x j) := by
  rw [tensor_sum h fun a b => f a * g b, Finset.sum_mul_sum]
  refine Finset.sum_congr rfl fun i _ => Finset.sum_congr rfl fun j _ => by ring

/-- Every index of a tensor rule splits. -/
lemma tensor_index {n : ℕ} {x w : Fin n → ℝ} {r : QuadRule2D} (h : Spec.IsTensorRule x w r)
    (k : Fin r.num) : ∃ i j : Fin n, k.val = n * j.val + i.val := by
  have hk : k.val < n * n := lt_of_lt_of_eq k.isLt h.num
  have hn : 0 < n := by
    rcases Nat.eq_zero_or_pos n with h0 | h0
    · simp [h0] at hk
    · exact h0
  exact ⟨⟨k.val % n, Nat.mod_lt _ hn⟩, ⟨k.val / n, Nat.div_lt_of_lt_mul hk⟩,
    (Nat.div_add_mod _ _).symm⟩

lemma exact2D_of_tensor {n d : ℕ} {x w : Fin n → ℝ} {r : QuadRule2D}
    (h : Spec.IsTensorRule x w r) (hx : Spec.ExactUpTo ⟨n, x, w⟩ d) : Spec.Exact2D r d := by
  intro c
  have h1 : ∀ a ∈ Finset.range (d + 1), ∑ i, w i * x i ^ a = ∫ t in (-1 : ℝ)..1, t ^ a := by
    intro a ha
    have := hx (X ^ a) (by
      rw [natDegree_X_pow]; exact Nat.lt_succ_iff.mp (Finset.mem_range.mp ha))
    simpa using this
  have hL : ∑ k, r.weights k * ∑ a ∈ Finset.range (d + 1), ∑ b ∈ Finset.range (d + 1),
        c a b * r.xi k ^ a * r.eta k ^ b
      = ∑ a ∈ Finset.range (d + 1), ∑ b ∈ Finset.range (d + 1),
        c a b * ((∫ t in (-1 : ℝ)..1, t ^ a) * ∫ t in (-1 : ℝ)..1, t ^ b) := by
    simp only [Finset.mul_sum]
    rw [Finset.sum_comm]
    refine Finset.sum_congr rfl fun a ha => ?_
    rw [Finset.sum_comm]
    refine Finset.sum_congr rfl fun b hb => ?_
    rw [← h1 a ha, ← h1 b hb, ← tensor_sum_mul h (fun t => t ^ a) (fun t => t ^ b),
      Finset.mul_sum]
    exact Finset.sum_congr rfl fun k _ => by ring
  rw [hL]
  have hin : ∀ s : ℝ, ∫ y in (-1 : ℝ)..1,
      ∑ a ∈ Finset.range (d + 1), ∑ b ∈ Finset.range (d + 1), c a b * s ^ a * y ^ b
      = ∑ a ∈ Finset.range (d + 1), ∑ b ∈ Finset.range (d + 1),
        c a b * s ^ a * ∫ y in (-1 : ℝ)..1, y ^ b := by
    intro s
    rw [integral_finsetSum]
    · refine Finset.sum_congr rfl fun a _ => ?_
      rw [integral_finsetSum]
      · exact Finset.sum_congr rfl fun b _ => integral_const_mul _ _
      · intro b _
        exact (by fun_prop : Continuous fun y : ℝ => c a b * s ^ a * y ^ b).intervalIntegrable _ _
    · intro a _
      exact (by fun_prop : Continuous fun y : ℝ => ∑ b ∈ Finset.range (d + 1),
        c a b * s ^ a * y ^ b).intervalIntegrable _ _
  simp only [hin]
  rw [integral_finsetSum]
  · refine Finset.sum_congr rfl fun a _ => ?_
    rw [integral_finsetSum]
    · refine Finset.sum_congr rfl fun b _ => ?_
      rw [integral_mul_const, integral_const_mul]
      ring
    · intro b _
      exact (by fun_prop : Continuous fun s : ℝ =>
        c a b * s ^ a * ∫ y in (-1 : ℝ)..1, y ^ b).intervalIntegrable _ _
  · intro a _
    exact (by fun_prop : Continuous fun s : ℝ => ∑ b ∈ Finset.range (d + 1),
        c a b * s ^ a * ∫ y in (-1 : ℝ)..1, y ^ b).intervalIntegrable _ _

/-- The Gauss–Lobatto rule built by `gaussLobattoJacobiWeights`. -/
theorem lobatto_rule (ext : QuadRoutines) (n : ℕ) (hext : Spec.RootsJacobiOK ext n) :
    ∃ x w : Fin (n + 2) → ℝ, gaussLobattoJacobiWeights ext (n + 2) = ⟨n + 2, x, w⟩ ∧
      StrictMono x ∧ x 0 = -1 ∧ x (Fin.last _) = 1 ∧
      (∀ i : Fin n, x i.succ.castSucc = (ext.rootsJacobi n 1 1).1 i) ∧ (∀ i, 0 < w i) ∧
      Spec.ExactUpTo ⟨n + 2, x, w⟩ (2 * n + 1) := by
  set X := (ext.rootsJacobi n 1 1).1 with hX
  set x : Fin (n + 2) → ℝ := Fin.cons (-1) (Fin.snoc (α := fun _ => ℝ) X 1) with hx
  set w : Fin (n + 2) → ℝ := fun i =>
    2 / (((n : ℝ) + 1) * (n + 2) * ((legendreP (n + 1)).eval (x i)) ^ 2) with hw
  have hlast : x (Fin.last (n + 1)) = 1 := by
    rw [hx, ← Fin.succ_last, Fin.cons_succ, Fin.snoc_last]
  have hint : ∀ i : Fin n, x i.castSucc.succ = X i := fun i => by
    rw [hx, Fin.cons_succ, Fin.snoc_castSucc]
  have hmono : StrictMono x := by
    apply Fin.strictMono_iff_lt_succ.2
    intro i
    refine Fin.cases ?_ ?_ i
    · rw [Fin.castSucc_zero, show x 0 = -1 from rfl]
      cases n with
      | zero =>
        have : (Fin.succ 0 : Fin 2) = Fin.last 1 := rfl
        rw [this, hlast]; norm_num
      | succ m =>
        have : (Fin.succ 0 : Fin (m + 1 + 2)) = (0 : Fin (m + 1)).castSucc.succ := rfl
        rw [this, hint]
        exact (hext.mem 0).1
    · intro i
      rw [Fin.castSucc_succ, hint]
      rcases Fin.eq_castSucc_or_eq_last i.succ with ⟨j, hj⟩ | hj
      · rw [hj, hint]
        apply hext.sorted
        have := congrArg Fin.val hj
        simp only [Fin.val_succ, Fin.val_castSucc] at this
        exact Fin.lt_def.2 (by omega)
      · rw [hj, Fin.succ_last, hlast]
        exact (hext.mem i).2
  have hroot : ∀ i, (lobattoPoly (n + 1)).eval (x i) = 0 := by
    intro i
    refine Fin.cases ?_ ?_ i
    · exact lobattoPoly_neg_one _
    · intro j
      rcases Fin.eq_castSucc_or_eq_last j with ⟨k, rfl⟩ | rfl
      · rw [hint, lobattoPoly, eval_mul, legendreP_eq_jacobiP, derivative_jacobiP_succ]
        have := hext.root k
        simp only [zero_add, eval_mul, eval_C]
        rw [show (jacobiP n 1 1).eval (X k) = 0 from this]
        ring
      · rw [Fin.succ_last, hlast]
        exact lobattoPoly_one _
  obtain ⟨hne, hex⟩ := lobatto_exact n x hmono.injective hroot
  refine ⟨x, w, ?_, hmono, rfl, hlast, ?_, ?_, ?_⟩
  · unfold gaussLobattoJacobiWeights
    simp only [zero_add]
    congr 1
    funext i
    have e1 : (((n + 2 : ℕ) : ℝ) - 1) * ((n + 2 : ℕ) : ℝ) = ((n : ℝ) + 1) * (n + 2) := by
      push_cast; ring
    have e2 : n + 2 - 1 = n + 1 := rfl
    refine Fin.cases ?_ ?_ i
    · rw [Fin.cons_zero, e1, e2, ← legendreP_eq_jacobiP]
      rfl
    · intro j
      rw [Fin.cons_succ]
      rcases Fin.eq_castSucc_or_eq_last j with ⟨k, rfl⟩ | rfl
      · rw [Fin.snoc_castSucc, e1, e2, ← legendreP_eq_jacobiP]
        exact congrArg (fun t => 2 / (((n : ℝ) + 1) * (n + 2) * ((legendreP (n + 1)).eval t) ^ 2))
          (hint k).symm
      · rw [Fin.snoc_last, e1, e2, ← legendreP_eq_jacobiP]
        exact congrArg (fun t => 2 / (((n : ℝ) + 1) * (n + 2) * ((legendreP (n + 1)).eval t) ^ 2))
          hlast.symm
  · intro i
    exact hint i
  · intro i
    have h1 : 0 < ((legendreP (n + 1)).eval (x i)) ^ 2 := by
      have := hne i
      positivity
    simp only [hw]
    positivity
  · intro p hp
    exact hex p hp

end FastVPINNs
