import Verif.Spec.Polynomial
import Verif.Spec.Rectangle
import Verif.Lemmas.Quadrature
import Verif.Lemmas.Legendre
import Verif.Lemmas.Transform
import Mathlib.Analysis.Calculus.FDeriv.Prod
import Mathlib.Analysis.Calculus.Deriv.Comp
import Mathlib.Analysis.Calculus.Deriv.Polynomial

/-! # The discrete divergence theorem on a cell -/

namespace FastVPINNs

open Spec Polynomial

/-! ### One dimension -/

lemma rule_by_parts {n D : ℕ} {x w : Fin n → ℝ} (h : ExactUpTo ⟨n, x, w⟩ D) (P φ : ℝ[X])
    (hd : P.natDegree + φ.natDegree ≤ D + 1) (h1 : φ.eval 1 = 0) (h2 : φ.eval (-1) = 0) :
    ∑ i, w i * (P.eval (x i) * (derivative φ).eval (x i) + (derivative P).eval (x i) * φ.eval (x i))
      = 0 := by
  have := h (derivative (P * φ)) ((natDegree_derivative_le _).trans (by
    have := natDegree_mul_le (p := P) (q := φ)
    omega))
  have h0 := integ_derivative (P * φ)
  rw [integ] at h0
  rw [h0, eval_mul, eval_mul, h1, h2, mul_zero, mul_zero, sub_zero] at this
  rw [← this]
  refine Finset.sum_congr rfl fun i _ => ?_
  simp only [derivative_mul, eval_add, eval_mul]
  ring

/-! ### The reference square -/

/-- `G` is a polynomial of degree at most `m` in its first argument. -/
def SliceX (m : ℕ) (G : ℝ → ℝ → ℝ) : Prop :=
  ∀ η, ∃ P : ℝ[X], P.natDegree ≤ m ∧ ∀ ξ, G ξ η = P.eval ξ

/-- `G` is a polynomial of degree at most `m` in its second argument. -/
def SliceY (m : ℕ) (G : ℝ → ℝ → ℝ) : Prop := SliceX m fun η ξ => G ξ η

lemma ref_divergence {n D m N : ℕ} {x w : Fin n → ℝ} {r : QuadRule2D} (hr : IsTensorRule x w r)
    (h : ExactUpTo ⟨n, x, w⟩ D) (φ ψ : ℝ[X]) (hφ : φ.natDegree ≤ N + 1) (hψ : ψ.natDegree ≤ N + 1)
    (hφ1 : φ.eval 1 = 0) (hφ2 : φ.eval (-1) = 0) (hψ1 : ψ.eval 1 = 0) (hψ2 : ψ.eval (-1) = 0)
    (G₁ G₂ : ℝ → ℝ → ℝ) (h₁ : SliceX m G₁) (h₂ : SliceY m G₂) (hm : m + N ≤ D) :
    ∑ k, r.weights k * (G₁ (r.xi k) (r.eta k) * ((derivative φ).eval (r.xi k) * ψ.eval (r.eta k))
      + G₂ (r.xi k) (r.eta k) * (φ.eval (r.xi k) * (derivative ψ).eval (r.eta k))
      + (deriv (fun s => G₁ s (r.eta k)) (r.xi k) + deriv (fun s => G₂ (r.xi k) s) (r.eta k))
        * (φ.eval (r.xi k) * ψ.eval (r.eta k))) = 0 := by
  rw [tensor_sum hr fun a b => G₁ a b * ((derivative φ).eval a * ψ.eval b)
      + G₂ a b * (φ.eval a * (derivative ψ).eval b)
      + (deriv (fun s => G₁ s b) a + deriv (fun s => G₂ a s) b) * (φ.eval a * ψ.eval b)]
  have e1 : ∀ b, ∑ i, w i * (G₁ (x i) b * (derivative φ).eval (x i)
      + deriv (fun s => G₁ s b) (x i) * φ.eval (x i)) = 0 := by
    intro b
    obtain ⟨P, hP, hG⟩ := h₁ b
    have hG' : (fun s => G₁ s b) = fun s => P.eval s := funext hG
    rw [← rule_by_parts h P φ (by omega) hφ1 hφ2]
    refine Finset.sum_congr rfl fun i _ => ?_
    rw [hG', hG, Polynomial.deriv]
  have e2 : ∀ a, ∑ j, w j * (G₂ a (x j) * (derivative ψ).eval (x j)
      + deriv (fun s => G₂ a s) (x j) * ψ.eval (x j)) = 0 := by
    intro a
    obtain ⟨P, hP, hG⟩ := h₂ a
    simp only at hG
    have hG' : (fun s => G₂ a s) = fun s => P.eval s := funext hG
    rw [← rule_by_parts h P ψ (by omega) hψ1 hψ2]
    refine Finset.sum_congr rfl fun i _ => ?_
    rw [hG', hG, Polynomial.deriv]
  have split : ∀ i j : Fin n, w i * w j * (G₁ (x i) (x j) * ((derivative φ).eval (x i) * ψ.eval (x j))
      + G₂ (x i) (x j) * (φ.eval (x i) * (derivative ψ).eval (x j))
      + (deriv (fun s => G₁ s (x j)) (x i) + deriv (fun s => G₂ (x i) s) (x j))
        * (φ.eval (x i) * ψ.eval (x j)))
      = w j * ψ.eval (x j) * (w i * (G₁ (x i) (x j) * (derivative φ).eval (x i)
        + deriv (fun s => G₁ s (x j)) (x i) * φ.eval (x i)))
      + w i * φ.eval (x i) * (w j * (G₂ (x i) (x j) * (derivative ψ).eval (x j)
        + deriv (fun s => G₂ (x i) s) (x j) * ψ.eval (x j))) := fun i j => by ring
  simp only [split, Finset.sum_add_distrib]
  rw [Finset.sum_comm]
  simp only [← Finset.mul_sum, e1, e2, mul_zero, Finset.sum_const_zero, add_zero]

/-! ### Polynomial functions -/

lemma Spec.IsPolynomial.induct {E : ℕ → ℕ → Prop} {p : (ℝ × ℝ → ℝ) → Prop} (h0 : p fun _ => 0)
    (hadd : ∀ (a : ℝ) (i j : ℕ) (u : ℝ × ℝ → ℝ), E i j → p u → p fun z => a * z.1 ^ i * z.2 ^ j + u z)
    {u : ℝ × ℝ → ℝ} (hu : IsPolynomial E u) : p u := by
  obtain ⟨l, hl, hu⟩ := hu
  rw [funext hu]
  clear hu
  induction l with
  | nil => exact h0
  | cons t l ih =>
    simp only [List.map_cons, List.sum_cons]
    exact hadd t.1 t.2.1 t.2.2 _ (hl t (by simp)) (ih fun t' ht' => hl t' (by simp [ht']))

lemma isPolynomial_zero (E : ℕ → ℕ → Prop) : IsPolynomial E fun _ => 0 := ⟨[], by simp, by simp⟩

lemma Spec.IsPolynomial.cons {E : ℕ → ℕ → Prop} {u : ℝ × ℝ → ℝ} (hu : IsPolynomial E u) (a : ℝ) {i j : ℕ}
    (h : E i j) : IsPolynomial E fun z => a * z.1 ^ i * z.2 ^ j + u z := by
  obtain ⟨l, hl, hu⟩ := hu
  refine ⟨(a, i, j) :: l, ?_, fun z => by simp [hu]⟩
  intro t ht
  rcases List.mem_cons.1 ht with rfl | ht
  · exact h
  · exact hl t ht

lemma Spec.IsPolynomial.mono {E E' : ℕ → ℕ → Prop} (h : ∀ i j, E i j → E' i j) {u : ℝ × ℝ → ℝ}
    (hu : IsPolynomial E u) : IsPolynomial E' u := by
  obtain ⟨l, hl, hu⟩ := hu
  exact ⟨l, fun t ht => h _ _ (hl t ht), hu⟩

lemma Spec.IsPolynomial.const_mul {E : ℕ → ℕ → Prop} {u : ℝ × ℝ → ℝ} (hu : IsPolynomial E u) (a : ℝ) :
    IsPolynomial E fun z => a * u z := by
  refine IsPolynomial.induct (p := fun u => IsPolynomial E fun z => a * u z) ?_ ?_ hu
  · simpa using isPolynomial_zero E
  · intro b i j v hij hv
    have := hv.cons (a * b) hij
    convert this using 2
    ring

lemma Spec.IsPolynomial.differentiable {E : ℕ → ℕ → Prop} {u : ℝ × ℝ → ℝ} (hu : IsPolynomial E u) :
    Differentiable ℝ u := by
  refine IsPolynomial.induct (p := fun u => Differentiable ℝ u) ?_ ?_ hu
  · fun_prop
  · intro a i j v _ hv
    fun_prop

lemma Spec.IsPolynomial.dx {E E' : ℕ → ℕ → Prop} (h : ∀ i j, E (i + 1) j → E' i j)
    {u : ℝ × ℝ → ℝ} (hu : IsPolynomial E u) : IsPolynomial E' (dx u) := by
  have key : Differentiable ℝ u ∧ IsPolynomial E' (Spec.dx u) := by
    refine IsPolynomial.induct (p := fun u => Differentiable ℝ u ∧ IsPolynomial E' (Spec.dx u)) ?_ ?_ hu
    · refine ⟨by fun_prop, ?_⟩
      have : Spec.dx (fun _ => 0) = fun _ => 0 := by funext z; simp [Spec.dx]
      rw [this]
      exact isPolynomial_zero _
    · intro a i j v hij ⟨hv, hv'⟩
      refine ⟨by fun_prop, ?_⟩
      have e : ∀ z, Spec.dx (fun z => a * z.1 ^ i * z.2 ^ j + v z) z
          = a * (i * z.1 ^ (i - 1)) * z.2 ^ j + Spec.dx v z := by
        intro z
        unfold Spec.dx
        have h1 : HasDerivAt (fun s : ℝ => a * s ^ i * z.2 ^ j) (a * (i * z.1 ^ (i - 1)) * z.2 ^ j) z.1 :=
          ((hasDerivAt_pow i z.1).const_mul a).mul_const _
        have h2 : DifferentiableAt ℝ (fun s : ℝ => v (s, z.2)) z.1 := by fun_prop
        exact (h1.fun_add h2.hasDerivAt).deriv
      rw [funext e]
      rcases i with _ | i
      · simpa using hv'
      · have := hv'.cons (a * (i + 1 : ℕ)) (h i j hij)
        convert this using 2
        simp only [Nat.add_sub_cancel]
        ring
  exact key.2

lemma Spec.IsPolynomial.dy {E E' : ℕ → ℕ → Prop} (h : ∀ i j, E i (j + 1) → E' i j)
    {u : ℝ × ℝ → ℝ} (hu : IsPolynomial E u) : IsPolynomial E' (dy u) := by
  have key : Differentiable ℝ u ∧ IsPolynomial E' (Spec.dy u) := by
    refine IsPolynomial.induct (p := fun u => Differentiable ℝ u ∧ IsPolynomial E' (Spec.dy u)) ?_ ?_ hu
    · refine ⟨by fun_prop, ?_⟩
      have : Spec.dy (fun _ => 0) = fun _ => 0 := by funext z; simp [Spec.dy]
      rw [this]
      exact isPolynomial_zero _
    · intro a i j v hij ⟨hv, hv'⟩
      refine ⟨by fun_prop, ?_⟩
      have e : ∀ z, Spec.dy (fun z => a * z.1 ^ i * z.2 ^ j + v z) z
          = a * z.1 ^ i * (j * z.2 ^ (j - 1)) + Spec.dy v z := by
        intro z
        unfold Spec.dy
        have h1 : HasDerivAt (fun s : ℝ => a * z.1 ^ i * s ^ j) (a * z.1 ^ i * (j * z.2 ^ (j - 1))) z.2 :=
          (hasDerivAt_pow j z.2).const_mul _
        have h2 : DifferentiableAt ℝ (fun s : ℝ => v (z.1, s)) z.2 := by fun_prop
        exact (h1.fun_add h2.hasDerivAt).deriv
      rw [funext e]
      rcases j with _ | j
      · simpa using hv'
      · have := hv'.cons (a * (j + 1 : ℕ)) (h i j hij)
        convert this using 2
        simp only [Nat.add_sub_cancel]
        ring
  exact key.2

/-- Along a line, a polynomial of total degree `m` is a polynomial of degree `m`. -/
lemma Spec.IsPolynomial.line {m : ℕ} {u : ℝ × ℝ → ℝ} (hu : IsPolynomial (fun i j => i + j ≤ m) u)
    (a b c d : ℝ) : ∃ P : ℝ[X], P.natDegree ≤ m ∧ ∀ s, u (a + b * s, c + d * s) = P.eval s := by
  refine IsPolynomial.induct (p := fun u => ∃ P : ℝ[X], P.natDegree ≤ m ∧
    ∀ s, u (a + b * s, c + d * s) = P.eval s) ⟨0, by simp, by simp⟩ ?_ hu
  rintro k i j v hij ⟨P, hP, hv⟩
  refine ⟨C k * (C b * X + C a) ^ i * (C d * X + C c) ^ j + P, ?_, fun s => ?_⟩
  · refine natDegree_add_le_of_degree_le ?_ hP
    refine natDegree_mul_le.trans ?_
    have h1 : (C k * (C b * X + C a) ^ i).natDegree ≤ i :=
      (natDegree_C_mul_le _ _).trans (natDegree_pow_le.trans (by
        have := natDegree_linear_le (a := b) (b := a)
        nlinarith))
    have h2 : ((C d * X + C c) ^ j).natDegree ≤ j := natDegree_pow_le.trans (by
        have := natDegree_linear_le (a := d) (b := c)
        nlinarith)
    omega
  · simp [hv, add_comm]

/-- Along a horizontal line only the degree in `x` counts. -/
lemma Spec.IsPolynomial.lineX {m : ℕ} {u : ℝ × ℝ → ℝ} (hu : IsPolynomial (fun i _ => i ≤ m) u)
    (a b c : ℝ) : ∃ P : ℝ[X], P.natDegree ≤ m ∧ ∀ s, u (a + b * s, c) = P.eval s := by
  refine IsPolynomial.induct (p := fun u => ∃ P : ℝ[X], P.natDegree ≤ m ∧
    ∀ s, u (a + b * s, c) = P.eval s) ⟨0, by simp, by simp⟩ ?_ hu
  rintro k i j v hij ⟨P, hP, hv⟩
  refine ⟨C (k * c ^ j) * (C b * X + C a) ^ i + P, ?_, fun s => ?_⟩
  · refine natDegree_add_le_of_degree_le ?_ hP
    exact (natDegree_C_mul_le _ _).trans (natDegree_pow_le.trans (by
        have := natDegree_linear_le (a := b) (b := a)
        nlinarith))
  · simp [hv, add_comm]
    ring

/-- Along a vertical line only the degree in `y` counts. -/
lemma Spec.IsPolynomial.lineY {m : ℕ} {u : ℝ × ℝ → ℝ} (hu : IsPolynomial (fun _ j => j ≤ m) u)
    (a c d : ℝ) : ∃ P : ℝ[X], P.natDegree ≤ m ∧ ∀ s, u (a, c + d * s) = P.eval s := by
  refine IsPolynomial.induct (p := fun u => ∃ P : ℝ[X], P.natDegree ≤ m ∧
    ∀ s, u (a, c + d * s) = P.eval s) ⟨0, by simp, by simp⟩ ?_ hu
  rintro k i j v hij ⟨P, hP, hv⟩
  refine ⟨C (k * a ^ i) * (C d * X + C c) ^ j + P, ?_, fun s => ?_⟩
  · refine natDegree_add_le_of_degree_le ?_ hP
    exact (natDegree_C_mul_le _ _).trans (natDegree_pow_le.trans (by
        have := natDegree_linear_le (a := d) (b := c)
        nlinarith))
  · simp [hv, add_comm]

/-! ### The transformed flux -/

section
open QuadBilinear
variable (c : Quad) (F₁ F₂ : ℝ × ℝ → ℝ)

/-- First component of the flux transformed to the reference square. -/
noncomputable def flux₁ (xi eta : ℝ) : ℝ :=
  (yc2 c + yc3 c * xi) * F₁ (getOriginalFromRef c xi eta)
    - (xc2 c + xc3 c * xi) * F₂ (getOriginalFromRef c xi eta)

/-- Second component of the flux transformed to the reference square. -/
noncomputable def flux₂ (xi eta : ℝ) : ℝ :=
  -(yc1 c + yc3 c * eta) * F₁ (getOriginalFromRef c xi eta)
    + (xc1 c + xc3 c * eta) * F₂ (getOriginalFromRef c xi eta)

lemma hasDerivAt_plane {F : ℝ × ℝ → ℝ} {γ₁ γ₂ : ℝ → ℝ} {a b s : ℝ}
    (hF : DifferentiableAt ℝ F (γ₁ s, γ₂ s)) (h₁ : HasDerivAt γ₁ a s) (h₂ : HasDerivAt γ₂ b s) :
    HasDerivAt (fun t => F (γ₁ t, γ₂ t)) (dx F (γ₁ s, γ₂ s) * a + dy F (γ₁ s, γ₂ s) * b) s := by
  have h := hF.hasFDerivAt.comp_hasDerivAt s (h₁.prodMk h₂)
  have e1 : dx F (γ₁ s, γ₂ s) = fderiv ℝ F (γ₁ s, γ₂ s) (1, 0) :=
    (HasFDerivAt.comp_hasDerivAt (γ₁ s) (f := fun t => (t, γ₂ s)) hF.hasFDerivAt
      ((hasDerivAt_id _).prodMk (hasDerivAt_const _ _))).deriv
  have e2 : dy F (γ₁ s, γ₂ s) = fderiv ℝ F (γ₁ s, γ₂ s) (0, 1) :=
    (HasFDerivAt.comp_hasDerivAt (γ₂ s) (f := fun t => (γ₁ s, t)) hF.hasFDerivAt
      ((hasDerivAt_const _ _).prodMk (hasDerivAt_id _))).deriv
  refine h.congr_deriv ?_
  have : ((a, b) : ℝ × ℝ) = a • (1, 0) + b • (0, 1) := by simp
  rw [this, map_add, map_smul, map_smul, e1, e2, smul_eq_mul, smul_eq_mul]
  ring

lemma hasDerivAt_line (a b s : ℝ) : HasDerivAt (fun t : ℝ => a + b * t) b s := by
  simpa using ((hasDerivAt_id s).const_mul b).const_add a

/-- The Piola identity. -/
lemma flux_divergence_at (xi eta : ℝ) (h₁ : DifferentiableAt ℝ F₁ (getOriginalFromRef c xi eta))
    (h₂ : DifferentiableAt ℝ F₂ (getOriginalFromRef c xi eta)) :
    deriv (fun s => flux₁ c F₁ F₂ s eta) xi + deriv (fun s => flux₂ c F₁ F₂ xi s) eta
      = bilinDet c xi eta * (dx F₁ (getOriginalFromRef c xi eta) + dy F₂ (getOriginalFromRef c xi eta)) := by
  have gx : HasDerivAt (fun s => xc0 c + xc1 c * s + xc2 c * eta + xc3 c * s * eta)
      (xc1 c + xc3 c * eta) xi := by
    have := hasDerivAt_line (xc0 c + xc2 c * eta) (xc1 c + xc3 c * eta) xi
    refine this.congr_of_eventuallyEq (Filter.Eventually.of_forall fun s => ?_)
    ring
  have gy : HasDerivAt (fun s => yc0 c + yc1 c * s + yc2 c * eta + yc3 c * s * eta)
      (yc1 c + yc3 c * eta) xi := by
    have := hasDerivAt_line (yc0 c + yc2 c * eta) (yc1 c + yc3 c * eta) xi
    refine this.congr_of_eventuallyEq (Filter.Eventually.of_forall fun s => ?_)
    ring
  have gx' : HasDerivAt (fun s => xc0 c + xc1 c * xi + xc2 c * s + xc3 c * xi * s)
      (xc2 c + xc3 c * xi) eta := by
    have := hasDerivAt_line (xc0 c + xc1 c * xi) (xc2 c + xc3 c * xi) eta
    refine this.congr_of_eventuallyEq (Filter.Eventually.of_forall fun s => ?_)
    ring
  have gy' : HasDerivAt (fun s => yc0 c + yc1 c * xi + yc2 c * s + yc3 c * xi * s)
      (yc2 c + yc3 c * xi) eta := by
    have := hasDerivAt_line (yc0 c + yc1 c * xi) (yc2 c + yc3 c * xi) eta
    refine this.congr_of_eventuallyEq (Filter.Eventually.of_forall fun s => ?_)
    ring
  have d1 := ((hasDerivAt_line (yc2 c) (yc3 c) xi).fun_mul (hasDerivAt_plane h₁ gx gy)).fun_sub
    ((hasDerivAt_line (xc2 c) (xc3 c) xi).fun_mul (hasDerivAt_plane h₂ gx gy))
  have d2 := ((hasDerivAt_line (yc1 c) (yc3 c) eta).fun_neg.fun_mul
    (hasDerivAt_plane h₁ gx' gy')).fun_add
    ((hasDerivAt_line (xc1 c) (xc3 c) eta).fun_mul (hasDerivAt_plane h₂ gx' gy'))
  unfold flux₁ flux₂ getOriginalFromRef
  rw [d1.deriv, d2.deriv, bilinDet]
  ring

lemma flux_divergence (h₁ : Differentiable ℝ F₁) (h₂ : Differentiable ℝ F₂) (xi eta : ℝ) :
    deriv (fun s => flux₁ c F₁ F₂ s eta) xi + deriv (fun s => flux₂ c F₁ F₂ xi s) eta
      = bilinDet c xi eta * (dx F₁ (getOriginalFromRef c xi eta) + dy F₂ (getOriginalFromRef c xi eta)) :=
  flux_divergence_at c F₁ F₂ xi eta (h₁ _) (h₂ _)

lemma slice_linear_mul {m : ℕ} {G : ℝ → ℝ → ℝ} (h : SliceX m G) (a b : ℝ) :
    SliceX (m + 1) fun ξ η => (a + b * ξ) * G ξ η := by
  intro η
  obtain ⟨P, hP, hG⟩ := h η
  refine ⟨(C b * X + C a) * P, ?_, fun ξ => by simp [hG, add_comm]⟩
  refine natDegree_mul_le.trans ?_
  have := natDegree_linear_le (a := b) (b := a)
  omega

lemma slice_const_mul {m : ℕ} {G : ℝ → ℝ → ℝ} (h : SliceX m G) (a : ℝ) :
    SliceX m fun ξ η => a * G ξ η := by
  intro η
  obtain ⟨P, hP, hG⟩ := h η
  exact ⟨C a * P, (natDegree_C_mul_le _ _).trans hP, fun ξ => by simp [hG]⟩

lemma slice_add {m : ℕ} {G H : ℝ → ℝ → ℝ} (h : SliceX m G) (h' : SliceX m H) :
    SliceX m fun ξ η => G ξ η + H ξ η := by
  intro η
  obtain ⟨P, hP, hG⟩ := h η
  obtain ⟨Q, hQ, hH⟩ := h' η
  exact ⟨P + Q, natDegree_add_le_of_degree_le hP hQ, fun ξ => by simp [hG, hH]⟩

lemma slice_congr {m : ℕ} {G H : ℝ → ℝ → ℝ} (h : SliceX m G) (e : ∀ ξ η, H ξ η = G ξ η) : SliceX m H := by
  intro η
  obtain ⟨P, hP, hG⟩ := h η
  exact ⟨P, hP, fun ξ => by rw [e, hG]⟩

variable {F₁ F₂} {m : ℕ}

lemma slice_total {F : ℝ × ℝ → ℝ} (h : IsPolynomial (fun i j => i + j ≤ m) F) :
    SliceX m (fun ξ η => F (getOriginalFromRef c ξ η)) ∧ SliceY m (fun ξ η => F (getOriginalFromRef c ξ η)) := by
  constructor <;> intro η
  · obtain ⟨P, hP, hF⟩ := h.line (xc0 c + xc2 c * η) (xc1 c + xc3 c * η) (yc0 c + yc2 c * η)
      (yc1 c + yc3 c * η)
    refine ⟨P, hP, fun ξ => ?_⟩
    rw [← hF]
    refine congrArg F (Prod.ext ?_ ?_) <;> simp only [getOriginalFromRef] <;> ring
  · obtain ⟨P, hP, hF⟩ := h.line (xc0 c + xc1 c * η) (xc2 c + xc3 c * η) (yc0 c + yc1 c * η)
      (yc2 c + yc3 c * η)
    refine ⟨P, hP, fun ξ => ?_⟩
    rw [← hF]
    refine congrArg F (Prod.ext ?_ ?_) <;> simp only [getOriginalFromRef] <;> ring

/-- Flux of total degree `m` on an arbitrary cell. -/
lemma flux_slices (h₁ : IsPolynomial (fun i j => i + j ≤ m) F₁) (h₂ : IsPolynomial (fun i j => i + j ≤ m) F₂) :
    SliceX (m + 1) (flux₁ c F₁ F₂) ∧ SliceY (m + 1) (flux₂ c F₁ F₂) := by
  constructor
  · refine slice_congr (slice_add (slice_linear_mul (slice_total c h₁).1 (yc2 c) (yc3 c))
      (slice_linear_mul (slice_total c h₂).1 (-xc2 c) (-xc3 c))) fun ξ η => ?_
    unfold flux₁
    ring
  · refine slice_congr (slice_add (slice_linear_mul (slice_total c h₁).2 (-yc1 c) (-yc3 c))
      (slice_linear_mul (slice_total c h₂).2 (xc1 c) (xc3 c))) fun ξ η => ?_
    unfold flux₂
    ring

/-- Flux of total degree `m` on a parallelogram. -/
lemma flux_slices_parallelogram (hc : IsParallelogram c) (h₁ : IsPolynomial (fun i j => i + j ≤ m) F₁)
    (h₂ : IsPolynomial (fun i j => i + j ≤ m) F₂) :
    SliceX m (flux₁ c F₁ F₂) ∧ SliceY m (flux₂ c F₁ F₂) := by
  have p1 : (c 1).1 - (c 0).1 = (c 2).1 - (c 3).1 := congrArg Prod.fst hc
  have p2 : (c 1).2 - (c 0).2 = (c 2).2 - (c 3).2 := congrArg Prod.snd hc
  have q1 : xc3 c = 0 := by simp only [xc3]; linear_combination (-1 / 4) * p1
  have q2 : yc3 c = 0 := by simp only [yc3]; linear_combination (-1 / 4) * p2
  constructor
  · refine slice_congr (slice_add (slice_const_mul (slice_total c h₁).1 (yc2 c))
      (slice_const_mul (slice_total c h₂).1 (-xc2 c))) fun ξ η => ?_
    unfold flux₁
    rw [q1, q2]
    ring
  · refine slice_congr (slice_add (slice_const_mul (slice_total c h₁).2 (-yc1 c))
      (slice_const_mul (slice_total c h₂).2 (xc1 c))) fun ξ η => ?_
    unfold flux₂
    rw [q1, q2]
    ring

/-- On a rectangle only the degree of each component in its own variable counts. -/
lemma flux_slices_rectangle (a b p q : ℝ) (h₁ : IsPolynomial (fun i _ => i ≤ m) F₁)
    (h₂ : IsPolynomial (fun _ j => j ≤ m) F₂) :
    SliceX m (flux₁ (rectangle a b p q) F₁ F₂) ∧ SliceY m (flux₂ (rectangle a b p q) F₁ F₂) := by
  set c : Quad := rectangle a b p q with hcdef
  have q1 : xc3 c = 0 := by simp [xc3, hcdef, rectangle]
  have q2 : yc3 c = 0 := by simp [yc3, hcdef, rectangle]
  have q3 : xc2 c = 0 := by simp [xc2, hcdef, rectangle]
  have q4 : yc1 c = 0 := by simp [yc1, hcdef, rectangle]
  constructor <;> intro η
  · obtain ⟨P, hP, hF⟩ := h₁.lineX (xc0 c) (xc1 c) (yc0 c + yc2 c * η)
    refine ⟨C (yc2 c) * P, (natDegree_C_mul_le _ _).trans hP, fun ξ => ?_⟩
    unfold flux₁ getOriginalFromRef
    simp [q1, q2, q3, q4, hF]
  · obtain ⟨P, hP, hF⟩ := h₂.lineY (xc0 c + xc1 c * η) (yc0 c) (yc2 c)
    refine ⟨C (xc1 c) * P, (natDegree_C_mul_le _ _).trans hP, fun ξ => ?_⟩
    unfold flux₂ getOriginalFromRef
    simp [q1, q2, q3, q4, hF]

end

end FastVPINNs
