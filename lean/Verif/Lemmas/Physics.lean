import Verif.Spec.WeakForm
import Mathlib.Tactic.Ring
import Mathlib.Tactic.LinearCombination
import Mathlib.Tactic.Positivity
import Mathlib.Tactic.NormNum.OfScientific

/-! # Lemmas about the loss functions -/

namespace FastVPINNs

open Spec

lemma paramGet_ok {d : ParamDict} {k : String} {v : ℝ} : paramGet d k = .ok v ↔ HasParam d k v := by
  unfold paramGet HasParam
  cases d with
  | none => simp
  | some l =>
    simp only [Option.some.injEq, exists_eq_left']
    cases h : l.lookup k <;> simp

lemma pyIndex_zero {α : Type} (l : List α) (a : α) : pyIndex l 0 = .ok a ↔ l.head? = some a := by
  unfold pyIndex
  cases l <;> simp

lemma meanSquare0_eq {m n : ℕ} (R : Fin m → Fin n → ℝ) (j : Fin n) :
    meanSquare0 R j = meanSq fun i => R i j := by
  simp [meanSquare0, meanSq, pow_two]

/-- Every loss function succeeds exactly when its parameters are there, and then is the mean of the
squared residuals. -/
lemma runLoss_ok_iff (kind : LossKind) {nc nt nq : ℕ} (V GX GY : Fin nc → Fin nt → Fin nq → ℝ)
    (u ux uy : Fin nc → Fin nq → ℝ) (F : Fin nt → Fin nc → ℝ) (p ip : ParamDict)
    (coeffs : List (Fin nc → Fin nq → ℝ)) (loss : Fin nc → ℝ) :
    runLoss kind V GX GY u ux uy F p ip coeffs = .ok loss ↔
      ∃ a b r, Coefficients kind p ip coeffs a b r ∧
        loss = fun c => meanSq (testedResidual V GX GY u ux uy F a b r c) := by
  have key : ∀ (R : Fin nt → Fin nc → ℝ) (a : Fin nc → Fin nq → ℝ) (b : ℝ × ℝ) (r : ℝ),
      (∀ t c, R t c = testedResidual V GX GY u ux uy F a b r c t) →
      meanSquare0 R = fun c => meanSq (testedResidual V GX GY u ux uy F a b r c) := by
    intro R a b r h
    funext c
    rw [meanSquare0_eq]
    congr 1
    funext t
    exact h t c
  cases kind with
  | poisson =>
    simp only [runLoss, pdeLossPoisson, Coefficients]
    constructor
    · intro h
      cases he : paramGet p "eps" with
      | error e => simp [he] at h
      | ok eps =>
        simp only [he, Except.ok.injEq] at h
        refine ⟨_, _, _, ⟨eps, paramGet_ok.1 he, rfl, rfl, rfl⟩, ?_⟩
        rw [← h]
        apply key
        intro t c
        simp only [transpose, matvec, testedResidual, ← Finset.sum_add_distrib, Finset.mul_sum]
        congr 1
        exact Finset.sum_congr rfl fun q _ => by ring
    · rintro ⟨a, b, r, ⟨eps, he, rfl, rfl, rfl⟩, rfl⟩
      rw [paramGet_ok.2 he]
      simp only [Except.ok.injEq]
      apply key
      intro t c
      simp only [transpose, matvec, testedResidual, ← Finset.sum_add_distrib, Finset.mul_sum]
      congr 1
      exact Finset.sum_congr rfl fun q _ => by ring
  | poissonInverse =>
    simp only [runLoss, pdeLossPoissonInverse, Coefficients]
    constructor
    · intro h
      cases he : paramGet ip "eps" with
      | error e => simp [he] at h
      | ok eps =>
        simp only [he, Except.ok.injEq] at h
        refine ⟨_, _, _, ⟨eps, paramGet_ok.1 he, rfl, rfl, rfl⟩, ?_⟩
        rw [← h]
        apply key
        intro t c
        simp only [transpose, matvec, testedResidual, ← Finset.sum_add_distrib, Finset.mul_sum]
        congr 1
        exact Finset.sum_congr rfl fun q _ => by ring
    · rintro ⟨a, b, r, ⟨eps, he, rfl, rfl, rfl⟩, rfl⟩
      rw [paramGet_ok.2 he]
      simp only [Except.ok.injEq]
      apply key
      intro t c
      simp only [transpose, matvec, testedResidual, ← Finset.sum_add_distrib, Finset.mul_sum]
      congr 1
      exact Finset.sum_congr rfl fun q _ => by ring
  | cd2d =>
    simp only [runLoss, pdeLossCd2d, Coefficients]
    constructor
    · intro h
      cases he : paramGet p "eps" with
      | error e => simp [he] at h
      | ok eps =>
        cases hx : paramGet p "b_x" with
        | error e => simp [he, hx] at h
        | ok bx =>
          cases hy : paramGet p "b_y" with
          | error e => simp [he, hx, hy] at h
          | ok b2 =>
            cases hc : paramGet p "c" with
            | error e => simp [he, hx, hy, hc] at h
            | ok cc =>
              simp only [he, hx, hy, hc, Except.ok.injEq] at h
              refine ⟨_, (bx, b2), cc, ⟨eps, paramGet_ok.1 he, rfl, paramGet_ok.1 hx, paramGet_ok.1 hy,
                paramGet_ok.1 hc⟩, ?_⟩
              rw [← h]
              apply key
              intro t c
              simp only [transpose, matvec, testedResidual, ← Finset.sum_add_distrib, Finset.mul_sum]
              congr 1
              exact Finset.sum_congr rfl fun q _ => by ring
    · rintro ⟨a, b, r, ⟨eps, he, rfl, hx, hy, hc⟩, rfl⟩
      rw [paramGet_ok.2 he, paramGet_ok.2 hx, paramGet_ok.2 hy, paramGet_ok.2 hc]
      simp only [Except.ok.injEq]
      apply key
      intro t c
      simp only [transpose, matvec, testedResidual, ← Finset.sum_add_distrib, Finset.mul_sum]
      congr 1
      exact Finset.sum_congr rfl fun q _ => by ring
  | cd2dInverse =>
    simp only [runLoss, pdeLossCd2dInverse, Coefficients]
    constructor
    · intro h
      cases he : paramGet ip "eps" with
      | error e => simp [he] at h
      | ok eps =>
        cases hx : paramGet p "b_x" with
        | error e => simp [he, hx] at h
        | ok bx =>
          cases hy : paramGet p "b_y" with
          | error e => simp [he, hx, hy] at h
          | ok b2 =>
            cases hc : paramGet p "c" with
            | error e => simp [he, hx, hy, hc] at h
            | ok cc =>
              simp only [he, hx, hy, hc, Except.ok.injEq] at h
              refine ⟨_, (bx, b2), cc, ⟨eps, paramGet_ok.1 he, rfl, paramGet_ok.1 hx, paramGet_ok.1 hy,
                paramGet_ok.1 hc⟩, ?_⟩
              rw [← h]
              apply key
              intro t c
              simp only [transpose, matvec, testedResidual, ← Finset.sum_add_distrib, Finset.mul_sum]
              congr 1
              exact Finset.sum_congr rfl fun q _ => by ring
    · rintro ⟨a, b, r, ⟨eps, he, rfl, hx, hy, hc⟩, rfl⟩
      rw [paramGet_ok.2 he, paramGet_ok.2 hx, paramGet_ok.2 hy, paramGet_ok.2 hc]
      simp only [Except.ok.injEq]
      apply key
      intro t c
      simp only [transpose, matvec, testedResidual, ← Finset.sum_add_distrib, Finset.mul_sum]
      congr 1
      exact Finset.sum_congr rfl fun q _ => by ring
  | cd2dInverseDomain =>
    simp only [runLoss, pdeLossCd2dInverseDomain, Coefficients]
    constructor
    · intro h
      cases he : pyIndex coeffs 0 with
      | error e => simp [he] at h
      | ok a =>
        cases hx : paramGet p "b_x" with
        | error e => simp [he, hx] at h
        | ok bx =>
          cases hy : paramGet p "b_y" with
          | error e => simp [he, hx, hy] at h
          | ok b2 =>
            cases hc : paramGet p "c" with
            | error e => simp [he, hx, hy, hc] at h
            | ok cc =>
              simp only [he, hx, hy, hc, Except.ok.injEq] at h
              refine ⟨a, (bx, b2), cc, ⟨(pyIndex_zero _ _).1 he, paramGet_ok.1 hx, paramGet_ok.1 hy,
                paramGet_ok.1 hc⟩, ?_⟩
              rw [← h]
              apply key
              intro t c
              simp only [transpose, matvec, testedResidual, ← Finset.sum_add_distrib, Finset.mul_sum]
              congr 1
              exact Finset.sum_congr rfl fun q _ => by ring
    · rintro ⟨a, b, r, ⟨he, hx, hy, hc⟩, rfl⟩
      rw [(pyIndex_zero _ _).2 he, paramGet_ok.2 hx, paramGet_ok.2 hy, paramGet_ok.2 hc]
      simp only [Except.ok.injEq]
      apply key
      intro t c
      simp only [transpose, matvec, testedResidual, ← Finset.sum_add_distrib, Finset.mul_sum]
      congr 1
      exact Finset.sum_congr rfl fun q _ => by ring
  | helmholtz =>
    simp only [runLoss, pdeLossHelmholtz, Coefficients]
    constructor
    · intro h
      cases he : paramGet p "eps" with
      | error e => simp [he] at h
      | ok eps =>
        cases hk : paramGet p "k" with
        | error e => simp [he, hk] at h
        | ok k =>
          simp only [he, hk, Except.ok.injEq] at h
          refine ⟨_, _, _, ⟨eps, k, paramGet_ok.1 he, paramGet_ok.1 hk, rfl, rfl, rfl⟩, ?_⟩
          rw [← h]
          apply key
          intro t c
          simp only [transpose, matvec, testedResidual, ← Finset.sum_add_distrib, Finset.mul_sum]
          congr 1
          exact Finset.sum_congr rfl fun q _ => by norm_num; ring
    · rintro ⟨a, b, r, ⟨eps, k, he, hk, rfl, rfl, rfl⟩, rfl⟩
      rw [paramGet_ok.2 he, paramGet_ok.2 hk]
      simp only [Except.ok.injEq]
      apply key
      intro t c
      simp only [transpose, matvec, testedResidual, ← Finset.sum_add_distrib, Finset.mul_sum]
      congr 1
      exact Finset.sum_congr rfl fun q _ => by norm_num; ring

lemma meanSq_nonneg {n : ℕ} (x : Fin n → ℝ) : 0 ≤ meanSq x :=
  div_nonneg (Finset.sum_nonneg fun _ _ => mul_self_nonneg _) (Nat.cast_nonneg n)

lemma meanSq_eq_zero {n : ℕ} (hn : n ≠ 0) (x : Fin n → ℝ) : meanSq x = 0 ↔ ∀ i, x i = 0 := by
  have hn' : (n : ℝ) ≠ 0 := by exact_mod_cast hn
  unfold meanSq
  rw [div_eq_zero_iff, or_iff_left hn', Finset.sum_eq_zero_iff_of_nonneg fun i _ => mul_self_nonneg _]
  simp

lemma meanSq_perm {n : ℕ} (x : Fin n → ℝ) (τ : Equiv.Perm (Fin n)) : meanSq (fun i => x (τ i)) = meanSq x := by
  unfold meanSq
  rw [Equiv.sum_comp τ fun i => x i * x i]

end FastVPINNs
