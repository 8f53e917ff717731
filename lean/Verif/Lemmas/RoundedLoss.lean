import Verif.Lemmas.Rounded
import Verif.Lemmas.Train
import Verif.Spec.Rounded
import Mathlib.Tactic.NormNum.OfScientific

/-! # The expressions of the loss functions -/

namespace FastVPINNs

open Spec

section
variable {nc nt nq : ℕ}

lemma depth_sum_le {n : ℕ} {f : Fin n → Expr} {d : ℕ} (h : ∀ i, (f i).depth ≤ d) :
    (ExprOf.sum n f).depth ≤ d + (n - 1) :=
  Nat.add_le_add_right (Finset.sup_le fun i _ => h i) _

lemma depth_mean_le {n : ℕ} {f : Fin n → Expr} {d : ℕ} (h : ∀ i, (f i).depth ≤ d) :
    (ExprOf.mean n f).depth ≤ d + (n - 1) + 2 :=
  Nat.add_le_add_right (Nat.add_le_add_right (Finset.sup_le fun i _ => h i) _) _

lemma matvecE_eval (A : Fin nc → Fin nt → Fin nq → Expr) (v : Fin nc → Fin nq → Expr) (c t) :
    (matvecE A v c t).eval = ∑ q, (A c t q).eval * (v c q).eval := rfl

lemma matvecE_mag (A : Fin nc → Fin nt → Fin nq → Expr) (v : Fin nc → Fin nq → Expr) (c t) :
    (matvecE A v c t).mag = ∑ q, (A c t q).mag * (v c q).mag := rfl

lemma matvecE_depth {A : Fin nc → Fin nt → Fin nq → Expr} {v : Fin nc → Fin nq → Expr} {i k : ℕ} {c t}
    (hA : ∀ q, (A c t q).depth ≤ i) (hv : ∀ q, (v c q).depth ≤ k) :
    (matvecE A v c t).depth ≤ i + k + nq := by
  have : (matvecE A v c t).depth ≤ (i + k + 1) + (nq - 1) :=
    depth_sum_le fun q => by
      show (A c t q).depth + (v c q).depth + 1 ≤ _
      have := hA q
      have := hv q
      omega
  rcases Nat.eq_zero_or_pos nq with rfl | h
  · simp [matvecE, ExprOf.depth]
  · omega

/-- What is needed of the expression of a residual. -/
structure ResidualExpr (V GX GY : Fin nc → Fin nt → Fin nq → ℝ) (u ux uy : Fin nc → Fin nq → ℝ)
    (F : Fin nt → Fin nc → ℝ) (j : ℕ) (a : Fin nc → Fin nq → ℝ) (b : ℝ × ℝ) (r : ℝ) (e : Expr) (c : Fin nc)
    (t : Fin nt) : Prop where
  eval : e.eval = testedResidual V GX GY u ux uy F a b r c t
  mag : e.mag = residualMag V GX GY u ux uy F a b r c t
  depth : e.depth ≤ nq + 4 * j + 5

variable (j : ℕ) (V GX GY : Fin nc → Fin nt → Fin nq → ℝ) (u ux uy : Fin nc → Fin nq → ℝ)
  (F : Fin nt → Fin nc → ℝ)

/-- The residual of the convection-diffusion losses. -/
lemma cd2dRest_ok {p : ParamDict} {a : Fin nc → Fin nq → ℝ} {b : ℝ × ℝ} {r : ℝ}
    (hx : HasParam p "b_x" b.1) (hy : HasParam p "b_y" b.2) (hc : HasParam p "c" r)
    (diff : Fin nt → Fin nc → Expr)
    (he : ∀ t c, (diff t c).eval = ∑ q, a c q * (ux c q * GX c t q + uy c q * GY c t q))
    (hm : ∀ t c, (diff t c).mag = ∑ q, |a c q| * (|ux c q| * |GX c t q| + |uy c q| * |GY c t q|))
    (hd : ∀ t c, (diff t c).depth ≤ nq + 3 * j + 2) :
    ∃ es : Fin nt → Fin nc → Expr, pdeLossCd2dRestE j V u ux uy F p diff = .ok (meanSquare0E es) ∧
      ∀ t c, ResidualExpr V GX GY u ux uy F j a b r (es t c) c t := by
  unfold pdeLossCd2dRestE paramGetE
  simp only [paramGet_ok.2 hx, paramGet_ok.2 hy, paramGet_ok.2 hc]
  refine ⟨_, rfl, fun t c => ⟨?_, ?_, ?_⟩⟩
  · simp only [ExprOf.eval, leaf_real, transposeE, matvecE, readMat, readPred, he, testedResidual, Finset.mul_sum,
      ← Finset.sum_add_distrib]
    congr 1
    exact Finset.sum_congr rfl fun q _ => by ring
  · simp only [ExprOf.mag, leaf_real, transposeE, matvecE, readMat, readPred, hm, residualMag, Finset.mul_sum,
      ← Finset.sum_add_distrib]
    congr 1
    exact Finset.sum_congr rfl fun q _ => by ring
  · have hV : ∀ w : Fin nc → Fin nq → ℝ,
        (transposeE (matvecE (readMat j V) (readPred j w)) t c).depth ≤ j + j + nq := fun w =>
      matvecE_depth (fun q => le_rfl) (fun q => le_rfl)
    have h1 := hV ux
    have h2 := hV uy
    have h3 := hV u
    have h4 := hd t c
    simp only [ExprOf.depth, readPred] at *
    omega

lemma poisson_ok {p : ParamDict} {e : ℝ} (he : HasParam p "eps" e) :
    ∃ es : Fin nt → Fin nc → Expr, pdeLossPoissonE j GX GY ux uy F p = .ok (meanSquare0E es) ∧
      ∀ t c, ResidualExpr V GX GY u ux uy F j (fun _ _ => e) (0, 0) 0 (es t c) c t := by
  unfold pdeLossPoissonE paramGetE
  simp only [paramGet_ok.2 he]
  refine ⟨_, rfl, fun t c => ⟨?_, ?_, ?_⟩⟩
  · simp only [ExprOf.eval, leaf_real, transposeE, matvecE, readMat, readPred, testedResidual, Finset.mul_sum,
      ← Finset.sum_add_distrib]
    congr 1
    exact Finset.sum_congr rfl fun q _ => by ring
  · simp only [ExprOf.mag, leaf_real, transposeE, matvecE, readMat, readPred, residualMag, Finset.mul_sum,
      ← Finset.sum_add_distrib, abs_zero]
    congr 1
    exact Finset.sum_congr rfl fun q _ => by ring
  · have h1 : (transposeE (matvecE (readMat j GX) (readPred j ux)) t c).depth ≤ j + j + nq :=
      matvecE_depth (fun q => le_rfl) (fun q => le_rfl)
    have h2 : (transposeE (matvecE (readMat j GY) (readPred j uy)) t c).depth ≤ j + j + nq :=
      matvecE_depth (fun q => le_rfl) (fun q => le_rfl)
    simp only [ExprOf.depth, readPred] at *
    omega

lemma cd2d_ok {ep p : ParamDict} {e : ℝ} {b : ℝ × ℝ} {r : ℝ} (he : HasParam ep "eps" e)
    (hx : HasParam p "b_x" b.1) (hy : HasParam p "b_y" b.2) (hc : HasParam p "c" r) :
    ∃ es : Fin nt → Fin nc → Expr, pdeLossCd2dE j V GX GY u ux uy F ep p = .ok (meanSquare0E es) ∧
      ∀ t c, ResidualExpr V GX GY u ux uy F j (fun _ _ => e) b r (es t c) c t := by
  unfold pdeLossCd2dE paramGetE
  simp only [paramGet_ok.2 he]
  refine cd2dRest_ok j V GX GY u ux uy F hx hy hc _ (fun t c => ?_) (fun t c => ?_) (fun t c => ?_)
  · simp only [ExprOf.eval, leaf_real, transposeE, matvecE, readMat, readPred, Finset.mul_sum, ← Finset.sum_add_distrib]
    exact Finset.sum_congr rfl fun q _ => by ring
  · simp only [ExprOf.mag, leaf_real, transposeE, matvecE, readMat, readPred, Finset.mul_sum, ← Finset.sum_add_distrib]
    exact Finset.sum_congr rfl fun q _ => by ring
  · have h1 : (transposeE (matvecE (readMat j GX) (readPred j ux)) t c).depth ≤ j + j + nq :=
      matvecE_depth (fun q => le_rfl) (fun q => le_rfl)
    have h2 : (transposeE (matvecE (readMat j GY) (readPred j uy)) t c).depth ≤ j + j + nq :=
      matvecE_depth (fun q => le_rfl) (fun q => le_rfl)
    simp only [ExprOf.depth] at *
    omega

/-- The expression of every loss function: the same parameters are needed, the exact value of each residual
is the tested residual. -/
lemma lossE_ok {kind : LossKind} {p ip : ParamDict} {coeffs : List (Fin nc → Fin nq → ℝ)}
    {a : Fin nc → Fin nq → ℝ} {b : ℝ × ℝ} {r : ℝ} (h : Coefficients kind p ip coeffs a b r) :
    ∃ es : Fin nt → Fin nc → Expr, lossE j V GX GY u ux uy F kind p ip coeffs = .ok (meanSquare0E es) ∧
      ∀ t c, ResidualExpr V GX GY u ux uy F j a b r (es t c) c t := by
  cases kind with
  | poisson =>
    obtain ⟨e, he, rfl, rfl, rfl⟩ := h
    exact poisson_ok j V GX GY u ux uy F he
  | poissonInverse =>
    obtain ⟨e, he, rfl, rfl, rfl⟩ := h
    exact poisson_ok j V GX GY u ux uy F he
  | cd2d =>
    obtain ⟨e, he, rfl, hx, hy, hc⟩ := h
    exact cd2d_ok j V GX GY u ux uy F he hx hy hc
  | cd2dInverse =>
    obtain ⟨e, he, rfl, hx, hy, hc⟩ := h
    exact cd2d_ok j V GX GY u ux uy F he hx hy hc
  | cd2dInverseDomain =>
    obtain ⟨ha, hx, hy, hc⟩ := h
    show ∃ es, pdeLossCd2dInverseDomainE j V GX GY u ux uy F p coeffs = _ ∧ _
    unfold pdeLossCd2dInverseDomainE
    simp only [(pyIndex_zero _ _).2 ha]
    refine cd2dRest_ok j V GX GY u ux uy F hx hy hc _ (fun t c => ?_) (fun t c => ?_) (fun t c => ?_)
    · simp only [ExprOf.eval, transposeE, matvecE, readMat, ← Finset.sum_add_distrib]
      exact Finset.sum_congr rfl fun q _ => by ring
    · simp only [ExprOf.mag, transposeE, matvecE, readMat, ← Finset.sum_add_distrib]
      exact Finset.sum_congr rfl fun q _ => by ring
    · have h1 : (transposeE (matvecE (readMat j GX) fun c q => .mul (.val j (ux c q)) (.val j (a c q)))
          t c).depth ≤ j + (j + j + 1) + nq :=
        matvecE_depth (fun q => le_rfl) (fun q => le_rfl)
      have h2 : (transposeE (matvecE (readMat j GY) fun c q => .mul (.val j (uy c q)) (.val j (a c q)))
          t c).depth ≤ j + (j + j + 1) + nq :=
        matvecE_depth (fun q => le_rfl) (fun q => le_rfl)
      simp only [ExprOf.depth] at *
      omega
  | helmholtz =>
    obtain ⟨e, k, he, hk, rfl, rfl, rfl⟩ := h
    show ∃ es, pdeLossHelmholtzE j V GX GY u ux uy F p = _ ∧ _
    unfold pdeLossHelmholtzE paramGetE
    simp only [paramGet_ok.2 he, paramGet_ok.2 hk]
    refine ⟨_, rfl, fun t c => ⟨?_, ?_, ?_⟩⟩
    · simp only [ExprOf.eval, leaf_real, transposeE, matvecE, readMat, readPred, testedResidual, Finset.mul_sum,
        ← Finset.sum_add_distrib]
      congr 1
      exact Finset.sum_congr rfl fun q _ => by norm_num; ring
    · have h1 : |(-1.0 : ℝ)| = 1 := by norm_num
      simp only [ExprOf.mag, leaf_real, transposeE, matvecE, readMat, readPred, residualMag, Finset.mul_sum,
        ← Finset.sum_add_distrib, abs_zero, h1, abs_neg, abs_mul]
      congr 1
      exact Finset.sum_congr rfl fun q _ => by ring
    · have h1 : (transposeE (matvecE (readMat j GX) (readPred j ux)) t c).depth ≤ j + j + nq :=
        matvecE_depth (fun q => le_rfl) (fun q => le_rfl)
      have h2 : (transposeE (matvecE (readMat j GY) (readPred j uy)) t c).depth ≤ j + j + nq :=
        matvecE_depth (fun q => le_rfl) (fun q => le_rfl)
      have h3 : (transposeE (matvecE (readMat j V) (readPred j u)) t c).depth ≤ j + j + nq :=
        matvecE_depth (fun q => le_rfl) (fun q => le_rfl)
      simp only [ExprOf.depth, readPred] at *
      omega

/-- A loss expression succeeds only when the parameters are there. -/
lemma lossE_coefficients {kind : LossKind} {p ip : ParamDict} {coeffs : List (Fin nc → Fin nq → ℝ)}
    {es : Fin nc → Expr} (h : lossE j V GX GY u ux uy F kind p ip coeffs = .ok es) :
    ∃ a b r, Coefficients kind p ip coeffs a b r := by
  have rest : ∀ {p : ParamDict} {diff : Fin nt → Fin nc → Expr} {es},
      pdeLossCd2dRestE j V u ux uy F p diff = .ok es →
      ∃ bx b2 r, HasParam p "b_x" bx ∧ HasParam p "b_y" b2 ∧ HasParam p "c" r := by
    intro p diff es h
    unfold pdeLossCd2dRestE paramGetE at h
    cases hx : paramGet p "b_x" with
    | error e => simp [hx] at h
    | ok bx =>
      cases hy : paramGet p "b_y" with
      | error e => simp [hx, hy] at h
      | ok b2 =>
        cases hc : paramGet p "c" with
        | error e => simp [hx, hy, hc] at h
        | ok cc => exact ⟨bx, b2, cc, paramGet_ok.1 hx, paramGet_ok.1 hy, paramGet_ok.1 hc⟩
  cases kind with
  | poisson =>
    change pdeLossPoissonE j GX GY ux uy F p = _ at h
    unfold pdeLossPoissonE paramGetE at h
    cases he : paramGet p "eps" with
    | error e => simp [he] at h
    | ok e => exact ⟨_, _, _, e, paramGet_ok.1 he, rfl, rfl, rfl⟩
  | poissonInverse =>
    change pdeLossPoissonE j GX GY ux uy F ip = _ at h
    unfold pdeLossPoissonE paramGetE at h
    cases he : paramGet ip "eps" with
    | error e => simp [he] at h
    | ok e => exact ⟨_, _, _, e, paramGet_ok.1 he, rfl, rfl, rfl⟩
  | cd2d =>
    change pdeLossCd2dE j V GX GY u ux uy F p p = _ at h
    unfold pdeLossCd2dE paramGetE at h
    cases he : paramGet p "eps" with
    | error e => simp [he] at h
    | ok e =>
      simp only [he] at h
      obtain ⟨bx, b2, r, hx, hy, hc⟩ := rest h
      exact ⟨_, (bx, b2), r, e, paramGet_ok.1 he, rfl, hx, hy, hc⟩
  | cd2dInverse =>
    change pdeLossCd2dE j V GX GY u ux uy F ip p = _ at h
    unfold pdeLossCd2dE paramGetE at h
    cases he : paramGet ip "eps" with
    | error e => simp [he] at h
    | ok e =>
      simp only [he] at h
      obtain ⟨bx, b2, r, hx, hy, hc⟩ := rest h
      exact ⟨_, (bx, b2), r, e, paramGet_ok.1 he, rfl, hx, hy, hc⟩
  | cd2dInverseDomain =>
    change pdeLossCd2dInverseDomainE j V GX GY u ux uy F p coeffs = _ at h
    unfold pdeLossCd2dInverseDomainE at h
    cases hi : pyIndex coeffs 0 with
    | error e => simp [hi] at h
    | ok a =>
      simp only [hi] at h
      obtain ⟨bx, b2, r, hx, hy, hc⟩ := rest h
      exact ⟨a, (bx, b2), r, (pyIndex_zero _ _).1 hi, hx, hy, hc⟩
  | helmholtz =>
    change pdeLossHelmholtzE j V GX GY u ux uy F p = _ at h
    unfold pdeLossHelmholtzE paramGetE at h
    cases he : paramGet p "eps" with
    | error e => simp [he] at h
    | ok e =>
      cases hk : paramGet p "k" with
      | error e => simp [he, hk] at h
      | ok k => exact ⟨_, _, _, e, k, paramGet_ok.1 he, paramGet_ok.1 hk, rfl, rfl, rfl⟩

end

end FastVPINNs
