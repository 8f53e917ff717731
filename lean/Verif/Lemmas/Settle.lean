import Verif.Props.Training
import Verif.Lemmas.OutputLayer
import Mathlib.Analysis.SpecificLimits.Basic
import Mathlib.Topology.Algebra.Order.LiminfLimsup

/-! # Where a training settles -/

namespace FastVPINNs

open Spec Filter Topology

/-- Moving averages of a convergent sequence converge to its limit. -/
lemma movingAverage_tendsto {a : ℝ} (ha0 : 0 ≤ a) (ha1 : a < 1) {m g : ℕ → ℝ} {l : ℝ}
    (hm : ∀ k, m (k + 1) = a * m k + (1 - a) * g k) (hg : Tendsto g atTop (𝓝 l)) : Tendsto m atTop (𝓝 l) := by
  rw [Metric.tendsto_atTop] at hg ⊢
  intro ε hε
  obtain ⟨N, hN⟩ := hg (ε / 2) (by linarith)
  have hb : ∀ j, |m (N + j) - l| ≤ a ^ j * |m N - l| + ε / 2 := by
    intro j
    induction j with
    | zero => simp; linarith
    | succ j ih =>
      have e : m (N + (j + 1)) - l = a * (m (N + j) - l) + (1 - a) * (g (N + j) - l) := by
        rw [show N + (j + 1) = N + j + 1 by omega, hm]; ring
      have hd := (hN (N + j) (by omega)).le
      rw [Real.dist_eq] at hd
      rw [e]
      calc |a * (m (N + j) - l) + (1 - a) * (g (N + j) - l)|
          ≤ a * |m (N + j) - l| + (1 - a) * |g (N + j) - l| := by
            refine (abs_add_le _ _).trans ?_
            rw [abs_mul, abs_mul, abs_of_nonneg ha0, abs_of_nonneg (by linarith : (0 : ℝ) ≤ 1 - a)]
        _ ≤ a * (a ^ j * |m N - l| + ε / 2) + (1 - a) * (ε / 2) :=
            add_le_add (mul_le_mul_of_nonneg_left ih ha0) (mul_le_mul_of_nonneg_left hd (by linarith))
        _ = a ^ (j + 1) * |m N - l| + ε / 2 := by rw [pow_succ]; ring
  have hz : Tendsto (fun j : ℕ => a ^ j * |m N - l|) atTop (𝓝 0) := by
    simpa using (tendsto_pow_atTop_nhds_zero_of_lt_one ha0 ha1).mul_const |m N - l|
  obtain ⟨J, hJ⟩ := Metric.tendsto_atTop.mp hz (ε / 2) (by linarith)
  refine ⟨N + J, fun n hn => ?_⟩
  obtain ⟨j, rfl⟩ : ∃ j, n = N + j := ⟨n - N, by omega⟩
  have h1 := hJ j (by omega)
  rw [Real.dist_eq, sub_zero] at h1
  have h2 := (abs_lt.mp h1).2
  rw [Real.dist_eq]
  linarith [hb j]

/-- The weights with given values of some of the variables. -/
noncomputable def onVars (θ : Weights) (S : Finset Var) (e : S → ℝ) : Weights :=
  fun x => if hx : x ∈ S then e ⟨x, hx⟩ else θ x

lemma onVars_contDiff (θ : Weights) (S : Finset Var) (x : Var) : ContDiff ℝ 2 fun e => onVars θ S e x := by
  unfold onVars
  by_cases hx : x ∈ S
  · simp only [dif_pos hx]
    exact contDiff_apply ℝ ℝ (⟨x, hx⟩ : S)
  · simp only [dif_neg hx]
    exact contDiff_const

/-- The entries of the gradient as partial derivatives of a function of finitely many variables. -/
lemma lossGradient_onVars {α : Type} {fwd : Forward α} (h : SmoothTotal fwd) (θ : Weights) (S : Finset Var)
    (i : S) (e : S → ℝ) :
    lossGradient fwd (onVars θ S e) i.1 = fderiv ℝ (fun e => fwd.total (onVars θ S e)) e (Pi.single i 1) := by
  classical
  have hF : ContDiff ℝ 1 fun e => fwd.total (onVars θ S e) := h (S → ℝ) _ (onVars_contDiff θ S)
  have hd : HasFDerivAt (fun e => fwd.total (onVars θ S e)) _ (Function.update e i (e i)) :=
    (hF.differentiable (by norm_num) (Function.update e i (e i))).hasFDerivAt
  have hline : HasDerivAt (fun t : ℝ => Function.update e i t) (Pi.single i 1) (e i) :=
    hasDerivAt_pi.mpr fun k => by
      by_cases hk : k = i
      · subst hk
        simp only [Function.update_self, Pi.single_eq_same]
        exact hasDerivAt_id _
      · simp only [Function.update_of_ne hk, Pi.single_eq_of_ne hk]
        exact hasDerivAt_const _ _
  have hc := hd.comp_hasDerivAt (e i) hline
  rw [Function.update_eq_self] at hc
  have hup : ∀ t, onVars θ S (Function.update e i t) = Function.update (onVars θ S e) i.1 t := by
    intro t
    funext x
    unfold onVars
    by_cases hx : x = i.1
    · subst hx
      simp
    · rw [Function.update_of_ne hx]
      split_ifs with hS
      · rw [Function.update_of_ne (fun hh => hx (congrArg Subtype.val hh))]
      · rfl
  have hval : onVars θ S e i.1 = e i := by simp [onVars]
  unfold lossGradient
  rw [hval]
  have e2 : (fun t => fwd.total (Function.update (onVars θ S e) i.1 t))
      = (fun e => fwd.total (onVars θ S e)) ∘ fun t => Function.update e i t := by
    funext t
    simp only [Function.comp, hup]
  rw [e2]
  exact hc.deriv

/-- When the weights of an endless training with a constant learning rate other than zero converge, every entry of
the gradient is zero at their limit, and the losses converge to the loss there. -/
lemma settles {α : Type} {fwd : Forward α} (hsm : SmoothTotal fwd) (inDim : ℕ) (specs : List LayerSpec)
    (keys : List String) (hkeys : keys.Nodup) (lr : LearningRate) (r : ℝ) (hr : r ≠ 0) (hlr : ∀ k, lr.at k = r)
    (st : ℕ → TrainState) (hst : ∀ k, ∃ out, trainStepWith fwd (trainableVariables inDim specs keys) lr (st k)
      = .ok (out, st (k + 1)))
    (θ : Weights) (hlim : ∀ x, Tendsto (fun k => (st k).weights x) atTop (𝓝 (θ x))) :
    (∀ x ∈ trainableVariables inDim specs keys, lossGradient fwd θ x = 0) ∧
      Tendsto (fun k => fwd.total (st k).weights) atTop (𝓝 (fwd.total θ)) := by
  classical
  choose out hout using hst
  have hup := fun k => C73_update fwd inDim specs keys hkeys lr (st k) (st (k + 1)) (out k) (hout k)
  have hconst0 : ∀ k, ∀ x ∉ trainableVariables inDim specs keys, (st k).weights x = (st 0).weights x := by
    intro k x hx
    induction k with
    | zero => rfl
    | succ k ih => rw [(hup k).2.2.2 x hx, ih]
  have hconst : ∀ k, ∀ x ∉ trainableVariables inDim specs keys, (st k).weights x = θ x := by
    intro k x hx
    rw [hconst0 k x hx]
    exact tendsto_nhds_unique (tendsto_const_nhds.congr fun j => (hconst0 j x hx).symm) (hlim x)
  let S := (trainableVariables inDim specs keys).toFinset
  have hmem : ∀ x, x ∈ S ↔ x ∈ trainableVariables inDim specs keys := fun x => List.mem_toFinset
  let e : ℕ → S → ℝ := fun k i => (st k).weights i.1
  let e' : S → ℝ := fun i => θ i.1
  have hw : ∀ k, onVars θ S (e k) = (st k).weights := by
    intro k
    funext x
    unfold onVars
    split_ifs with hx
    · rfl
    · exact (hconst k x fun hh => hx ((hmem x).2 hh)).symm
  have hw' : onVars θ S e' = θ := by
    funext x
    unfold onVars
    split_ifs <;> rfl
  have he : Tendsto e atTop (𝓝 e') := tendsto_pi_nhds.mpr fun i => hlim i.1
  have hF : ContDiff ℝ 1 fun e => fwd.total (onVars θ S e) := hsm (S → ℝ) _ (onVars_contDiff θ S)
  refine ⟨fun x hx => ?_, ?_⟩
  · let i : S := ⟨x, (hmem x).2 hx⟩
    have hg : Tendsto (fun k => lossGradient fwd (st k).weights x) atTop (𝓝 (lossGradient fwd θ x)) := by
      have hc : Continuous fun e => lossGradient fwd (onVars θ S e) x := by
        have : (fun e => lossGradient fwd (onVars θ S e) x)
            = fun e => fderiv ℝ (fun e => fwd.total (onVars θ S e)) e (Pi.single i 1) := by
          funext e
          exact lossGradient_onVars hsm θ S i e
        rw [this]
        exact (hF.continuous_fderiv (by norm_num)).clm_apply continuous_const
      have h1 := (hc.tendsto e').comp he
      rw [hw'] at h1
      refine h1.congr fun k => ?_
      simp only [Function.comp, hw]
    set g := lossGradient fwd θ x with hgdef
    have hm : Tendsto (fun k => (st k).adam.m x) atTop (𝓝 g) :=
      movingAverage_tendsto (a := 9 / 10) (by norm_num) (by norm_num)
        (fun k => by rw [((hup k).2.2.1 x hx).1]; ring) hg
    have hv : Tendsto (fun k => (st k).adam.v x) atTop (𝓝 (g ^ 2)) :=
      movingAverage_tendsto (a := 999 / 1000) (g := fun k => lossGradient fwd (st k).weights x ^ 2)
        (by norm_num) (by norm_num) (fun k => by rw [((hup k).2.2.1 x hx).2.1]; ring) (hg.pow 2)
    have hit : Tendsto (fun k => (st (k + 1)).adam.iterations) atTop atTop := by
      have : ∀ k, (st k).adam.iterations = (st 0).adam.iterations + k := by
        intro k
        induction k with
        | zero => rfl
        | succ k ih => rw [(hup k).2.1, ih]; ring
      exact tendsto_atTop_mono (fun k => by rw [this (k + 1), id]; omega) tendsto_id
    have hc1 : Tendsto (fun k => Real.sqrt (1 - (999 / 1000 : ℝ) ^ (st (k + 1)).adam.iterations)
        / (1 - (9 / 10) ^ (st (k + 1)).adam.iterations)) atTop (𝓝 1) := by
      have a1 := (tendsto_pow_atTop_nhds_zero_of_lt_one (by norm_num : (0 : ℝ) ≤ 999 / 1000) (by norm_num)).comp hit
      have a2 := (tendsto_pow_atTop_nhds_zero_of_lt_one (by norm_num : (0 : ℝ) ≤ 9 / 10) (by norm_num)).comp hit
      have a3 := ((a1.const_sub 1).sqrt).div (a2.const_sub 1) (by norm_num)
      rw [show Real.sqrt (1 - 0) / (1 - 0) = (1 : ℝ) by simp] at a3
      exact a3
    have hstep : Tendsto (fun k => (st (k + 1)).weights x - (st k).weights x) atTop
        (𝓝 (-(r * 1 * (g / (Real.sqrt (g ^ 2) + 1 / 10 ^ 7))))) := by
      have hpos : Real.sqrt (g ^ 2) + 1 / 10 ^ 7 ≠ 0 := by positivity
      have b1 : Tendsto (fun k => (st (k + 1)).adam.m x / (Real.sqrt ((st (k + 1)).adam.v x) + 1 / 10 ^ 7)) atTop
          (𝓝 (g / (Real.sqrt (g ^ 2) + 1 / 10 ^ 7))) :=
        ((hm.comp (tendsto_add_atTop_nat 1)).div (((hv.comp (tendsto_add_atTop_nat 1)).sqrt).add_const _) hpos)
      have b2 := ((hc1.const_mul r).mul b1).neg
      refine b2.congr fun k => ?_
      rw [((hup k).2.2.1 x hx).2.2, hlr]
      ring
    have h0 : Tendsto (fun k => (st (k + 1)).weights x - (st k).weights x) atTop (𝓝 (θ x - θ x)) :=
      ((hlim x).comp (tendsto_add_atTop_nat 1)).sub (hlim x)
    have huni := tendsto_nhds_unique hstep h0
    rw [sub_self, neg_eq_zero, mul_one, mul_eq_zero, div_eq_zero_iff] at huni
    rcases huni with h | h | h
    · exact absurd h hr
    · exact h
    · exact absurd h (by positivity)
  · have h1 := (hF.continuous.tendsto e').comp he
    rw [hw'] at h1
    refine h1.congr fun k => ?_
    simp only [Function.comp, hw]

end FastVPINNs
