import Verif.Lemmas.Smooth
import Mathlib.Analysis.Calculus.Deriv.Slope
import Mathlib.Analysis.Calculus.Deriv.Shift

/-! # The first step of the optimizer decreases the loss -/

namespace FastVPINNs

open Spec Filter Topology

/-- The total loss is continuously differentiable along every smooth family of weights. -/
def SmoothTotal {α : Type} (fwd : Forward α) : Prop :=
  ∀ (E : Type) [NormedAddCommGroup E] [NormedSpace ℝ E] (ι : E → Weights),
    (∀ v, ContDiff ℝ 2 fun e => ι e v) → ContDiff ℝ 1 fun e => fwd.total (ι e)

/-- The gradient entries are derivatives in the proper sense. -/
lemma SmoothTotal.hasDerivAt {α : Type} {fwd : Forward α} (h : SmoothTotal fwd) (θ : Weights) (v : Var) :
    HasDerivAt (fun t => fwd.total (Function.update θ v t)) (lossGradient fwd θ v) (θ v) := by
  have hc : ContDiff ℝ 1 fun t : ℝ => fwd.total (Function.update θ v t) := by
    refine h ℝ (fun t => Function.update θ v t) fun w => ?_
    by_cases hw : w = v
    · subst hw
      simp only [Function.update_self]
      exact contDiff_id
    · simp only [Function.update_of_ne hw]
      exact contDiff_const
  exact (hc.differentiable (by norm_num) (θ v)).hasDerivAt

/-- The weights moved along the direction `D` of the variables in `vars`. -/
def moved (θ : Weights) (vars : List Var) (D : Var → ℝ) (t : ℝ) : Weights :=
  fun x => if x ∈ vars then θ x - t * D x else θ x

/-- Derivative of the loss along a direction. -/
lemma moved_hasDerivAt {α : Type} {fwd : Forward α} (h : SmoothTotal fwd) (θ : Weights) (vars : List Var)
    (D : Var → ℝ) :
    HasDerivAt (fun t => fwd.total (moved θ vars D t))
      (-∑ x ∈ vars.toFinset, lossGradient fwd θ x * D x) 0 := by
  classical
  let S := vars.toFinset
  let ι : (S → ℝ) → Weights := fun e x => θ x + ∑ i : S, e i * if x = i.1 then 1 else 0
  have hι : ∀ v, ContDiff ℝ 2 fun e => ι e v := fun v =>
    contDiff_const.add (ContDiff.sum fun i _ => (contDiff_apply ℝ ℝ i).mul contDiff_const)
  have hF : ContDiff ℝ 1 fun e => fwd.total (ι e) := h (S → ℝ) ι hι
  have hd : HasFDerivAt (fun e => fwd.total (ι e)) (fderiv ℝ (fun e => fwd.total (ι e)) 0) 0 :=
    (hF.differentiable (by norm_num) 0).hasFDerivAt
  have hval : ∀ (e : S → ℝ) (x : Var), ι e x = if hx : x ∈ S then θ x + e ⟨x, hx⟩ else θ x := by
    intro e x
    split_ifs with hx
    · simp only [ι]
      rw [Finset.sum_eq_single (⟨x, hx⟩ : S)]
      · simp
      · intro i _ hi
        have : x ≠ i.1 := fun e => hi (Subtype.ext e.symm)
        simp [this]
      · simp
    · simp only [ι]
      rw [Finset.sum_eq_zero]
      · simp
      · intro i _
        have : x ≠ i.1 := fun e => hx (e ▸ i.2)
        simp [this]
  -- partial derivatives
  have hpart : ∀ i : S, fderiv ℝ (fun e => fwd.total (ι e)) 0 (Pi.single i 1) = lossGradient fwd θ i.1 := by
    intro i
    have hline : HasDerivAt (fun t : ℝ => t • (Pi.single i 1 : S → ℝ)) (Pi.single i 1) 0 := by
      have := (hasDerivAt_id (0 : ℝ)).smul_const (Pi.single i 1 : S → ℝ)
      simpa using this
    have hd' : HasFDerivAt (fun e => fwd.total (ι e)) (fderiv ℝ (fun e => fwd.total (ι e)) 0)
        ((0 : ℝ) • (Pi.single i 1 : S → ℝ)) := by rw [zero_smul]; exact hd
    have hc := hd'.comp_hasDerivAt (0 : ℝ) hline
    have h1 := h.hasDerivAt θ i.1
    have h2 : HasDerivAt (fun t : ℝ => fwd.total (Function.update θ i.1 (θ i.1 + t)))
        (lossGradient fwd θ i.1) 0 := by
      have h1' : HasDerivAt (fun t => fwd.total (Function.update θ i.1 t)) (lossGradient fwd θ i.1)
          (θ i.1 + 0) := by rw [add_zero]; exact h1
      exact h1'.comp_const_add (θ i.1) 0
    have e : ((fun e => fwd.total (ι e)) ∘ fun t : ℝ => t • (Pi.single i 1 : S → ℝ))
        = fun t : ℝ => fwd.total (Function.update θ i.1 (θ i.1 + t)) := by
      funext t
      simp only [Function.comp]
      congr 1
      funext x
      rw [hval]
      by_cases hx : x = i.1
      · subst hx
        simp
      · rw [Function.update_of_ne hx]
        split_ifs with hS
        · have : (⟨x, hS⟩ : S) ≠ i := fun e => hx (congrArg Subtype.val e)
          simp [this]
        · rfl
    rw [e] at hc
    exact hc.unique h2
  -- along the direction
  let w : S → ℝ := fun i => -D i.1
  have hline : HasDerivAt (fun t : ℝ => t • w) w 0 := by
    have := (hasDerivAt_id (0 : ℝ)).smul_const w
    simpa using this
  have hd' : HasFDerivAt (fun e => fwd.total (ι e)) (fderiv ℝ (fun e => fwd.total (ι e)) 0)
      ((0 : ℝ) • w) := by rw [zero_smul]; exact hd
  have hc := hd'.comp_hasDerivAt (0 : ℝ) hline
  have e : ((fun e => fwd.total (ι e)) ∘ fun t : ℝ => t • w) = fun t => fwd.total (moved θ vars D t) := by
    funext t
    simp only [Function.comp]
    congr 1
    funext x
    rw [hval, moved]
    have hm : x ∈ S ↔ x ∈ vars := List.mem_toFinset
    by_cases hx : x ∈ vars
    · rw [dif_pos (hm.2 hx), if_pos hx]
      simp only [Pi.smul_apply, smul_eq_mul, w]
      ring
    · rw [dif_neg (fun hh => hx (hm.1 hh)), if_neg hx]
  rw [e] at hc
  refine hc.congr_deriv ?_
  have hw : w = ∑ i : S, w i • (Pi.single i 1 : S → ℝ) := by
    funext i
    rw [Finset.sum_apply]
    simp [Pi.single_apply]
  rw [hw, map_sum]
  simp only [map_smul, hpart, smul_eq_mul, w]
  rw [← Finset.sum_neg_distrib, ← Finset.sum_coe_sort vars.toFinset
    (fun x => -(lossGradient fwd θ x * D x))]
  exact Finset.sum_congr rfl fun i _ => by ring

/-- Size of the first change of a weight with gradient `g`, for learning rate one. -/
noncomputable def firstMove (g : ℝ) : ℝ :=
  adamM 0 g * (Real.sqrt (1 - (999 / 1000) ^ (0 + 1)) / (1 - (9 / 10) ^ (0 + 1)))
    / (Real.sqrt (adamV 0 g) + 1 / 10000000)

lemma firstMove_mul (g : ℝ) (hg : g ≠ 0) : 0 < g * firstMove g := by
  unfold firstMove adamM
  have h1 : (0 : ℝ) < Real.sqrt (1 - (999 / 1000) ^ (0 + 1)) := Real.sqrt_pos.mpr (by norm_num)
  have h2 : (0 : ℝ) < 1 - (9 / 10) ^ (0 + 1) := by norm_num
  have h3 : (0 : ℝ) < Real.sqrt (adamV 0 g) + 1 / 10000000 := by positivity
  have h4 : 0 < g ^ 2 := by positivity
  have e : g * ((0 + (g - 0) * (1 - 9 / 10))
      * (Real.sqrt (1 - (999 / 1000) ^ (0 + 1)) / (1 - (9 / 10) ^ (0 + 1)))
      / (Real.sqrt (adamV 0 g) + 1 / 10000000))
      = g ^ 2 * (1 / 10) * (Real.sqrt (1 - (999 / 1000) ^ (0 + 1)) / (1 - (9 / 10) ^ (0 + 1)))
        / (Real.sqrt (adamV 0 g) + 1 / 10000000) := by ring
  rw [e]
  positivity

lemma first_step_weights {α : Type} (fwd : Forward α) (vars : List Var) (hn : vars.Nodup)
    (lr : LearningRate) (θ : Weights) :
    (applyGradients lr (List.zip (vars.map (lossGradient fwd θ)) vars) ⟨θ, AdamState.init⟩).weights
      = moved θ vars (fun x => firstMove (lossGradient fwd θ x)) (lr.at 0) := by
  rw [applyGradients_eq lr _ vars hn]
  funext x
  simp only [moved, AdamState.init, adamAlpha, firstMove]
  split_ifs
  · congr 1
    ring
  · rfl

lemma first_step_descends {α : Type} {fwd : Forward α} (h : SmoothTotal fwd) (vars : List Var)
    (hn : vars.Nodup) (θ : Weights) (x₀ : Var) (hx₀ : x₀ ∈ vars) (hg : lossGradient fwd θ x₀ ≠ 0)
    (out : α) (l : ℝ) (hout : fwd θ = .ok (out, l)) :
    ∃ δ > 0, ∀ lr : LearningRate, 0 < lr.at 0 → lr.at 0 < δ →
      ∃ s', trainStepWith fwd vars lr ⟨θ, AdamState.init⟩ = .ok (out, s') ∧
        fwd.total s'.weights < fwd.total θ := by
  set D : Var → ℝ := fun x => firstMove (lossGradient fwd θ x)
  have hneg : -∑ x ∈ vars.toFinset, lossGradient fwd θ x * D x < 0 := by
    rw [neg_lt_zero]
    refine Finset.sum_pos' (fun x _ => ?_) ⟨x₀, List.mem_toFinset.mpr hx₀, firstMove_mul _ hg⟩
    by_cases hz : lossGradient fwd θ x = 0
    · simp [hz]
    · exact (firstMove_mul _ hz).le
  have hslope := (moved_hasDerivAt h θ vars D).tendsto_slope
  have hev := hslope.eventually (gt_mem_nhds hneg)
  have hev' : ∀ᶠ t in 𝓝[>] (0 : ℝ), slope (fun t => fwd.total (moved θ vars D t)) 0 t < 0 :=
    hev.filter_mono (nhdsWithin_mono 0 fun t (ht : 0 < t) => ht.ne')
  obtain ⟨δ, hδ, hsub⟩ := mem_nhdsGT_iff_exists_Ioo_subset.mp hev'
  refine ⟨δ, hδ, fun lr h1 h2 => ⟨applyGradients lr (List.zip (vars.map (lossGradient fwd θ)) vars)
    ⟨θ, AdamState.init⟩, ?_, ?_⟩⟩
  · unfold trainStepWith
    rw [hout]
  · rw [first_step_weights fwd vars hn]
    have hs : slope (fun t => fwd.total (moved θ vars D t)) 0 (lr.at 0) < 0 := hsub ⟨h1, h2⟩
    rw [slope_def_field, sub_zero, div_lt_iff₀ h1, zero_mul, sub_neg] at hs
    have e0 : moved θ vars D 0 = θ := by
      funext x
      simp [moved]
    rwa [e0] at hs

end FastVPINNs
