import Verif.Lemmas.Training
import Mathlib.Analysis.SpecificLimits.Basic
import Mathlib.Tactic.Positivity
import Mathlib.Tactic.NormNum.OfScientific

/-! # Bounds for the optimizer step -/

namespace FastVPINNs

/-- The moments as they can be after any sequence of steps from a new optimizer. -/
structure AdamMoments (s : AdamState) : Prop where
  bound : ∀ x, s.m x ^ 2 ≤ (73 / 10) ^ 2 * s.v x

lemma adam_step_bound (m v g : ℝ) (h : m ^ 2 ≤ (73 / 10) ^ 2 * v) :
    adamM m g ^ 2 ≤ (73 / 10) ^ 2 * adamV v g := by
  unfold adamM adamV
  nlinarith [sq_nonneg (m - 10 / 21 * g), sq_nonneg g]

lemma applyGradients_moments (lr : LearningRate) (g : Var → ℝ) (vars : List Var) (hn : vars.Nodup)
    (s : TrainState) (h : AdamMoments s.adam) :
    AdamMoments (applyGradients lr (List.zip (vars.map g) vars) s).adam := by
  rw [applyGradients_eq lr g vars hn s]
  refine ⟨fun x => ?_⟩
  dsimp only
  split_ifs
  · exact adam_step_bound _ _ _ (h.bound x)
  · exact h.bound x

lemma bias_correction (t : ℕ) (ht : 1 ≤ t) :
    1 - ((999 : ℝ) / 1000) ^ t ≤ (1 - (9 / 10) ^ t) ^ 2 := by
  have key : ∀ t : ℕ, 1 ≤ t → 2 * ((9 : ℝ) / 10) ^ t - (81 / 100) ^ t ≤ (999 / 1000) ^ t := by
    intro t ht
    induction t, ht using Nat.le_induction with
    | base => norm_num
    | succ t ht ih =>
      have h1 : ((81 : ℝ) / 100) ^ t ≤ (9 / 10) ^ t := pow_le_pow_left₀ (by norm_num) (by norm_num) t
      have h2 : (0 : ℝ) ≤ (9 / 10) ^ t := by positivity
      rw [pow_succ, pow_succ, pow_succ]
      nlinarith
  have e : ((81 : ℝ) / 100) ^ t = (9 / 10) ^ t * (9 / 10) ^ t := by
    rw [← mul_pow]; norm_num
  have := key t ht
  rw [e] at this
  nlinarith

lemma adamAlpha_abs (lr : LearningRate) (k : ℕ) : |adamAlpha lr k| ≤ |lr.at k| := by
  unfold adamAlpha
  have h9 : ((9 : ℝ) / 10) ^ (k + 1) < 1 := pow_lt_one₀ (by norm_num) (by norm_num) (by omega)
  have hpos : 0 < 1 - ((9 : ℝ) / 10) ^ (k + 1) := by linarith
  have hs : Real.sqrt (1 - ((999 : ℝ) / 1000) ^ (k + 1)) ≤ 1 - (9 / 10) ^ (k + 1) := by
    rw [← Real.sqrt_sq hpos.le]
    exact Real.sqrt_le_sqrt (bias_correction (k + 1) (by omega))
  rw [abs_div, abs_mul, abs_of_pos hpos, abs_of_nonneg (Real.sqrt_nonneg _), div_le_iff₀ hpos]
  exact mul_le_mul_of_nonneg_left hs (abs_nonneg _)

/-- A step moves no weight by more than `7.3` times the learning rate. -/
lemma applyGradients_move (lr : LearningRate) (g : Var → ℝ) (vars : List Var) (hn : vars.Nodup)
    (s : TrainState) (h : AdamMoments s.adam) (x : Var) :
    |(applyGradients lr (List.zip (vars.map g) vars) s).weights x - s.weights x|
      ≤ 73 / 10 * |lr.at s.adam.iterations| := by
  rw [applyGradients_eq lr g vars hn s]
  dsimp only
  split_ifs
  · have hb := adam_step_bound _ _ (g x) (h.bound x)
    have hv : 0 ≤ adamV (s.adam.v x) (g x) := by nlinarith [sq_nonneg (adamM (s.adam.m x) (g x))]
    set m := adamM (s.adam.m x) (g x)
    set v := adamV (s.adam.v x) (g x)
    have hm : |m| ≤ 73 / 10 * Real.sqrt v := by
      have e : (73 / 10 * Real.sqrt v) ^ 2 = (73 / 10) ^ 2 * v := by
        rw [mul_pow, Real.sq_sqrt hv]
      exact abs_le_of_sq_le_sq (by rw [e]; exact hb) (by positivity)
    have hd : 0 < Real.sqrt v + 1 / 10000000 := by positivity
    have e : s.weights x - m * adamAlpha lr s.adam.iterations / (Real.sqrt v + 1 / 10000000) - s.weights x
        = -(m * adamAlpha lr s.adam.iterations / (Real.sqrt v + 1 / 10000000)) := by ring
    rw [e, abs_neg, abs_div, abs_mul, abs_of_pos hd, div_le_iff₀ hd]
    calc |m| * |adamAlpha lr s.adam.iterations|
        ≤ 73 / 10 * Real.sqrt v * |lr.at s.adam.iterations| :=
          mul_le_mul hm (adamAlpha_abs _ _) (abs_nonneg _) (by positivity)
      _ ≤ 73 / 10 * |lr.at s.adam.iterations| * (Real.sqrt v + 1 / 10000000) := by
          have : 0 ≤ 73 / 10 * |lr.at s.adam.iterations| * (1 / 10000000) := by positivity
          nlinarith
  · simp only [sub_self, abs_zero]
    positivity

/-- The sum of the learning rates with exponential decay in stairs of `d` steps. -/
lemma sum_stairs (r : ℝ) (hr0 : 0 ≤ r) (hr1 : r < 1) (d : ℕ) (hd : 1 ≤ d) (n : ℕ) :
    ∑ k ∈ Finset.range n, r ^ (k / d) ≤ d / (1 - r) := by
  have h1 : ∀ q : ℕ, ∑ k ∈ Finset.range (d * q), r ^ (k / d) = d * ∑ j ∈ Finset.range q, r ^ j := by
    intro q
    induction q with
    | zero => simp
    | succ q ih =>
      rw [Nat.mul_succ, Finset.sum_range_add, ih, Finset.sum_range_succ, mul_add]
      congr 1
      rw [Finset.sum_congr rfl (g := fun _ => r ^ q)]
      · simp
      · intro k hk
        have hk' := Finset.mem_range.mp hk
        congr 1
        rw [Nat.mul_add_div (by omega), Nat.div_eq_of_lt hk', add_zero]
  have hle : n ≤ d * n := Nat.le_mul_of_pos_left n (by omega)
  calc ∑ k ∈ Finset.range n, r ^ (k / d) ≤ ∑ k ∈ Finset.range (d * n), r ^ (k / d) :=
        Finset.sum_le_sum_of_subset_of_nonneg (Finset.range_subset_range.mpr hle)
          fun k _ _ => pow_nonneg hr0 _
    _ = d * ∑ j ∈ Finset.range n, r ^ j := h1 n
    _ ≤ d * (1 - r)⁻¹ := by
        refine mul_le_mul_of_nonneg_left ?_ (by positivity)
        have := Summable.sum_le_tsum (Finset.range n) (fun j _ => pow_nonneg hr0 j)
          (summable_geometric_of_lt_one hr0 hr1)
        rwa [tsum_geometric_of_lt_one hr0 hr1] at this
    _ = d / (1 - r) := by rw [div_eq_mul_inv]

end FastVPINNs
