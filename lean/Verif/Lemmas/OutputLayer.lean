import Verif.Lemmas.SmoothModels
import Verif.Spec.OutputLayer

/-! # The losses are quadratic in the weights of the output layer -/

namespace FastVPINNs

open Spec Filter Topology

/-! ## Quadratic along a line -/

/-- Affine along the line with the values `x` and `y`. -/
lemma meanSq_line {n : ℕ} (x y : Fin n → ℝ) : ∃ Q, 0 ≤ Q ∧ ∀ t : ℝ,
    meanSq (fun i => (1 - t) * x i + t * y i) = (1 - t) * meanSq x + t * meanSq y - t * (1 - t) * Q := by
  refine ⟨meanSq fun i => x i - y i, ?_, fun t => ?_⟩
  · unfold meanSq
    exact div_nonneg (Finset.sum_nonneg fun i _ => mul_self_nonneg _) (Nat.cast_nonneg _)
  · unfold meanSq
    rw [mul_div_assoc', mul_div_assoc', mul_div_assoc', ← add_div, ← sub_div, Finset.mul_sum, Finset.mul_sum,
      Finset.mul_sum, ← Finset.sum_add_distrib, ← Finset.sum_sub_distrib]
    congr 1
    exact Finset.sum_congr rfl fun i _ => by ring

/-- A function of one real variable that is a convex quadratic one. -/
def QuadLine (f : ℝ → ℝ) : Prop :=
  ∃ Q, 0 ≤ Q ∧ ∀ t, f t = (1 - t) * f 0 + t * f 1 - t * (1 - t) * Q

lemma QuadLine.add {f g : ℝ → ℝ} (hf : QuadLine f) (hg : QuadLine g) : QuadLine fun t => f t + g t := by
  obtain ⟨Q, h1, h2⟩ := hf
  obtain ⟨R, h3, h4⟩ := hg
  refine ⟨Q + R, by positivity, fun t => ?_⟩
  dsimp only
  rw [h2 t, h4 t]
  ring

lemma QuadLine.mul {f : ℝ → ℝ} (hf : QuadLine f) {c : ℝ} (hc : 0 ≤ c) : QuadLine fun t => c * f t := by
  obtain ⟨Q, h1, h2⟩ := hf
  refine ⟨c * Q, by positivity, fun t => ?_⟩
  dsimp only
  rw [h2 t]
  ring

lemma QuadLine.sum {ι : Type} (s : Finset ι) {f : ι → ℝ → ℝ} (hf : ∀ i ∈ s, QuadLine (f i)) :
    QuadLine fun t => ∑ i ∈ s, f i t := by
  classical
  induction s using Finset.induction_on with
  | empty => exact ⟨0, le_rfl, fun t => by simp⟩
  | insert i s hi ih =>
    simp only [Finset.sum_insert hi]
    exact (hf i (Finset.mem_insert_self i s)).add (ih fun k hk => hf k (Finset.mem_insert_of_mem hk))

/-- A mean square of values that are affine along the line. -/
lemma QuadLine.meanSq {n : ℕ} {x : ℝ → Fin n → ℝ} (hx : ∀ t i, x t i = (1 - t) * x 0 i + t * x 1 i) :
    QuadLine fun t => Spec.meanSq (x t) := by
  obtain ⟨Q, h1, h2⟩ := meanSq_line (x 0) (x 1)
  refine ⟨Q, h1, fun t => ?_⟩
  dsimp only
  rw [← h2 t]
  congr 1
  funext i
  exact hx t i

lemma dx_line {u v : ℝ × ℝ → ℝ} {z : ℝ × ℝ} (hu : DifferentiableAt ℝ u z) (hv : DifferentiableAt ℝ v z) (t : ℝ) :
    dx (fun w => (1 - t) * u w + t * v w) z = (1 - t) * dx u z + t * dx v z := by
  have hl : DifferentiableAt ℝ (fun s : ℝ => ((s, z.2) : ℝ × ℝ)) z.1 := by fun_prop
  have h1 : DifferentiableAt ℝ (fun s : ℝ => u (s, z.2)) z.1 := DifferentiableAt.comp (g := u) z.1 hu hl
  have h2 : DifferentiableAt ℝ (fun s : ℝ => v (s, z.2)) z.1 := DifferentiableAt.comp (g := v) z.1 hv hl
  exact ((h1.hasDerivAt.const_mul (1 - t)).add (h2.hasDerivAt.const_mul t)).deriv

lemma dy_line {u v : ℝ × ℝ → ℝ} {z : ℝ × ℝ} (hu : DifferentiableAt ℝ u z) (hv : DifferentiableAt ℝ v z) (t : ℝ) :
    dy (fun w => (1 - t) * u w + t * v w) z = (1 - t) * dy u z + t * dy v z := by
  have hl : DifferentiableAt ℝ (fun s : ℝ => ((z.1, s) : ℝ × ℝ)) z.2 := by fun_prop
  have h1 : DifferentiableAt ℝ (fun s : ℝ => u (z.1, s)) z.2 := DifferentiableAt.comp (g := u) z.2 hu hl
  have h2 : DifferentiableAt ℝ (fun s : ℝ => v (z.1, s)) z.2 := DifferentiableAt.comp (g := v) z.2 hv hl
  exact ((h1.hasDerivAt.const_mul (1 - t)).add (h2.hasDerivAt.const_mul t)).deriv

section
variable {nc nt nq nIn nBd : ℕ} (M : ModelData nc nt nq nIn nBd) (pt : Fin nc → Fin nq → ℝ × ℝ)

/-- The loss along a line of functions, with a fixed diffusion. -/
lemma pdeLoss_line (A : Fin nc → Fin nq → ℝ) (b : ℝ × ℝ) (r : ℝ) (U : ℝ → ℝ × ℝ → ℝ)
    (hd : ∀ t, Differentiable ℝ (U t)) (hU : ∀ t, U t = fun w => (1 - t) * U 0 w + t * U 1 w) :
    QuadLine fun t => pdeLoss M pt (U t) A b r := by
  unfold pdeLoss
  refine QuadLine.sum _ fun c _ => QuadLine.meanSq fun t i => ?_
  have e1 : ∀ z, dx (U t) z = (1 - t) * dx (U 0) z + t * dx (U 1) z := fun z => by
    rw [hU t]; exact dx_line (hd 0 z) (hd 1 z) t
  have e2 : ∀ z, dy (U t) z = (1 - t) * dy (U 0) z + t * dy (U 1) z := fun z => by
    rw [hU t]; exact dy_line (hd 0 z) (hd 1 z) t
  have e0 : ∀ z, U t z = (1 - t) * U 0 z + t * U 1 z := fun z => by
    conv_lhs => rw [hU t]
  unfold testedResidual
  simp only [e0, e1, e2]
  rw [mul_sub, mul_sub, Finset.mul_sum, Finset.mul_sum]
  have : ∀ s s1 s2 : ℝ, s = s1 + s2 → s - M.forceMatrix i c
      = s1 - (1 - t) * M.forceMatrix i c + (s2 - t * M.forceMatrix i c) := fun s s1 s2 h => by rw [h]; ring
  refine this _ _ _ ?_
  rw [← Finset.sum_add_distrib]
  exact Finset.sum_congr rfl fun q _ => by ring

/-- The loss along a line of diffusions, with a fixed function. -/
lemma pdeLoss_line_diffusion (u : ℝ × ℝ → ℝ) (b : ℝ × ℝ) (r : ℝ) (A : ℝ → Fin nc → Fin nq → ℝ)
    (hA : ∀ t c q, A t c q = (1 - t) * A 0 c q + t * A 1 c q) :
    QuadLine fun t => pdeLoss M pt u (A t) b r := by
  unfold pdeLoss
  refine QuadLine.sum _ fun c _ => QuadLine.meanSq fun t i => ?_
  unfold testedResidual
  simp only [hA t]
  rw [mul_sub, mul_sub, Finset.mul_sum, Finset.mul_sum]
  have : ∀ s s1 s2 : ℝ, s = s1 + s2 → s - M.forceMatrix i c
      = s1 - (1 - t) * M.forceMatrix i c + (s2 - t * M.forceMatrix i c) := fun s s1 s2 h => by rw [h]; ring
  refine this _ _ _ ?_
  rw [← Finset.sum_add_distrib]
  exact Finset.sum_congr rfl fun q _ => by ring

/-- A data term along a line of functions. -/
lemma dataTerm_line {n : ℕ} (x : Fin n → ℝ × ℝ) (y : Fin n → ℝ) (U : ℝ → ℝ × ℝ → ℝ)
    (hU : ∀ t, U t = fun w => (1 - t) * U 0 w + t * U 1 w) :
    QuadLine fun t => Spec.meanSq fun i => U t (x i) - y i :=
  QuadLine.meanSq (x := fun t i => U t (x i) - y i) fun t i => by
    have e0 : U t (x i) = (1 - t) * U 0 (x i) + t * U 1 (x i) := by conv_lhs => rw [hU t]
    rw [e0]
    ring

end

/-! ## The network as a function of its output layer -/

lemma kernels_layersAt_var (k₀ n : ℕ) (specs : List LayerSpec) (k i j : ℕ) :
    (∀ θ, kernels (layersAt θ k₀ n specs) k i j = θ (.kernel (k₀ + k) i j)) ∨
      ∀ θ, kernels (layersAt θ k₀ n specs) k i j = 0 := by
  induction specs generalizing k₀ n k with
  | nil => exact Or.inr fun θ => by simp [kernels, layersAt]
  | cons s rest ih =>
    cases k with
    | zero =>
      by_cases hij : i < n ∧ j < s.units
      · exact Or.inl fun θ => by simp [kernels, layersAt, kernelAt, hij]
      · refine Or.inr fun θ => ?_
        simp only [kernels, layersAt, List.getElem?_cons_zero, kernelAt]
        rw [dif_neg hij]
    | succ k =>
      rcases ih (k₀ + 1) s.units k with hv | h0
      · refine Or.inl fun θ => ?_
        rw [show k₀ + (k + 1) = k₀ + 1 + k by omega, ← hv θ]
        simp [kernels, layersAt]
      · exact Or.inr fun θ => by rw [← h0 θ]; simp [kernels, layersAt]

lemma biases_layersAt_var (k₀ n : ℕ) (specs : List LayerSpec) (k j : ℕ) :
    (∀ θ, biases (layersAt θ k₀ n specs) k j = θ (.bias (k₀ + k) j)) ∨
      ∀ θ, biases (layersAt θ k₀ n specs) k j = 0 := by
  induction specs generalizing k₀ n k with
  | nil => exact Or.inr fun θ => by simp [biases, layersAt]
  | cons s rest ih =>
    cases k with
    | zero =>
      by_cases hij : j < s.units
      · exact Or.inl fun θ => by simp [biases, layersAt, biasAt, hij]
      · refine Or.inr fun θ => ?_
        simp only [biases, layersAt, List.getElem?_cons_zero, biasAt]
        rw [dif_neg hij]
    | succ k =>
      rcases ih (k₀ + 1) s.units k with hv | h0
      · refine Or.inl fun θ => ?_
        rw [show k₀ + (k + 1) = k₀ + 1 + k by omega, ← hv θ]
        simp [biases, layersAt]
      · exact Or.inr fun θ => by rw [← h0 θ]; simp [biases, layersAt]

lemma blend_zero (θ θ' : Weights) : blend θ θ' 0 = θ := by funext v; simp [blend]

lemma blend_one (θ θ' : Weights) : blend θ θ' 1 = θ' := by funext v; simp [blend]

lemma blend_eq {P : Var → Prop} {vars : List Var} {θ θ' : Weights} (h : DifferOnly P vars θ θ') (t : ℝ) (v : Var)
    (hv : ¬ P v) : blend θ θ' t v = θ v := by
  have : θ' v = θ v := by
    by_contra hne
    exact hv (h v hne).2
  simp only [blend, this]
  ring

/-- The hidden values depend on the layers before the last only. -/
lemma hiddenValues_congr_below (σ : ℝ → ℝ) (dims : ℕ → ℕ) (W W' : ℕ → ℕ → ℕ → ℝ) (b b' : ℕ → ℕ → ℝ) (x : ℕ → ℝ) (m : ℕ)
    (hW : ∀ k < m, W k = W' k) (hb : ∀ k < m, b k = b' k) (k : ℕ) (hk : k ≤ m) :
    hiddenValues σ dims W b x k = hiddenValues σ dims W' b' x k := by
  induction k with
  | zero => rfl
  | succ k ih =>
    funext j
    simp only [hiddenValues]
    rw [ih (by omega), hW k (by omega), hb k (by omega)]

section
variable (act : String → ℝ → ℝ) (a : String) (dims : List ℕ) (specs : List LayerSpec)

/-- An output of the network is an affine function of the column of the output layer that produces it, when
the hidden layers are fixed; weights of other columns do not matter. -/
lemma netFn_blend {vars : List Var} {j : ℕ} {θ θ' : Weights}
    (h : DifferOnly (OutputColumn (dims.length - 2) j) vars θ θ') (t : ℝ) :
    netFn act a dims specs (blend θ θ' t) j
      = fun z => (1 - t) * netFn act a dims specs θ j z + t * netFn act a dims specs θ' j z := by
  have hK : ∀ s, ∀ k < dims.length - 2, kernels (layersAt (blend θ θ' s) 0 (dims.getD 0 0) specs) k
      = kernels (layersAt θ 0 (dims.getD 0 0) specs) k := by
    intro s k hk
    funext i j'
    rcases kernels_layersAt_var 0 (dims.getD 0 0) specs k i j' with hv | h0
    · rw [hv, hv, blend_eq h]
      simp only [OutputColumn]
      omega
    · rw [h0, h0]
  have hB : ∀ s, ∀ k < dims.length - 2, biases (layersAt (blend θ θ' s) 0 (dims.getD 0 0) specs) k
      = biases (layersAt θ 0 (dims.getD 0 0) specs) k := by
    intro s k hk
    funext j'
    rcases biases_layersAt_var 0 (dims.getD 0 0) specs k j' with hv | h0
    · rw [hv, hv, blend_eq h]
      simp only [OutputColumn]
      omega
    · rw [h0, h0]
  have hH : ∀ s x, hiddenValues (act a) (fun k => dims.getD k 0)
      (kernels (layersAt (blend θ θ' s) 0 (dims.getD 0 0) specs))
      (biases (layersAt (blend θ θ' s) 0 (dims.getD 0 0) specs)) x (dims.length - 2)
      = hiddenValues (act a) (fun k => dims.getD k 0) (kernels (layersAt θ 0 (dims.getD 0 0) specs))
        (biases (layersAt θ 0 (dims.getD 0 0) specs)) x (dims.length - 2) := fun s x =>
    hiddenValues_congr_below _ _ _ _ _ _ x (dims.length - 2) (hK s) (hB s) _ le_rfl
  have hH1 : ∀ x, hiddenValues (act a) (fun k => dims.getD k 0)
      (kernels (layersAt θ' 0 (dims.getD 0 0) specs))
      (biases (layersAt θ' 0 (dims.getD 0 0) specs)) x (dims.length - 2)
      = hiddenValues (act a) (fun k => dims.getD k 0) (kernels (layersAt θ 0 (dims.getD 0 0) specs))
        (biases (layersAt θ 0 (dims.getD 0 0) specs)) x (dims.length - 2) := fun x => by
    have := hH 1 x
    rwa [blend_one] at this
  have hKm : ∀ i j', kernels (layersAt (blend θ θ' t) 0 (dims.getD 0 0) specs) (dims.length - 2) i j'
      = (1 - t) * kernels (layersAt θ 0 (dims.getD 0 0) specs) (dims.length - 2) i j'
        + t * kernels (layersAt θ' 0 (dims.getD 0 0) specs) (dims.length - 2) i j' := by
    intro i j'
    rcases kernels_layersAt_var 0 (dims.getD 0 0) specs (dims.length - 2) i j' with hv | h0
    · rw [hv, hv, hv]; rfl
    · rw [h0, h0, h0]; ring
  have hBm : ∀ j', biases (layersAt (blend θ θ' t) 0 (dims.getD 0 0) specs) (dims.length - 2) j'
      = (1 - t) * biases (layersAt θ 0 (dims.getD 0 0) specs) (dims.length - 2) j'
        + t * biases (layersAt θ' 0 (dims.getD 0 0) specs) (dims.length - 2) j' := by
    intro j'
    rcases biases_layersAt_var 0 (dims.getD 0 0) specs (dims.length - 2) j' with hv | h0
    · rw [hv, hv, hv]; rfl
    · rw [h0, h0, h0]; ring
  funext z
  unfold netFn outputValue
  rw [hH t, hH1, hBm, mul_add, mul_add, Finset.mul_sum, Finset.mul_sum]
  have : ∀ s s1 s2 b1 b2 : ℝ, s = s1 + s2 → s + (b1 + b2) = s1 + b1 + (s2 + b2) := fun s s1 s2 b1 b2 h => by
    rw [h]; ring
  refine this _ _ _ _ _ ?_
  rw [← Finset.sum_add_distrib]
  exact Finset.sum_congr rfl fun i _ => by rw [hKm]; ring

/-- A column of the output layer has no influence on another output of the network. -/
lemma netFn_other {vars : List Var} {P : Var → Prop} {j : ℕ} {θ θ' : Weights} (h : DifferOnly P vars θ θ')
    (hP : (∀ v, P v → ∃ j', j' ≠ j ∧ OutputColumn (dims.length - 2) j' v) ∨ ∀ v, P v → ∃ key, v = .inverse key)
    (t : ℝ) : netFn act a dims specs (blend θ θ' t) j = netFn act a dims specs θ j := by
  have hPk : ∀ k i j', (k < dims.length - 2 ∨ j' = j) → ¬ P (.kernel k i j') := by
    intro k i j' hk hp
    rcases hP with hP | hP
    · obtain ⟨j2, h1, h2, h3⟩ := hP _ hp
      omega
    · obtain ⟨key, hkey⟩ := hP _ hp
      exact absurd hkey (by simp)
  have hPb : ∀ k j', (k < dims.length - 2 ∨ j' = j) → ¬ P (.bias k j') := by
    intro k j' hk hp
    rcases hP with hP | hP
    · obtain ⟨j2, h1, h2, h3⟩ := hP _ hp
      omega
    · obtain ⟨key, hkey⟩ := hP _ hp
      exact absurd hkey (by simp)
  have hK : ∀ k i j', (k < dims.length - 2 ∨ j' = j) →
      kernels (layersAt (blend θ θ' t) 0 (dims.getD 0 0) specs) k i j'
      = kernels (layersAt θ 0 (dims.getD 0 0) specs) k i j' := by
    intro k i j' hk
    rcases kernels_layersAt_var 0 (dims.getD 0 0) specs k i j' with hv | h0
    · rw [hv, hv, blend_eq h _ _ (by simpa using hPk k i j' hk)]
    · rw [h0, h0]
  have hB : ∀ k j', (k < dims.length - 2 ∨ j' = j) →
      biases (layersAt (blend θ θ' t) 0 (dims.getD 0 0) specs) k j'
      = biases (layersAt θ 0 (dims.getD 0 0) specs) k j' := by
    intro k j' hk
    rcases biases_layersAt_var 0 (dims.getD 0 0) specs k j' with hv | h0
    · rw [hv, hv, blend_eq h _ _ (by simpa using hPb k j' hk)]
    · rw [h0, h0]
  funext z
  unfold netFn outputValue
  rw [hiddenValues_congr_below _ _ _ (kernels (layersAt θ 0 (dims.getD 0 0) specs)) _
    (biases (layersAt θ 0 (dims.getD 0 0) specs)) _ (dims.length - 2)
    (fun k hk => by funext i j'; exact hK k i j' (Or.inl hk)) (fun k hk => by funext j'; exact hB k j' (Or.inl hk))
    _ le_rfl, hB _ _ (Or.inr rfl)]
  congr 1
  exact Finset.sum_congr rfl fun i _ => by rw [hK _ _ _ (Or.inr rfl)]

lemma netFn_differentiable (hσ : ContDiff ℝ 2 (act a)) (θ : Weights) (j : ℕ) :
    Differentiable ℝ (netFn act a dims specs θ j) := by
  have hc := netFn_contDiff (E := ℝ) act a hσ dims specs j (fun _ => θ) fun _ => contDiff_const
  have : ContDiff ℝ 2 fun z => netFn act a dims specs θ j z :=
    hc.comp ((contDiff_const (c := (0 : ℝ))).prodMk contDiff_id)
  exact this.differentiable (by norm_num)

end

/-! ## From zero gradient to optimality -/

lemma stationary_of_quadratic {α : Type} {fwd : Forward α} (hsm : SmoothTotal fwd) {P : Var → Prop}
    {vars : List Var} (hq : ConvexQuadratic P vars fwd.total) :
    StationaryIsOptimal P vars fwd.total (lossGradient fwd) := by
  intro θ hg θ' hd
  obtain ⟨Q, hQ, hJ⟩ := hq θ θ' hd
  have hline : ∀ t, moved θ vars (fun v => θ v - θ' v) t = blend θ θ' t := by
    intro t
    funext v
    unfold moved blend
    split_ifs with hv
    · ring
    · have : θ' v = θ v := by
        by_contra hne
        exact hv (hd v hne).1
      rw [this]
      ring
  have h1 := moved_hasDerivAt hsm θ vars fun v => θ v - θ' v
  simp only [hline, hJ] at h1
  have h0 : (-∑ x ∈ vars.toFinset, lossGradient fwd θ x * (θ x - θ' x)) = 0 := by
    rw [neg_eq_zero]
    refine Finset.sum_eq_zero fun v hv => ?_
    by_cases hne : θ' v = θ v
    · rw [hne]; ring
    · rw [hg v (List.mem_toFinset.mp hv) (hd v hne).2]; ring
  rw [h0] at h1
  have h2 : HasDerivAt (fun t : ℝ => (1 - t) * fwd.total θ + t * fwd.total θ' - t * (1 - t) * Q)
      (-fwd.total θ + fwd.total θ' - Q) 0 := by
    have hi := hasDerivAt_id (0 : ℝ)
    have hs := hi.const_sub 1
    refine (((hs.mul_const (fwd.total θ)).add (hi.mul_const (fwd.total θ'))).sub
      ((hi.mul hs).mul_const Q)).congr_deriv ?_
    simp
  have h3 := h1.unique h2
  linarith

end FastVPINNs
