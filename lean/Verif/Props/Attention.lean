import Verif.Model.Attention
import Verif.Spec.Attention
import Verif.Props.Network
import Mathlib.Algebra.BigOperators.Field
import Mathlib.Analysis.Convex.Combination
import Mathlib.Topology.LocallyConstant.Basic
import Mathlib.Topology.Order.IntermediateValue
import Mathlib.Analysis.Calculus.Deriv.Basic
import Mathlib.Analysis.SpecialFunctions.ExpDeriv

/-! # C77: networks with the attention layer -/

namespace FastVPINNs

open Spec Finset

/-- The points after the attention layer. -/
noncomputable def attended {n : ℕ} (X : Fin n → ℝ × ℝ) (r : Fin n) : ℝ × ℝ :=
  ((∑ s, Real.exp (dot (X r) (X s)) * (X s).1) / ∑ s, Real.exp (dot (X r) (X s)),
    (∑ s, Real.exp (dot (X r) (X s)) * (X s).2) / ∑ s, Real.exp (dot (X r) (X s)))

lemma expSum_pos {n : ℕ} (X : Fin n → ℝ × ℝ) (r : Fin n) : 0 < ∑ s, Real.exp (dot (X r) (X s)) :=
  sum_pos (fun _ _ => Real.exp_pos _) ⟨r, mem_univ r⟩

lemma attended_spec {n : ℕ} (X : Fin n → ℝ × ℝ) : IsAttention X (attended X) := fun r =>
  ⟨mul_div_cancel₀ _ (expSum_pos X r).ne', mul_div_cancel₀ _ (expSum_pos X r).ne'⟩

lemma attention_unique {n : ℕ} {X Z : Fin n → ℝ × ℝ} (h : IsAttention X Z) : Z = attended X := by
  funext r
  obtain ⟨h1, h2⟩ := h r
  have hp := (expSum_pos X r).ne'
  refine Prod.ext ?_ ?_
  · simp only [attended]
    rw [eq_div_iff hp, mul_comm]
    exact h1
  · simp only [attended]
    rw [eq_div_iff hp, mul_comm]
    exact h2

lemma attentionDot_pointRows {n : ℕ} (X : Fin n → ℝ × ℝ) :
    attentionDot (pointRows X) = .ok (pointRows (attended X)) := by
  have hdot : ∀ r s, dotRows [(X r).1, (X r).2] [(X s).1, (X s).2] = dot (X r) (X s) := fun r s => by
    simp [dotRows, dot]
  unfold attentionDot pointRows
  rw [List.map_ofFn]
  congr 1
  congr 1
  funext r
  have hz : ∀ j, (List.zipWith (fun w v => w * List.getD v j 0)
      (softmax (List.map (dotRows [(X r).1, (X r).2]) (List.ofFn fun i => [(X i).1, (X i).2])))
      (List.ofFn fun i => [(X i).1, (X i).2])).sum
      = (∑ s, Real.exp (dot (X r) (X s)) * [(X s).1, (X s).2].getD j 0) / ∑ s, Real.exp (dot (X r) (X s)) := by
    intro j
    rw [Finset.sum_div, ← List.sum_ofFn]
    congr 1
    apply List.ext_getElem
    · simp [softmax]
    · intro i h1 h2
      simp only [softmax, List.map_ofFn, List.getElem_zipWith, List.getElem_ofFn, Function.comp, hdot,
        List.sum_ofFn]
      ring
  simp only [Function.comp, List.length_cons, List.length_nil, attended]
  simp only [List.range_succ_eq_map, List.range_zero, List.map_nil, List.map_cons, hz]
  simp

/-- **C77** (what the layer computes).  On a batch of points the attention layer always succeeds and returns as
many points, each the mean of *all* points of the batch with weights proportional to the exponentials of the
scalar products; `IsAttention` has exactly one solution. -/
theorem C77_attention {n : ℕ} (X : Fin n → ℝ × ℝ) :
    ∃ Z : Fin n → ℝ × ℝ, IsAttention X Z ∧ (∀ Z', IsAttention X Z' → Z' = Z) ∧
      attentionDot (pointRows X) = .ok (pointRows Z) :=
  ⟨attended X, attended_spec X, fun _ h => attention_unique h, attentionDot_pointRows X⟩

lemma networkDense_attention (act : String → ℝ → ℝ) (layers : List DenseLayer) (dout : ℕ) {n : ℕ}
    (X : Fin n → ℝ × ℝ) (r : Fin n) (j : Fin dout) :
    networkDense act attentionDot true layers dout n X r j
      = networkDense act attentionDot false layers dout n (attended X) r j := by
  simp only [networkDense, callDense, if_true, attentionDot_pointRows, Bool.false_eq_true, if_false]

/-- **C77** (the network).  With attention the network is the plain network at the averaged points. -/
theorem C77_network (act : String → ℝ → ℝ) (a : String) (dims : List ℕ) (layers : List DenseLayer)
    (h : Architecture dims a layers) (hin : dims.getD 0 0 = 2) (dout : ℕ)
    (hout : dims.getD (dims.length - 1) 0 = dout) :
    ∃ u : Fin dout → ℝ × ℝ → ℝ, RowWise (networkDense act attentionDot false layers dout) u ∧
      (∀ (n : ℕ) (X Z : Fin n → ℝ × ℝ) (r : Fin n) (j : Fin dout), IsAttention X Z →
        networkDense act attentionDot true layers dout n X r j = u j (Z r)) ∧
      ∀ (X : Fin 1 → ℝ × ℝ) (j : Fin dout),
        networkDense act attentionDot true layers dout 1 X 0 j = u j (X 0) := by
  obtain ⟨u, hu, -⟩ := C51_network act a dims layers h hin dout hout attentionDot
  have key : ∀ (n : ℕ) (X Z : Fin n → ℝ × ℝ) (r : Fin n) (j : Fin dout), IsAttention X Z →
      networkDense act attentionDot true layers dout n X r j = u j (Z r) := by
    intro n X Z r j hZ
    rw [networkDense_attention, hu, attention_unique hZ]
  refine ⟨u, hu, key, fun X j => key 1 X X 0 j fun r => ?_⟩
  obtain rfl : r = 0 := Subsingleton.elim _ _
  simp

/-- **C77** (order and range).  Exchanging points of the batch exchanges the outputs, and the averaged points lie
in the convex hull of the batch. -/
theorem C77_equivariant (act : String → ℝ → ℝ) (a : String) (dims : List ℕ) (layers : List DenseLayer)
    (h : Architecture dims a layers) (hin : dims.getD 0 0 = 2) (dout : ℕ)
    (hout : dims.getD (dims.length - 1) 0 = dout) {n : ℕ} (X Z : Fin n → ℝ × ℝ) (hZ : IsAttention X Z) :
    (∀ (σ : Equiv.Perm (Fin n)) (r : Fin n) (j : Fin dout),
      networkDense act attentionDot true layers dout n (X ∘ σ) r j
        = networkDense act attentionDot true layers dout n X (σ r) j) ∧
    ∀ r, Z r ∈ convexHull ℝ (Set.range X) := by
  obtain ⟨u, -, hu, -⟩ := C77_network act a dims layers h hin dout hout
  constructor
  · intro σ r j
    rw [hu n X Z (σ r) j hZ, hu n (X ∘ σ) (Z ∘ σ) r j]
    · rfl
    · intro r
      have h1 := hZ (σ r)
      simp only [Function.comp]
      rw [Equiv.sum_comp σ fun s => Real.exp (dot (X (σ r)) (X s)),
        Equiv.sum_comp σ fun s => Real.exp (dot (X (σ r)) (X s)) * (X s).1,
        Equiv.sum_comp σ fun s => Real.exp (dot (X (σ r)) (X s)) * (X s).2]
      exact h1
  · intro r
    have hp := expSum_pos X r
    have hm : Finset.univ.centerMass (fun s => Real.exp (dot (X r) (X s))) X ∈ convexHull ℝ (Set.range X) :=
      Finset.centerMass_mem_convexHull _ (fun _ _ => (Real.exp_pos _).le) hp fun s _ => Set.mem_range_self s
    rw [attention_unique hZ]
    convert hm using 1
    simp only [Finset.centerMass, attended]
    refine Prod.ext ?_ ?_
    · simp only [Prod.smul_fst, Prod.fst_sum, smul_eq_mul]
      rw [div_eq_inv_mul]
    · simp only [Prod.smul_snd, Prod.snd_sum, smul_eq_mul]
      rw [div_eq_inv_mul]

/-! ## The network with attention is not a function of the point -/

lemma attended_pair (p d : ℝ × ℝ) (t : ℝ) :
    attended ![p, (p.1 + t * d.1, p.2 + t * d.2)] 0
      = (p.1 + t / (1 + Real.exp (-(t * dot p d))) * d.1, p.2 + t / (1 + Real.exp (-(t * dot p d))) * d.2) := by
  have hd : dot p (p.1 + t * d.1, p.2 + t * d.2) = dot p p + t * dot p d := by
    simp only [dot]
    ring
  have h0 : (0 : ℝ) < Real.exp (dot p p) := Real.exp_pos _
  have h1 : (0 : ℝ) < Real.exp (t * dot p d) := Real.exp_pos _
  have h2 : (1 : ℝ) + Real.exp (t * dot p d) ≠ 0 := by positivity
  have h3 : Real.exp (dot p p) + Real.exp (dot p p) * Real.exp (t * dot p d) ≠ 0 := by positivity
  have h4 : (1 : ℝ) + (Real.exp (t * dot p d))⁻¹ ≠ 0 := by positivity
  simp only [attended, Fin.sum_univ_two, Matrix.cons_val_zero, Matrix.cons_val_one, hd, Real.exp_add,
    Real.exp_neg]
  refine Prod.ext ?_ ?_ <;>
  · simp only
    field_simp
    ring

/-- **C77** (a finding).  With attention there is a function of the point whose values the network returns only if
the plain network with the same weights is constant: the value at a point depends on the other points of the
batch, so the values at the quadrature points in the training, at the boundary points and at the test points
belong to different functions. -/
theorem C77_pointwise_iff (act : String → ℝ → ℝ) (a : String) (dims : List ℕ) (layers : List DenseLayer)
    (h : Architecture dims a layers) (hin : dims.getD 0 0 = 2) (dout : ℕ)
    (hout : dims.getD (dims.length - 1) 0 = dout) :
    (∃ u : Fin dout → ℝ × ℝ → ℝ, RowWise (networkDense act attentionDot true layers dout) u) ↔
      ∃ c : Fin dout → ℝ, RowWise (networkDense act attentionDot false layers dout) fun j _ => c j := by
  obtain ⟨u₀, hu₀, hu, hone⟩ := C77_network act a dims layers h hin dout hout
  constructor
  · rintro ⟨u, hrow⟩
    have heq : ∀ j p, u₀ j p = u j p := by
      intro j p
      rw [← hrow 1 (fun _ => p) 0 j]
      exact (hone (fun _ => p) j).symm
    have hpair : ∀ j p q, u₀ j (attended ![p, q] 0) = u₀ j p := by
      intro j p q
      rw [← hu 2 ![p, q] _ 0 j (attended_spec _), hrow, heq]
      rfl
    have hloc : ∀ j, IsLocallyConstant (u₀ j) := by
      intro j
      rw [IsLocallyConstant.iff_eventually_eq]
      intro p
      have hM : (0 : ℝ) < 1 + Real.exp (|p.1| + |p.2|) := by positivity
      have hδ : (0 : ℝ) < 1 / (1 + Real.exp (|p.1| + |p.2|)) := by positivity
      filter_upwards [Metric.ball_mem_nhds p hδ] with y hy
      set δ := 1 / (1 + Real.exp (|p.1| + |p.2|)) with hδdef
      rw [Metric.mem_ball, Prod.dist_eq, max_lt_iff, Real.dist_eq, Real.dist_eq] at hy
      set d : ℝ × ℝ := ((y.1 - p.1) / δ, (y.2 - p.2) / δ) with hd
      have hd1 : |d.1| ≤ 1 := by
        rw [hd, abs_div, abs_of_pos hδ, div_le_one hδ]
        exact hy.1.le
      have hd2 : |d.2| ≤ 1 := by
        rw [hd, abs_div, abs_of_pos hδ, div_le_one hδ]
        exact hy.2.le
      have hdot : -dot p d ≤ |p.1| + |p.2| := by
        have e1 : -(p.1 * d.1) ≤ |p.1| := by
          calc -(p.1 * d.1) ≤ |p.1 * d.1| := neg_le_abs _
            _ = |p.1| * |d.1| := abs_mul _ _
            _ ≤ |p.1| * 1 := mul_le_mul_of_nonneg_left hd1 (abs_nonneg _)
            _ = |p.1| := mul_one _
        have e2 : -(p.2 * d.2) ≤ |p.2| := by
          calc -(p.2 * d.2) ≤ |p.2 * d.2| := neg_le_abs _
            _ = |p.2| * |d.2| := abs_mul _ _
            _ ≤ |p.2| * 1 := mul_le_mul_of_nonneg_left hd2 (abs_nonneg _)
            _ = |p.2| := mul_one _
        simp only [dot]
        linarith
      have hcont : Continuous fun t : ℝ => t / (1 + Real.exp (-(t * dot p d))) := by
        refine continuous_id.div ?_ fun t => ?_
        · exact continuous_const.add (Real.continuous_exp.comp (continuous_id.mul continuous_const).neg)
        · positivity
      obtain ⟨t, -, ht⟩ := intermediate_value_Icc (zero_le_one (α := ℝ)) hcont.continuousOn
        (show δ ∈ Set.Icc ((0 : ℝ) / (1 + Real.exp (-(0 * dot p d)))) (1 / (1 + Real.exp (-(1 * dot p d)))) by
          refine ⟨by rw [zero_div]; exact hδ.le, ?_⟩
          rw [one_mul, hδdef]
          exact one_div_le_one_div_of_le (by positivity) (by gcongr))
      have := hpair j p (p.1 + t * d.1, p.2 + t * d.2)
      rw [attended_pair] at this
      simp only at ht
      rw [ht] at this
      rw [← this]
      congr 1
      refine Prod.ext ?_ ?_
      · simp only [hd]
        field_simp
        ring
      · simp only [hd]
        field_simp
        ring
    refine ⟨fun j => u₀ j (0, 0), fun n X r j => ?_⟩
    rw [hu₀]
    exact (hloc j).apply_eq_of_preconnectedSpace _ _
  · rintro ⟨c, hc⟩
    refine ⟨fun j _ => c j, fun n X r j => ?_⟩
    rw [networkDense_attention, hc]

/-- **C77** (a finding).  With attention the derivatives that `train_step` obtains from the tape are not the
derivatives of the value at the point, not even with the other points of the batch held fixed: a point also
changes the values at the others.  Here the difference is 1/2. -/
theorem C77_gradient_wrong : ∃ (layers : List DenseLayer), Architecture [2, 1] "tanh" layers ∧
    ∀ (act : String → ℝ → ℝ) (b : ℝ),
      (tapeGradient (ι := Fin 2 × Fin 1)
        (fun X i => networkDense act attentionDot true layers 1 2 X i.1 i.2) ![(0, 0), (b, 0)] 1).1
      = deriv (fun s => networkDense act attentionDot true layers 1 2
          (Function.update ![(0, 0), (b, 0)] 1 (s, 0)) 1 0) b + 1 / 2 := by
  refine ⟨[⟨2, 1, fun i _ => if i = 0 then 1 else 0, fun _ => 0, none⟩], ⟨rfl, by simp, fun k hk => ?_⟩,
    fun act b => ?_⟩
  · have : k = 0 := by simpa using hk
    subst this
    simp
  · have hnet : ∀ (X : Fin 2 → ℝ × ℝ) (r : Fin 2) (j : Fin 1), networkDense act attentionDot true
        [⟨2, 1, fun i _ => if i = 0 then 1 else 0, fun _ => 0, none⟩] 1 2 X r j = (attended X r).1 := by
      intro X r j
      rw [networkDense_attention]
      fin_cases r <;> fin_cases j <;>
        simp [networkDense, callDense, applyLayers, applyLayer, pointRows, mapE, batchEntry]
    have hupd : ∀ s : ℝ, Function.update (![(0, 0), (b, 0)] : Fin 2 → ℝ × ℝ) 1 (s, 0) = ![(0, 0), (s, 0)] := by
      intro s
      funext i
      fin_cases i <;> simp
    have h0 : ∀ s : ℝ, (attended ![(0, 0), (s, 0)] 0).1 = s / 2 := by
      intro s
      simp [attended, dot, Fin.sum_univ_two]
    have h1 : ∀ s : ℝ, (attended ![(0, 0), (s, 0)] 1).1 = Real.exp (s * s) * s / (1 + Real.exp (s * s)) := by
      intro s
      simp [attended, dot, Fin.sum_univ_two]
    have hdiff : DifferentiableAt ℝ (fun s : ℝ => Real.exp (s * s) * s / (1 + Real.exp (s * s))) b := by
      have he : DifferentiableAt ℝ (fun s : ℝ => Real.exp (s * s)) b :=
        (differentiableAt_id.mul differentiableAt_id).exp
      exact (he.mul differentiableAt_id).div ((differentiableAt_const _).add he) (by positivity)
    have hhalf : HasDerivAt (fun s : ℝ => s / 2) (1 / 2) b := (hasDerivAt_id b).div_const 2
    simp only [tapeGradient, hnet, Matrix.cons_val_one, hupd, Fintype.sum_prod_type, Fin.sum_univ_two,
      Fin.sum_univ_one, h0, h1, Matrix.cons_val_zero]
    rw [(hhalf.fun_add hdiff.hasDerivAt).deriv, add_comm]

/-- A network `[2, 1]` that is not constant; so with attention it is not a function of the point. -/
example : ∃ layers : List DenseLayer, Architecture [2, 1] "tanh" layers ∧
    ¬∃ u : Fin 1 → ℝ × ℝ → ℝ, RowWise (networkDense (fun _ => Real.tanh) attentionDot true layers 1) u := by
  have ha : Architecture [2, 1] "tanh" [⟨2, 1, fun i _ => if i = 0 then 1 else 0, fun _ => 0, none⟩] := by
    refine ⟨rfl, by simp, fun k hk => ?_⟩
    have : k = 0 := by simpa using hk
    subst this
    simp
  refine ⟨_, ha, fun h => ?_⟩
  obtain ⟨c, hc⟩ := (C77_pointwise_iff _ "tanh" [2, 1] _ ha rfl 1 rfl).1 h
  have e1 := hc 1 (fun _ => (0, 0)) 0 0
  have e2 := hc 1 (fun _ => (1, 0)) 0 0
  simp [networkDense, callDense, applyLayers, applyLayer, pointRows, mapE, batchEntry] at e1 e2
  linarith

end FastVPINNs
