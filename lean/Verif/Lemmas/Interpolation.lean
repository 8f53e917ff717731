import Verif.Spec.Expressive
import Verif.Lemmas.TanhSpan
import Verif.Lemmas.Smooth
import Verif.Props.DriverDomain

/-! # Networks with prescribed values and gradients -/

namespace FastVPINNs

open Finset Spec

/-- Weights: the first hidden layers pass the coordinates on, the last one has the units `p`, and `c` are the
weights of the output; `κ` are the values of the inverse parameters. -/
noncomputable def interpWeights (m : ℕ) (p : ℕ → ℝ × ℝ × ℝ) (c : ℕ → ℕ → ℝ) (κ : String → ℝ) : Weights
  | .kernel k i j =>
    if k + 1 < m then if i = j then 1 else 0
    else if k < m then if i = 0 then (p j).1 else if i = 1 then (p j).2.1 else 0
    else c j i
  | .bias k j => if k + 1 = m then (p j).2.2 else 0
  | .inverse key => κ key

/-- `tanh` applied `k` times is injective. -/
lemma tanh_iterate_injective (k : ℕ) : Function.Injective Real.tanh^[k] := Real.tanh_injective.iterate k

/-- `tanh` applied `k` times has a derivative that is not zero. -/
lemma tanh_iterate_deriv (k : ℕ) (x : ℝ) : ∃ d, d ≠ 0 ∧ HasDerivAt Real.tanh^[k] d x := by
  induction k with
  | zero => exact ⟨1, one_ne_zero, hasDerivAt_id x⟩
  | succ k ih =>
    obtain ⟨d, hd, h⟩ := ih
    refine ⟨_, mul_ne_zero (tanh_deriv_pos (Real.tanh^[k] x)).ne' hd, ?_⟩
    rw [Function.iterate_succ']
    exact (hasDerivAt_tanh _).comp x h

lemma interp_hidden (dims : ℕ → ℕ) (m : ℕ) (p : ℕ → ℝ × ℝ × ℝ) (c : ℕ → ℕ → ℝ) (κ : String → ℝ) (x : ℕ → ℝ)
    (h2 : ∀ k, k < m → 2 ≤ dims k) (k : ℕ) (hk : k < m) (i : ℕ) (hi : i < 2) :
    hiddenValues Real.tanh dims (fun k i j => interpWeights m p c κ (.kernel k i j))
      (fun k j => interpWeights m p c κ (.bias k j)) x k i = Real.tanh^[k] (x i) := by
  induction k generalizing i with
  | zero => rfl
  | succ k ih =>
    rw [Function.iterate_succ_apply']
    simp only [hiddenValues]
    congr 1
    have hmem : i ∈ range (dims k) := mem_range.2 (by have := h2 k (by omega); omega)
    rw [Finset.sum_eq_single_of_mem i hmem (fun j _ hj => by simp [interpWeights, hk, hj])]
    rw [ih (by omega) i hi]
    simp [interpWeights, hk, hk.ne]

lemma interp_output (dims : ℕ → ℕ) (m : ℕ) (hm : 0 < m) (p : ℕ → ℝ × ℝ × ℝ) (c : ℕ → ℕ → ℝ) (κ : String → ℝ) (x : ℕ → ℝ)
    (h2 : ∀ k, k < m → 2 ≤ dims k) (j : ℕ) :
    outputValue Real.tanh dims (fun k i j => interpWeights m p c κ (.kernel k i j))
      (fun k j => interpWeights m p c κ (.bias k j)) m x j
      = ∑ i ∈ range (dims m), c j i * Real.tanh ((p i).1 * Real.tanh^[m - 1] (x 0)
          + (p i).2.1 * Real.tanh^[m - 1] (x 1) + (p i).2.2) := by
  obtain ⟨l, rfl⟩ : ∃ l, m = l + 1 := ⟨m - 1, by omega⟩
  unfold outputValue
  have hb : interpWeights (l + 1) p c κ (.bias (l + 1) j) = 0 := by simp [interpWeights]
  simp only [hb, add_zero]
  refine Finset.sum_congr rfl fun i _ => ?_
  have hk : interpWeights (l + 1) p c κ (.kernel (l + 1) i j) = c j i := by simp [interpWeights]
  rw [hk, mul_comm]
  congr 1
  simp only [hiddenValues]
  congr 1
  have hb' : interpWeights (l + 1) p c κ (.bias l i) = (p i).2.2 := by simp [interpWeights]
  rw [hb']
  congr 1
  have hsub : range 2 ⊆ range (dims l) := Finset.range_subset_range.2 (h2 l (by omega))
  rw [← Finset.sum_subset hsub (fun q _ hq => by
    have h0 : q ≠ 0 ∧ q ≠ 1 := by
      rw [Finset.mem_range] at hq
      omega
    simp [interpWeights, h0.1, h0.2]), Finset.sum_range_succ, Finset.sum_range_one,
    interp_hidden dims (l + 1) p c κ x h2 l (by omega) 0 (by omega),
    interp_hidden dims (l + 1) p c κ x h2 l (by omega) 1 (by omega)]
  simp [interpWeights]
  ring

lemma interp_function (dims : List ℕ) (m : ℕ) (hm : 0 < m) (hl : dims.length = m + 2)
    (h2 : ∀ k, k < m → 2 ≤ dims.getD k 0) (p : ℕ → ℝ × ℝ × ℝ) (c : ℕ → ℕ → ℝ) (κ : String → ℝ) (j : ℕ) (z : ℝ × ℝ) :
    networkOutput Real.tanh dims (interpWeights m p c κ) j z
      = ∑ i ∈ range (dims.getD m 0), c j i * Real.tanh ((p i).1 * Real.tanh^[m - 1] z.1
          + (p i).2.1 * Real.tanh^[m - 1] z.2 + (p i).2.2) := by
  unfold networkOutput
  rw [show dims.length - 2 = m by omega,
    interp_output (fun k => dims.getD k 0) m hm p c κ (fun i => if i = 0 then z.1 else z.2) h2 j]
  simp

/-- There are weights for which the outputs of the network have prescribed values and gradients at the points of
a finite set. -/
lemma interpolation (dims : List ℕ) (dout : ℕ) (Z : Finset (ℝ × ℝ)) (h : LargeFor dims dout Z.card)
    (κ : String → ℝ) (v gx gy : ℕ → ℝ × ℝ → ℝ) :
    ∃ θ : Weights, (∀ key, θ (.inverse key) = κ key) ∧ ∀ j, ∀ z ∈ Z, networkOutput Real.tanh dims θ j z = v j z ∧
      dx (networkOutput Real.tanh dims θ j) z = gx j z ∧ dy (networkOutput Real.tanh dims θ j) z = gy j z := by
  have h3 := h.hidden
  obtain ⟨m, hl⟩ : ∃ m, dims.length = m + 2 := ⟨dims.length - 2, by omega⟩
  have hm : 0 < m := by omega
  have h2 : ∀ k, k < m → 2 ≤ dims.getD k 0 := by
    intro k hk
    rcases Nat.eq_zero_or_pos k with rfl | hk0
    · exact h.input.ge
    · exact h.width k hk0 (by omega)
  set g := Real.tanh^[m - 1] with hg
  have hginj : Function.Injective g := tanh_iterate_injective _
  choose g' hg'0 hg' using tanh_iterate_deriv (m - 1)
  let pts : Fin Z.card → ℝ × ℝ := fun i => (Z.equivFin.symm i : ℝ × ℝ)
  let z' : Fin Z.card → ℝ × ℝ := fun i => (g (pts i).1, g (pts i).2)
  have hz' : Function.Injective z' := by
    intro i j hij
    have h4 := Prod.mk.inj hij
    have h5 : pts i = pts j := Prod.ext (hginj h4.1) (hginj h4.2)
    exact Z.equivFin.symm.injective (Subtype.ext h5)
  have hlast := h.last
  rw [show dims.length - 2 = m by omega] at hlast
  obtain ⟨p, hp⟩ := units_basis z' hz' (dims.getD m 0) hlast
  have hT := fun j => hp fun i => ![v j (pts i.1), gx j (pts i.1) / g' (pts i.1).1,
    gy j (pts i.1) / g' (pts i.1).2] i.2
  choose c hc using hT
  refine ⟨interpWeights m p c κ, fun _ => rfl, fun j z hz => ?_⟩
  obtain ⟨i, hi⟩ : ∃ i, pts i = z := ⟨Z.equivFin ⟨z, hz⟩, by simp [pts]⟩
  have e0 := hc j (i, 0)
  have e1 := hc j (i, 1)
  have e2 := hc j (i, 2)
  simp only [unitFeatures, Matrix.cons_val_zero, Matrix.cons_val_one, Matrix.cons_val_two, Matrix.head_cons,
    Matrix.tail_cons, z', hi] at e0 e1 e2
  have hfun : networkOutput Real.tanh dims (interpWeights m p c κ) j = fun z =>
      ∑ i ∈ range (dims.getD m 0), c j i * Real.tanh ((p i).1 * g z.1 + (p i).2.1 * g z.2 + (p i).2.2) := by
    funext z
    exact interp_function dims m hm hl h2 p c κ j z
  rw [hfun]
  refine ⟨e0, ?_, ?_⟩
  · have hd : HasDerivAt (fun s => ∑ i ∈ range (dims.getD m 0),
        c j i * Real.tanh ((p i).1 * g s + (p i).2.1 * g z.2 + (p i).2.2))
        (∑ i ∈ range (dims.getD m 0), c j i * ((1 - Real.tanh ((p i).1 * g z.1 + (p i).2.1 * g z.2
          + (p i).2.2) ^ 2) * ((p i).1 * g' z.1))) z.1 := by
      refine HasDerivAt.fun_sum fun i _ => HasDerivAt.const_mul _ ?_
      exact (hasDerivAt_tanh _).comp z.1 ((((hg' z.1).const_mul _).add_const _).add_const _)
    unfold dx
    rw [hd.deriv]
    have h6 : gx j z = (gx j z / g' z.1) * g' z.1 := (div_mul_cancel₀ _ (hg'0 _)).symm
    rw [h6, ← e1, Finset.sum_mul]
    refine Finset.sum_congr rfl fun i _ => by ring
  · have hd : HasDerivAt (fun s => ∑ i ∈ range (dims.getD m 0),
        c j i * Real.tanh ((p i).1 * g z.1 + (p i).2.1 * g s + (p i).2.2))
        (∑ i ∈ range (dims.getD m 0), c j i * ((1 - Real.tanh ((p i).1 * g z.1 + (p i).2.1 * g z.2
          + (p i).2.2) ^ 2) * ((p i).2.1 * g' z.2))) z.2 := by
      refine HasDerivAt.fun_sum fun i _ => HasDerivAt.const_mul _ ?_
      exact (hasDerivAt_tanh _).comp z.2 ((((hg' z.2).const_mul _).const_add _).add_const _)
    unfold dy
    rw [hd.deriv]
    have h6 : gy j z = (gy j z / g' z.2) * g' z.2 := (div_mul_cancel₀ _ (hg'0 _)).symm
    rw [h6, ← e2, Finset.sum_mul]
    refine Finset.sum_congr rfl fun i _ => by ring

end FastVPINNs
