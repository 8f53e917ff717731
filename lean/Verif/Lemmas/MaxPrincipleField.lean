import Verif.Lemmas.MaxPrinciple
import Verif.Spec.StabilityField

/-! # The maximum principle for `-∇·(a ∇w) + b·∇w + r w` with a coefficient field `a` -/

namespace FastVPINNs

open Spec Topology Filter

/-- The left-hand side of the equation. -/
noncomputable def operatorField (a : ℝ × ℝ → ℝ) (b : ℝ × ℝ) (r : ℝ) (w : ℝ × ℝ → ℝ) (z : ℝ × ℝ) : ℝ :=
  -(dx (fun z => a z * dx w z) z + dy (fun z => a z * dy w z) z) + (b.1 * dx w z + b.2 * dy w z) + r * w z

/-- A sum of a function of `x` and a function of `y`, with first and second derivatives, on which the operator is
at least one. -/
structure BarrierField (K : Set (ℝ × ℝ)) (a : ℝ × ℝ → ℝ) (b : ℝ × ℝ) (r A : ℝ) (g g' g'' h h' h'' : ℝ → ℝ) :
    Prop where
  dg : ∀ x, HasDerivAt g (g' x) x
  dg' : ∀ x, HasDerivAt g' (g'' x) x
  dh : ∀ x, HasDerivAt h (h' x) x
  dh' : ∀ x, HasDerivAt h' (h'' x) x
  nonneg : ∀ z ∈ K, 0 ≤ g z.1 + h z.2
  le : ∀ z ∈ K, g z.1 + h z.2 ≤ A
  one : ∀ z ∈ interior K, 1 ≤ -(a z * (g'' z.1 + h'' z.2) + (dx a z * g' z.1 + dy a z * h' z.2))
    + (b.1 * g' z.1 + b.2 * h' z.2) + r * (g z.1 + h z.2)

lemma flux_x {a w : ℝ × ℝ → ℝ} {z : ℝ × ℝ} (ha : DifferentiableAt ℝ a z) (hw : DifferentiableAt ℝ (dx w) z) :
    dx (fun z => a z * dx w z) z = dx a z * dx w z + a z * dx (dx w) z :=
  ((hasDerivAt_slice_x ha).mul (hasDerivAt_slice_x hw)).deriv

lemma flux_y {a w : ℝ × ℝ → ℝ} {z : ℝ × ℝ} (ha : DifferentiableAt ℝ a z) (hw : DifferentiableAt ℝ (dy w) z) :
    dy (fun z => a z * dy w z) z = dy a z * dy w z + a z * dy (dy w) z :=
  ((hasDerivAt_slice_y ha).mul (hasDerivAt_slice_y hw)).deriv

/-- A function whose operator is at most `σ` is below its boundary values plus `σ` times the barrier. -/
lemma barrierField_le {K : Set (ℝ × ℝ)} (hK : IsCompact K) {w : ℝ × ℝ → ℝ} (hw : ContinuousOn w K)
    (hd : TwiceOn (interior K) w) {a : ℝ × ℝ → ℝ} (ha : ∀ z ∈ interior K, 0 ≤ a z ∧ DifferentiableAt ℝ a z) {r : ℝ}
    (hr : 0 ≤ r) {b : ℝ × ℝ} {A : ℝ} {g g' g'' h h' h'' : ℝ → ℝ} (hG : BarrierField K a b r A g g' g'' h h' h'')
    {B σ : ℝ} (hB0 : 0 ≤ B) (hσ0 : 0 ≤ σ) (hB : ∀ z ∈ K, z ∉ interior K → w z ≤ B)
    (hσ : ∀ z ∈ interior K, operatorField a b r w z ≤ σ) {z : ℝ × ℝ} (hz : z ∈ K) : w z ≤ B + A * σ := by
  have key : ∀ τ > σ, w z ≤ B + A * τ := by
    intro τ hτ
    have hgc : Continuous g := continuous_iff_continuousAt.2 fun x => (hG.dg x).continuousAt
    have hhc : Continuous h := continuous_iff_continuousAt.2 fun x => (hG.dh x).continuousAt
    have hcont : ContinuousOn (fun z => w z - τ * (g z.1 + h z.2)) K :=
      hw.sub (continuousOn_const.mul
        ((hgc.comp continuous_fst).add (hhc.comp continuous_snd)).continuousOn)
    obtain ⟨m, hm, hmax⟩ := hK.exists_isMaxOn ⟨z, hz⟩ hcont
    have hzm : w z - τ * (g z.1 + h z.2) ≤ w m - τ * (g m.1 + h m.2) := hmax hz
    have hτ0 : 0 ≤ τ := by linarith
    have hzA := mul_le_mul_of_nonneg_left (hG.le z hz) hτ0
    suffices hle : w m - τ * (g m.1 + h m.2) ≤ B by linarith
    by_contra hpos
    push Not at hpos
    have hgm := mul_nonneg hτ0 (hG.nonneg m hm)
    by_cases hi : m ∈ interior K
    · have hU : IsOpen (interior K) := isOpen_interior
      have hx : IsLocalMax (fun s => w (s, m.2) - τ * g s) m.1 := by
        filter_upwards [slice_x_eventually hU hi] with s hs
        have := hmax (interior_subset hs)
        simp only [Set.mem_ofPred_eq] at this
        linarith
      have hy : IsLocalMax (fun s => w (m.1, s) - τ * h s) m.2 := by
        filter_upwards [slice_y_eventually hU hi] with s hs
        have := hmax (interior_subset hs)
        simp only [Set.mem_ofPred_eq] at this
        linarith
      have dX : HasDerivAt (fun s => w (s, m.2) - τ * g s) (dx w m - τ * g' m.1) m.1 :=
        (hasDerivAt_slice_x (hd.diff m hi)).sub ((hG.dg m.1).const_mul τ)
      have dY : HasDerivAt (fun s => w (m.1, s) - τ * h s) (dy w m - τ * h' m.2) m.2 :=
        (hasDerivAt_slice_y (hd.diff m hi)).sub ((hG.dh m.2).const_mul τ)
      have eX : dx w m = τ * g' m.1 := by
        have := hx.hasDerivAt_eq_zero dX
        linarith
      have eY : dy w m = τ * h' m.2 := by
        have := hy.hasDerivAt_eq_zero dY
        linarith
      have ddX : deriv (deriv fun s => w (s, m.2) - τ * g s) m.1 = dx (dx w) m - τ * g'' m.1 := by
        have e1 : deriv (fun s => w (s, m.2) - τ * g s) =ᶠ[𝓝 m.1] fun s => dx w (s, m.2) - τ * g' s := by
          filter_upwards [slice_x_eventually hU hi] with s hs
          exact ((hasDerivAt_slice_x (hd.diff _ hs)).sub ((hG.dg s).const_mul τ)).deriv
        rw [e1.deriv_eq]
        exact ((hasDerivAt_slice_x (hd.diffX m hi)).sub ((hG.dg' m.1).const_mul τ)).deriv
      have ddY : deriv (deriv fun s => w (m.1, s) - τ * h s) m.2 = dy (dy w) m - τ * h'' m.2 := by
        have e1 : deriv (fun s => w (m.1, s) - τ * h s) =ᶠ[𝓝 m.2] fun s => dy w (m.1, s) - τ * h' s := by
          filter_upwards [slice_y_eventually hU hi] with s hs
          exact ((hasDerivAt_slice_y (hd.diff _ hs)).sub ((hG.dh s).const_mul τ)).deriv
        rw [e1.deriv_eq]
        exact ((hasDerivAt_slice_y (hd.diffY m hi)).sub ((hG.dh' m.2).const_mul τ)).deriv
      have h1 := deriv_deriv_nonpos hx dX.continuousAt
      have h2 := deriv_deriv_nonpos hy dY.continuousAt
      rw [ddX] at h1
      rw [ddY] at h2
      obtain ⟨ha0, had⟩ := ha m hi
      have h3 := hσ m hi
      rw [operatorField, flux_x had (hd.diffX m hi), flux_y had (hd.diffY m hi), eX, eY] at h3
      have h4 := mul_le_mul_of_nonneg_left (hG.one m hi) hτ0
      have h5 : r * (τ * (g m.1 + h m.2)) ≤ r * w m := mul_le_mul_of_nonneg_left (by linarith) hr
      have h6 : a m * (dx (dx w) m + dy (dy w) m) ≤ a m * (τ * g'' m.1 + τ * h'' m.2) :=
        mul_le_mul_of_nonneg_left (by linarith) ha0
      nlinarith
    · have := hB m hm hi
      linarith
  have hA : 0 ≤ A := (hG.nonneg z hz).trans (hG.le z hz)
  refine le_of_forall_pos_le_add fun ε hε => ?_
  have h1 : 0 < ε / (A + 1) := by positivity
  have h2 := key (σ + ε / (A + 1)) (by linarith)
  have h3 : A * (ε / (A + 1)) ≤ ε := by
    rw [← mul_div_assoc, div_le_iff₀ (by linarith)]
    nlinarith
  nlinarith

lemma operatorField_neg (a : ℝ × ℝ → ℝ) (b : ℝ × ℝ) (r : ℝ) (w : ℝ × ℝ → ℝ) (z : ℝ × ℝ) :
    operatorField a b r (fun z => -w z) z = -operatorField a b r w z := by
  have e1 : dx (fun z => -w z) = fun z => -dx w z := by
    funext z; simp [dx]
  have e2 : dy (fun z => -w z) = fun z => -dy w z := by
    funext z; simp [dy]
  have e3 : dx (fun z => a z * dx (fun z => -w z) z) z = -dx (fun z => a z * dx w z) z := by
    rw [e1]; simp [dx]
  have e4 : dy (fun z => a z * dy (fun z => -w z) z) z = -dy (fun z => a z * dy w z) z := by
    rw [e2]; simp [dy]
  rw [operatorField, operatorField, e3, e4, e1, e2]
  ring

lemma barrierField_abs {K : Set (ℝ × ℝ)} (hK : IsCompact K) {w : ℝ × ℝ → ℝ} (hw : ContinuousOn w K)
    (hd : TwiceOn (interior K) w) {a : ℝ × ℝ → ℝ} (ha : ∀ z ∈ interior K, 0 ≤ a z ∧ DifferentiableAt ℝ a z) {r : ℝ}
    (hr : 0 ≤ r) {b : ℝ × ℝ} {A : ℝ} {g g' g'' h h' h'' : ℝ → ℝ} (hG : BarrierField K a b r A g g' g'' h h' h'')
    {B σ : ℝ} (hB0 : 0 ≤ B) (hσ0 : 0 ≤ σ) (hB : ∀ z ∈ K, z ∉ interior K → |w z| ≤ B)
    (hσ : ∀ z ∈ interior K, |operatorField a b r w z| ≤ σ) {z : ℝ × ℝ} (hz : z ∈ K) : |w z| ≤ B + A * σ := by
  have e1 : dx (fun z => -w z) = fun z => -dx w z := by
    funext z; simp [dx]
  have e2 : dy (fun z => -w z) = fun z => -dy w z := by
    funext z; simp [dy]
  have hneg : TwiceOn (interior K) (fun z => -w z) := by
    refine ⟨fun z hz => (hd.diff z hz).neg, ?_, ?_⟩
    · rw [e1]; exact fun z hz => (hd.diffX z hz).neg
    · rw [e2]; exact fun z hz => (hd.diffY z hz).neg
  rw [abs_le]
  constructor
  · have : -w z ≤ B + A * σ := barrierField_le hK hw.neg hneg ha hr hG hB0 hσ0
      (fun z hz hi => (neg_le_abs _).trans (hB z hz hi))
      (fun z hz => (operatorField_neg a b r w z).le.trans ((neg_le_abs _).trans (hσ z hz))) hz
    linarith
  · exact barrierField_le hK hw hd ha hr hG hB0 hσ0 (fun z hz hi => (le_abs_self _).trans (hB z hz hi))
      (fun z hz => (le_abs_self _).trans (hσ z hz)) hz

/-- The barrier for one direction. -/
lemma exponential_barrier (x₀ X α k : ℝ) :
    (∀ x, HasDerivAt (fun x : ℝ => (Real.exp (α * X) - Real.exp (α * (x - x₀))) / k)
      (-(α * Real.exp (α * (x - x₀))) / k) x) ∧
    ∀ x, HasDerivAt (fun x : ℝ => -(α * Real.exp (α * (x - x₀))) / k)
      (-(α * (α * Real.exp (α * (x - x₀)))) / k) x := by
  have h0 : ∀ x, HasDerivAt (fun x : ℝ => Real.exp (α * (x - x₀))) (α * Real.exp (α * (x - x₀))) x := fun x => by
    have := (((hasDerivAt_id x).sub_const x₀).const_mul α).exp
    exact this.congr_deriv (by simp; ring)
  exact ⟨fun x => ((h0 x).const_sub _).div_const k, fun x => (((h0 x).const_mul α).neg).div_const k⟩

lemma exponential_facts {x₀ X α am G β r x a' : ℝ} (hα : 0 < α) (hk : 0 < α * (α * am - G - |β|)) (hr : 0 ≤ r)
    (hx : x₀ ≤ x ∧ x ≤ x₀ + X) :
    0 ≤ (Real.exp (α * X) - Real.exp (α * (x - x₀))) / (α * (α * am - G - |β|)) ∧
    (Real.exp (α * X) - Real.exp (α * (x - x₀))) / (α * (α * am - G - |β|))
      ≤ (Real.exp (α * X) - 1) / (α * (α * am - G - |β|)) ∧
    ∀ av, am ≤ av → |a'| ≤ G →
      1 ≤ -(av * (-(α * (α * Real.exp (α * (x - x₀)))) / (α * (α * am - G - |β|)))
          + a' * (-(α * Real.exp (α * (x - x₀))) / (α * (α * am - G - |β|))))
        + β * (-(α * Real.exp (α * (x - x₀))) / (α * (α * am - G - |β|)))
        + r * ((Real.exp (α * X) - Real.exp (α * (x - x₀))) / (α * (α * am - G - |β|))) := by
  have h1 : 1 ≤ Real.exp (α * (x - x₀)) := Real.one_le_exp (mul_nonneg hα.le (by linarith))
  have h2 : Real.exp (α * (x - x₀)) ≤ Real.exp (α * X) :=
    Real.exp_le_exp.2 (mul_le_mul_of_nonneg_left (by linarith) hα.le)
  have h3 : 0 ≤ (Real.exp (α * X) - Real.exp (α * (x - x₀))) / (α * (α * am - G - |β|)) :=
    div_nonneg (by linarith) hk.le
  refine ⟨h3, div_le_div_of_nonneg_right (by linarith) hk.le, fun av hav ha' => ?_⟩
  set E := Real.exp (α * (x - x₀)) with hE
  set k := α * (α * am - G - |β|) with hkdef
  have h4 : -(av * (-(α * (α * E)) / k) + a' * (-(α * E) / k)) + β * (-(α * E) / k)
      = E * (α * (α * av + a' - β)) / k := by ring
  have h5 : k ≤ α * (α * av + a' - β) := by
    rw [hkdef]
    refine mul_le_mul_of_nonneg_left ?_ hα.le
    have := mul_le_mul_of_nonneg_left hav hα.le
    linarith [neg_le_abs a', le_abs_self β]
  have h6 : 1 ≤ E * (α * (α * av + a' - β)) / k := by
    rw [le_div_iff₀ hk]
    nlinarith
  rw [h4]
  linarith [mul_nonneg hr h3]

/-- The maximum principle. -/
lemma max_principle_field {K : Set (ℝ × ℝ)} (hK : IsCompact K) {w : ℝ × ℝ → ℝ} (hw : ContinuousOn w K)
    (hd : TwiceOn (interior K) w) {a : ℝ × ℝ → ℝ} (ha : ∀ z ∈ interior K, 0 ≤ a z ∧ DifferentiableAt ℝ a z) {r : ℝ}
    (hr : 0 ≤ r) {b : ℝ × ℝ} {A : ℝ} (hA : StabilityFactorField K a b r A) {B σ : ℝ} (hB0 : 0 ≤ B) (hσ0 : 0 ≤ σ)
    (hB : ∀ z ∈ K, z ∉ interior K → |w z| ≤ B) (hσ : ∀ z ∈ interior K, |operatorField a b r w z| ≤ σ)
    {z : ℝ × ℝ} (hz : z ∈ K) : |w z| ≤ B + A * σ := by
  rcases hA with ⟨X, α, am, G, ⟨x₀, hX⟩, hα, hb, hk, rfl⟩ | ⟨Y, α, am, G, ⟨y₀, hY⟩, hα, hb, hk, rfl⟩ | ⟨hr', rfl⟩
  · refine barrierField_abs hK hw hd ha hr
      (g := fun x => (Real.exp (α * X) - Real.exp (α * (x - x₀))) / (α * (α * am - G - |b.1|)))
      (g' := fun x => -(α * Real.exp (α * (x - x₀))) / (α * (α * am - G - |b.1|)))
      (g'' := fun x => -(α * (α * Real.exp (α * (x - x₀)))) / (α * (α * am - G - |b.1|)))
      (h := fun _ => 0) (h' := fun _ => 0) (h'' := fun _ => 0)
      ⟨(exponential_barrier x₀ X α _).1, (exponential_barrier x₀ X α _).2, fun x => hasDerivAt_const x _,
        fun x => hasDerivAt_const x _, fun z hz => ?_, fun z hz => ?_, fun z hz => ?_⟩ hB0 hσ0 hB hσ hz
    · simpa using (exponential_facts (a' := 0) hα hk hr (hX z hz)).1
    · simpa using (exponential_facts (a' := 0) hα hk hr (hX z hz)).2.1
    · simpa using (exponential_facts (a' := dx a z) hα hk hr (hX z (interior_subset hz))).2.2 (a z) (hb z hz).1
        (hb z hz).2
  · refine barrierField_abs hK hw hd ha hr
      (h := fun x => (Real.exp (α * Y) - Real.exp (α * (x - y₀))) / (α * (α * am - G - |b.2|)))
      (h' := fun x => -(α * Real.exp (α * (x - y₀))) / (α * (α * am - G - |b.2|)))
      (h'' := fun x => -(α * (α * Real.exp (α * (x - y₀)))) / (α * (α * am - G - |b.2|)))
      (g := fun _ => 0) (g' := fun _ => 0) (g'' := fun _ => 0)
      ⟨fun x => hasDerivAt_const x _, fun x => hasDerivAt_const x _, (exponential_barrier y₀ Y α _).1,
        (exponential_barrier y₀ Y α _).2, fun z hz => ?_, fun z hz => ?_, fun z hz => ?_⟩ hB0 hσ0 hB hσ hz
    · simpa using (exponential_facts (a' := 0) hα hk hr (hY z hz)).1
    · simpa using (exponential_facts (a' := 0) hα hk hr (hY z hz)).2.1
    · simpa using (exponential_facts (a' := dy a z) hα hk hr (hY z (interior_subset hz))).2.2 (a z) (hb z hz).1
        (hb z hz).2
  · refine barrierField_abs hK hw hd ha hr (h := fun _ => 0) (h' := fun _ => 0)
      (h'' := fun _ => 0) (g := fun _ => 1 / r) (g' := fun _ => 0) (g'' := fun _ => 0)
      ⟨fun x => hasDerivAt_const x _, fun x => hasDerivAt_const x _, fun x => hasDerivAt_const x _,
        fun x => hasDerivAt_const x _, fun z hz => ?_, fun z hz => ?_, fun z hz => ?_⟩ hB0 hσ0 hB hσ hz
    · simpa using hr
    · simp
    · simp [mul_inv_cancel₀ hr'.ne']

end FastVPINNs
