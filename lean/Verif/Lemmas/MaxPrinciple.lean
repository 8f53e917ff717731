import Verif.Props.Consistency
import Verif.Spec.Stability
import Mathlib.Analysis.Calculus.DerivativeTest

/-! # The maximum principle for `-e Δw + b·∇w + r w` -/

namespace FastVPINNs

open Spec Topology Filter

/-- At a local maximum the second derivative is not positive. -/
lemma deriv_deriv_nonpos {g : ℝ → ℝ} {t : ℝ} (h : IsLocalMax g t) (hc : ContinuousAt g t) :
    deriv (deriv g) t ≤ 0 := by
  by_contra hpos
  push Not at hpos
  have hmin := isLocalMin_of_deriv_deriv_pos hpos h.deriv_eq_zero hc
  have hconst : g =ᶠ[𝓝 t] fun _ => g t := by
    filter_upwards [h, hmin] with s h1 h2
    exact le_antisymm h1 h2
  have h2 : deriv g =ᶠ[𝓝 t] fun _ => 0 := by
    have := hconst.deriv
    refine this.trans (Eventually.of_forall fun s => ?_)
    simp
  have := h2.deriv_eq
  simp at this
  linarith

/-- What is needed of a function on the open set `U`. -/
structure TwiceOn (U : Set (ℝ × ℝ)) (w : ℝ × ℝ → ℝ) : Prop where
  diff : ∀ z ∈ U, DifferentiableAt ℝ w z
  diffX : ∀ z ∈ U, DifferentiableAt ℝ (dx w) z
  diffY : ∀ z ∈ U, DifferentiableAt ℝ (dy w) z

/-- The left-hand side of the equation. -/
noncomputable def operator (e : ℝ) (b : ℝ × ℝ) (r : ℝ) (w : ℝ × ℝ → ℝ) (z : ℝ × ℝ) : ℝ :=
  -e * (dx (dx w) z + dy (dy w) z) + (b.1 * dx w z + b.2 * dy w z) + r * w z

lemma slice_x_eventually {U : Set (ℝ × ℝ)} (hU : IsOpen U) {z : ℝ × ℝ} (hz : z ∈ U) :
    ∀ᶠ s in 𝓝 z.1, (s, z.2) ∈ U :=
  (by fun_prop : ContinuousAt (fun s : ℝ => (s, z.2)) z.1).eventually (hU.mem_nhds hz)

lemma slice_y_eventually {U : Set (ℝ × ℝ)} (hU : IsOpen U) {z : ℝ × ℝ} (hz : z ∈ U) :
    ∀ᶠ s in 𝓝 z.2, (z.1, s) ∈ U :=
  (by fun_prop : ContinuousAt (fun s : ℝ => (z.1, s)) z.2).eventually (hU.mem_nhds hz)

lemma hasDerivAt_slice_x {w : ℝ × ℝ → ℝ} {z : ℝ × ℝ} (h : DifferentiableAt ℝ w z) :
    HasDerivAt (fun s => w (s, z.2)) (dx w z) z.1 := by
  have : DifferentiableAt ℝ (fun s : ℝ => w (s, z.2)) z.1 :=
    DifferentiableAt.comp (f := fun s : ℝ => (s, z.2)) z.1 (by simpa using h) (by fun_prop)
  exact this.hasDerivAt

lemma hasDerivAt_slice_y {w : ℝ × ℝ → ℝ} {z : ℝ × ℝ} (h : DifferentiableAt ℝ w z) :
    HasDerivAt (fun s => w (z.1, s)) (dy w z) z.2 := by
  have : DifferentiableAt ℝ (fun s : ℝ => w (z.1, s)) z.2 :=
    DifferentiableAt.comp (f := fun s : ℝ => (z.1, s)) z.2 (by simpa using h) (by fun_prop)
  exact this.hasDerivAt

/-- A sum of a function of `x` and a function of `y`, with first and second derivatives, on which the operator is
at least one. -/
structure Barrier (K : Set (ℝ × ℝ)) (e : ℝ) (b : ℝ × ℝ) (r A : ℝ) (g g' g'' h h' h'' : ℝ → ℝ) : Prop where
  dg : ∀ x, HasDerivAt g (g' x) x
  dg' : ∀ x, HasDerivAt g' (g'' x) x
  dh : ∀ x, HasDerivAt h (h' x) x
  dh' : ∀ x, HasDerivAt h' (h'' x) x
  nonneg : ∀ z ∈ K, 0 ≤ g z.1 + h z.2
  le : ∀ z ∈ K, g z.1 + h z.2 ≤ A
  one : ∀ z ∈ K, 1 ≤ -e * (g'' z.1 + h'' z.2) + (b.1 * g' z.1 + b.2 * h' z.2) + r * (g z.1 + h z.2)

/-- A function whose operator is at most `σ` is below its boundary values plus `σ` times the barrier. -/
lemma barrier_le {K : Set (ℝ × ℝ)} (hK : IsCompact K) {w : ℝ × ℝ → ℝ} (hw : ContinuousOn w K)
    (hd : TwiceOn (interior K) w) {e r : ℝ} (he : 0 ≤ e) (hr : 0 ≤ r) {b : ℝ × ℝ} {A : ℝ}
    {g g' g'' h h' h'' : ℝ → ℝ} (hG : Barrier K e b r A g g' g'' h h' h'') {B σ : ℝ}
    (hB0 : 0 ≤ B) (hσ0 : 0 ≤ σ) (hB : ∀ z ∈ K, z ∉ interior K → w z ≤ B)
    (hσ : ∀ z ∈ interior K, operator e b r w z ≤ σ) {z : ℝ × ℝ} (hz : z ∈ K) : w z ≤ B + A * σ := by
  have key : ∀ τ > σ, w z ≤ B + A * τ := by
    intro τ hτ
    have hgc : Continuous g := continuous_iff_continuousAt.2 fun x => (hG.dg x).continuousAt
    have hhc : Continuous h := continuous_iff_continuousAt.2 fun x => (hG.dh x).continuousAt
    have hcont : ContinuousOn (fun z => w z - τ * (g z.1 + h z.2)) K :=
      hw.sub (continuousOn_const.mul
        ((hgc.comp continuous_fst).add (hhc.comp continuous_snd)).continuousOn)
    obtain ⟨m, hm, hmax⟩ := hK.exists_isMaxOn ⟨z, hz⟩ hcont
    have hzm : w z - τ * (g z.1 + h z.2) ≤ w m - τ * (g m.1 + h m.2) := hmax hz
    have hτ0 : 0 ≤ τ := by linarith
    have hzA := mul_le_mul_of_nonneg_left (hG.le z hz) hτ0
    suffices hle : w m - τ * (g m.1 + h m.2) ≤ B by linarith
    by_contra hpos
    push Not at hpos
    have hgm := mul_nonneg hτ0 (hG.nonneg m hm)
    by_cases hi : m ∈ interior K
    · have hU : IsOpen (interior K) := isOpen_interior
      have hx : IsLocalMax (fun s => w (s, m.2) - τ * g s) m.1 := by
        filter_upwards [slice_x_eventually hU hi] with s hs
        have := hmax (interior_subset hs)
        simp only [Set.mem_ofPred_eq] at this
        linarith
      have hy : IsLocalMax (fun s => w (m.1, s) - τ * h s) m.2 := by
        filter_upwards [slice_y_eventually hU hi] with s hs
        have := hmax (interior_subset hs)
        simp only [Set.mem_ofPred_eq] at this
        linarith
      have dX : HasDerivAt (fun s => w (s, m.2) - τ * g s) (dx w m - τ * g' m.1) m.1 :=
        (hasDerivAt_slice_x (hd.diff m hi)).sub ((hG.dg m.1).const_mul τ)
      have dY : HasDerivAt (fun s => w (m.1, s) - τ * h s) (dy w m - τ * h' m.2) m.2 :=
        (hasDerivAt_slice_y (hd.diff m hi)).sub ((hG.dh m.2).const_mul τ)
      have eX : dx w m = τ * g' m.1 := by
        have := hx.hasDerivAt_eq_zero dX
        linarith
      have eY : dy w m = τ * h' m.2 := by
        have := hy.hasDerivAt_eq_zero dY
        linarith
      have ddX : deriv (deriv fun s => w (s, m.2) - τ * g s) m.1 = dx (dx w) m - τ * g'' m.1 := by
        have e1 : deriv (fun s => w (s, m.2) - τ * g s) =ᶠ[𝓝 m.1] fun s => dx w (s, m.2) - τ * g' s := by
          filter_upwards [slice_x_eventually hU hi] with s hs
          exact ((hasDerivAt_slice_x (hd.diff _ hs)).sub ((hG.dg s).const_mul τ)).deriv
        rw [e1.deriv_eq]
        exact ((hasDerivAt_slice_x (hd.diffX m hi)).sub ((hG.dg' m.1).const_mul τ)).deriv
      have ddY : deriv (deriv fun s => w (m.1, s) - τ * h s) m.2 = dy (dy w) m - τ * h'' m.2 := by
        have e1 : deriv (fun s => w (m.1, s) - τ * h s) =ᶠ[𝓝 m.2] fun s => dy w (m.1, s) - τ * h' s := by
          filter_upwards [slice_y_eventually hU hi] with s hs
          exact ((hasDerivAt_slice_y (hd.diff _ hs)).sub ((hG.dh s).const_mul τ)).deriv
        rw [e1.deriv_eq]
        exact ((hasDerivAt_slice_y (hd.diffY m hi)).sub ((hG.dh' m.2).const_mul τ)).deriv
      have h1 := deriv_deriv_nonpos hx dX.continuousAt
      have h2 := deriv_deriv_nonpos hy dY.continuousAt
      rw [ddX] at h1
      rw [ddY] at h2
      have h3 := hσ m hi
      rw [operator, eX, eY] at h3
      have h4 := mul_le_mul_of_nonneg_left (hG.one m hm) hτ0
      have h5 : r * (τ * (g m.1 + h m.2)) ≤ r * w m := mul_le_mul_of_nonneg_left (by linarith) hr
      have h6 : e * (dx (dx w) m + dy (dy w) m) ≤ e * (τ * g'' m.1 + τ * h'' m.2) :=
        mul_le_mul_of_nonneg_left (by linarith) he
      nlinarith
    · have := hB m hm hi
      linarith
  have hA : 0 ≤ A := (hG.nonneg z hz).trans (hG.le z hz)
  refine le_of_forall_pos_le_add fun ε hε => ?_
  have h1 : 0 < ε / (A + 1) := by positivity
  have h2 := key (σ + ε / (A + 1)) (by linarith)
  have h3 : A * (ε / (A + 1)) ≤ ε := by
    rw [← mul_div_assoc, div_le_iff₀ (by linarith)]
    nlinarith
  nlinarith

lemma barrier_abs {K : Set (ℝ × ℝ)} (hK : IsCompact K) {w : ℝ × ℝ → ℝ} (hw : ContinuousOn w K)
    (hd : TwiceOn (interior K) w) {e r : ℝ} (he : 0 ≤ e) (hr : 0 ≤ r) {b : ℝ × ℝ} {A : ℝ}
    {g g' g'' h h' h'' : ℝ → ℝ} (hG : Barrier K e b r A g g' g'' h h' h'') {B σ : ℝ}
    (hB0 : 0 ≤ B) (hσ0 : 0 ≤ σ) (hB : ∀ z ∈ K, z ∉ interior K → |w z| ≤ B)
    (hσ : ∀ z ∈ interior K, |operator e b r w z| ≤ σ) {z : ℝ × ℝ} (hz : z ∈ K) : |w z| ≤ B + A * σ := by
  have e1 : dx (fun z => -w z) = fun z => -dx w z := by
    funext z; simp [dx]
  have e2 : dy (fun z => -w z) = fun z => -dy w z := by
    funext z; simp [dy]
  have hneg : TwiceOn (interior K) (fun z => -w z) := by
    refine ⟨fun z hz => (hd.diff z hz).neg, ?_, ?_⟩
    · rw [e1]; exact fun z hz => (hd.diffX z hz).neg
    · rw [e2]; exact fun z hz => (hd.diffY z hz).neg
  have hop : ∀ z, operator e b r (fun z => -w z) z = -operator e b r w z := by
    intro z
    have e3 : dx (dx fun z => -w z) z = - dx (dx w) z := by
      rw [e1]; simp [dx]
    have e4 : dy (dy fun z => -w z) z = - dy (dy w) z := by
      rw [e2]; simp [dy]
    rw [operator, operator, e3, e4, e1, e2]
    ring
  rw [abs_le]
  constructor
  · have : -w z ≤ B + A * σ := barrier_le hK hw.neg hneg he hr hG hB0 hσ0
      (fun z hz hi => (neg_le_abs _).trans (hB z hz hi))
      (fun z hz => (hop z).le.trans ((neg_le_abs _).trans (hσ z hz))) hz
    linarith
  · exact barrier_le hK hw hd he hr hG hB0 hσ0 (fun z hz hi => (le_abs_self _).trans (hB z hz hi))
      (fun z hz => (le_abs_self _).trans (hσ z hz)) hz

lemma quadratic_derivs (α β γ : ℝ) : (∀ x, HasDerivAt (fun x : ℝ => α + β * x + γ * x ^ 2) (β + 2 * γ * x) x) ∧
    ∀ x, HasDerivAt (fun x : ℝ => β + 2 * γ * x) (2 * γ) x := by
  refine ⟨fun x => ?_, fun x => ?_⟩
  · have h := ((hasDerivAt_const x α).add ((hasDerivAt_id x).const_mul β)).add ((hasDerivAt_pow 2 x).const_mul γ)
    refine (h.congr_deriv ?_)
    simp
    ring
  · have h := (hasDerivAt_const x β).add ((hasDerivAt_id x).const_mul (2 * γ))
    refine (h.congr_deriv ?_)
    simp

/-- Barriers for one direction, as quadratic functions. -/
lemma quadratic_barrier {I : Set ℝ} {x₀ X : ℝ} (hI : ∀ x ∈ I, x₀ ≤ x ∧ x ≤ x₀ + X) {e β r A : ℝ} (he : 0 < e)
    (hr : 0 ≤ r) (hA : A = X ^ 2 / (2 * e) ∨ (β ≠ 0 ∧ A = X / |β|)) :
    ∃ p q s : ℝ, ∀ x ∈ I, 0 ≤ p + q * x + s * x ^ 2 ∧ p + q * x + s * x ^ 2 ≤ A ∧
      1 ≤ -e * (2 * s) + β * (q + 2 * s * x) + r * (p + q * x + s * x ^ 2) := by
  rcases hA with rfl | ⟨hβ, rfl⟩
  · rcases le_total β 0 with h | h
    · refine ⟨(X ^ 2 - x₀ ^ 2) / (2 * e), x₀ / e, -1 / (2 * e), fun x hx => ?_⟩
      obtain ⟨h1, h2⟩ := hI x hx
      have e1 : (X ^ 2 - x₀ ^ 2) / (2 * e) + x₀ / e * x + -1 / (2 * e) * x ^ 2
          = (X ^ 2 - (x - x₀) ^ 2) / (2 * e) := by
        field_simp
        ring
      have e2 : x₀ / e + 2 * (-1 / (2 * e)) * x = -((x - x₀) / e) := by
        field_simp
        ring
      have e3 : -e * (2 * (-1 / (2 * e))) = 1 := by
        field_simp
      have h3 : 0 ≤ (X ^ 2 - (x - x₀) ^ 2) / (2 * e) := div_nonneg (by nlinarith) (by linarith)
      have h4 : 0 ≤ (x - x₀) / e := div_nonneg (by linarith) he.le
      rw [e1, e2, e3]
      refine ⟨h3, div_le_div_of_nonneg_right (by nlinarith) (by linarith), ?_⟩
      nlinarith [mul_nonneg hr h3]
    · refine ⟨(X ^ 2 - (x₀ + X) ^ 2) / (2 * e), (x₀ + X) / e, -1 / (2 * e), fun x hx => ?_⟩
      obtain ⟨h1, h2⟩ := hI x hx
      have e1 : (X ^ 2 - (x₀ + X) ^ 2) / (2 * e) + (x₀ + X) / e * x + -1 / (2 * e) * x ^ 2
          = (X ^ 2 - (x₀ + X - x) ^ 2) / (2 * e) := by
        field_simp
        ring
      have e2 : (x₀ + X) / e + 2 * (-1 / (2 * e)) * x = (x₀ + X - x) / e := by
        field_simp
        ring
      have e3 : -e * (2 * (-1 / (2 * e))) = 1 := by
        field_simp
      have h3 : 0 ≤ (X ^ 2 - (x₀ + X - x) ^ 2) / (2 * e) := div_nonneg (by nlinarith) (by linarith)
      have h4 : 0 ≤ (x₀ + X - x) / e := div_nonneg (by linarith) he.le
      rw [e1, e2, e3]
      refine ⟨h3, div_le_div_of_nonneg_right (by nlinarith) (by linarith), ?_⟩
      nlinarith [mul_nonneg hr h3]
  · rcases lt_or_gt_of_ne hβ with h | h
    · refine ⟨(x₀ + X) / -β, -1 / -β, 0, fun x hx => ?_⟩
      obtain ⟨h1, h2⟩ := hI x hx
      have hβ' : 0 < -β := by linarith
      have e1 : (x₀ + X) / -β + -1 / -β * x + 0 * x ^ 2 = (x₀ + X - x) / -β := by ring
      have e2 : β * (-1 / -β + 2 * 0 * x) = 1 := by
        field_simp
        ring
      have h3 : 0 ≤ (x₀ + X - x) / -β := div_nonneg (by linarith) hβ'.le
      rw [e1, e2, abs_of_neg h]
      refine ⟨h3, div_le_div_of_nonneg_right (by linarith) hβ'.le, ?_⟩
      nlinarith [mul_nonneg hr h3]
    · refine ⟨-x₀ / β, 1 / β, 0, fun x hx => ?_⟩
      obtain ⟨h1, h2⟩ := hI x hx
      have e1 : -x₀ / β + 1 / β * x + 0 * x ^ 2 = (x - x₀) / β := by ring
      have e2 : β * (1 / β + 2 * 0 * x) = 1 := by
        field_simp
        ring
      have h3 : 0 ≤ (x - x₀) / β := div_nonneg (by linarith) h.le
      rw [e1, e2, abs_of_pos h]
      refine ⟨h3, div_le_div_of_nonneg_right (by linarith) h.le, ?_⟩
      nlinarith [mul_nonneg hr h3]

/-- The maximum principle. -/
lemma max_principle {K : Set (ℝ × ℝ)} (hK : IsCompact K) {w : ℝ × ℝ → ℝ} (hw : ContinuousOn w K)
    (hd : TwiceOn (interior K) w) {e r : ℝ} (he : 0 < e) (hr : 0 ≤ r) {b : ℝ × ℝ} {A : ℝ}
    (hA : StabilityFactor K e b r A) {B σ : ℝ} (hB0 : 0 ≤ B) (hσ0 : 0 ≤ σ)
    (hB : ∀ z ∈ K, z ∉ interior K → |w z| ≤ B) (hσ : ∀ z ∈ interior K, |operator e b r w z| ≤ σ)
    {z : ℝ × ℝ} (hz : z ∈ K) : |w z| ≤ B + A * σ := by
  rcases hA with ⟨X, ⟨x₀, hX⟩, hA⟩ | ⟨Y, ⟨y₀, hY⟩, hA⟩ | ⟨hr', rfl⟩
  · obtain ⟨p, q, s, h⟩ := quadratic_barrier (I := Prod.fst '' K) (x₀ := x₀) (X := X)
      (by rintro _ ⟨z, hz, rfl⟩; exact hX z hz) he hr hA
    refine barrier_abs hK hw hd he.le hr (g := fun x => p + q * x + s * x ^ 2) (g' := fun x => q + 2 * s * x)
      (g'' := fun _ => 2 * s) (h := fun _ => 0) (h' := fun _ => 0) (h'' := fun _ => 0)
      ⟨(quadratic_derivs p q s).1, (quadratic_derivs p q s).2, fun x => hasDerivAt_const x _,
        fun x => hasDerivAt_const x _, fun z hz => ?_, fun z hz => ?_, fun z hz => ?_⟩ hB0 hσ0 hB hσ hz
    · simpa using (h z.1 ⟨z, hz, rfl⟩).1
    · simpa using (h z.1 ⟨z, hz, rfl⟩).2.1
    · simpa using (h z.1 ⟨z, hz, rfl⟩).2.2
  · obtain ⟨p, q, s, h⟩ := quadratic_barrier (I := Prod.snd '' K) (x₀ := y₀) (X := Y)
      (by rintro _ ⟨z, hz, rfl⟩; exact hY z hz) he hr hA
    refine barrier_abs hK hw hd he.le hr (h := fun x => p + q * x + s * x ^ 2) (h' := fun x => q + 2 * s * x)
      (h'' := fun _ => 2 * s) (g := fun _ => 0) (g' := fun _ => 0) (g'' := fun _ => 0)
      ⟨fun x => hasDerivAt_const x _, fun x => hasDerivAt_const x _, (quadratic_derivs p q s).1,
        (quadratic_derivs p q s).2, fun z hz => ?_, fun z hz => ?_, fun z hz => ?_⟩ hB0 hσ0 hB hσ hz
    · simpa using (h z.2 ⟨z, hz, rfl⟩).1
    · simpa using (h z.2 ⟨z, hz, rfl⟩).2.1
    · simpa using (h z.2 ⟨z, hz, rfl⟩).2.2
  · refine barrier_abs hK hw hd he.le hr (h := fun _ => 0) (h' := fun _ => 0)
      (h'' := fun _ => 0) (g := fun _ => 1 / r) (g' := fun _ => 0) (g'' := fun _ => 0)
      ⟨fun x => hasDerivAt_const x _, fun x => hasDerivAt_const x _, fun x => hasDerivAt_const x _,
        fun x => hasDerivAt_const x _, fun z hz => ?_, fun z hz => ?_, fun z hz => ?_⟩ hB0 hσ0 hB hσ hz
    · simpa using hr
    · simp
    · simp [mul_inv_cancel₀ hr'.ne']

end FastVPINNs
