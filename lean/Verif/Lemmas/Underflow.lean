import Verif.Lemmas.RoundedRuns
import Verif.Model.Underflow
import Verif.Lemmas.SpecialLoss
import Mathlib.Topology.Algebra.Polynomial
import Mathlib.Topology.MetricSpace.Basic
import Mathlib.Topology.Instances.Real.Lemmas

/-! # Error propagation with underflow and inexact inputs -/

namespace FastVPINNs

/-- `r` is near `x`: the error is at most `(1 + u) ^ k` times `m` minus `m₀`, where `|x| ≤ m₀ ≤ m`. -/
structure NearU (u : ℝ) (k : ℕ) (m m₀ r x : ℝ) : Prop where
  err : |r - x| ≤ (1 + u) ^ k * m - m₀
  bound : |x| ≤ m₀
  le : m₀ ≤ m

section
variable {u η : ℝ} {k l : ℕ} {m m₀ n n₀ r s x y : ℝ}

lemma NearU.nonneg₀ (h : NearU u k m m₀ r x) : 0 ≤ m₀ := (abs_nonneg x).trans h.bound

lemma NearU.nonneg (h : NearU u k m m₀ r x) : 0 ≤ m := h.nonneg₀.trans h.le

lemma NearU.mono (hu : 0 ≤ u) (h : NearU u k m m₀ r x) (hkl : k ≤ l) (hmn : m ≤ n) : NearU u l n m₀ r x := by
  refine ⟨h.err.trans ?_, h.bound, h.le.trans hmn⟩
  have h1 : (1 + u) ^ k ≤ (1 + u) ^ l := pow_le_pow_right₀ (by linarith) hkl
  have := mul_le_mul h1 hmn h.nonneg (by positivity)
  linarith

lemma NearU.abs_le (h : NearU u k m m₀ r x) : |r| ≤ (1 + u) ^ k * m := by
  have := abs_sub_abs_le_abs_sub r x
  linarith [h.err, h.bound]

lemma NearU.round (hu : 0 ≤ u) (h : NearU u k m m₀ r x) (hs : FlU u η r s) : NearU u (k + 1) (m + η) m₀ s x := by
  obtain ⟨δ, θ, hδ, hθ, rfl⟩ := hs
  have hη : 0 ≤ η := (abs_nonneg θ).trans hθ
  refine ⟨?_, h.bound, by linarith [h.le]⟩
  have e : r * (1 + δ) + θ - x = (r - x) + r * δ + θ := by ring
  have h1 : |r * δ| ≤ (1 + u) ^ k * m * u := by
    rw [abs_mul]
    exact mul_le_mul h.abs_le hδ (abs_nonneg _) ((abs_nonneg _).trans h.abs_le)
  have h2 := one_le_pow_u hu (k + 1)
  have h3 : η ≤ (1 + u) ^ (k + 1) * η := le_mul_of_one_le_left hη h2
  have h4 := abs_add_le ((r - x) + r * δ) θ
  have h5 := abs_add_le (r - x) (r * δ)
  have h6 := h.err
  rw [e]
  have : (1 + u) ^ (k + 1) * (m + η) = (1 + u) ^ k * m + (1 + u) ^ k * m * u + (1 + u) ^ (k + 1) * η := by ring
  linarith

lemma NearU.plus (hx : NearU u k m m₀ r x) (hy : NearU u k n n₀ s y) :
    NearU u k (m + n) (m₀ + n₀) (r + s) (x + y) := by
  refine ⟨?_, (abs_add_le _ _).trans (add_le_add hx.bound hy.bound), add_le_add hx.le hy.le⟩
  have e : r + s - (x + y) = (r - x) + (s - y) := by ring
  rw [e]
  have := abs_add_le (r - x) (s - y)
  have := hx.err
  have := hy.err
  rw [mul_add]
  linarith

lemma NearU.neg (hx : NearU u k m m₀ r x) : NearU u k m m₀ (-r) (-x) := by
  refine ⟨?_, by rw [abs_neg]; exact hx.bound, hx.le⟩
  have e : -r - -x = -(r - x) := by ring
  rw [e, abs_neg]
  exact hx.err

lemma NearU.times (hx : NearU u k m m₀ r x) (hy : NearU u l n n₀ s y) :
    NearU u (k + l) (m * n) (m₀ * n₀) (r * s) (x * y) := by
  refine ⟨?_, by rw [abs_mul]; exact mul_le_mul hx.bound hy.bound (abs_nonneg _) hx.nonneg₀,
    mul_le_mul hx.le hy.le hy.nonneg₀ hx.nonneg⟩
  have e : r * s - x * y = (r - x) * s + x * (s - y) := by ring
  calc |r * s - x * y| ≤ |r - x| * |s| + |x| * |s - y| := by
        rw [e, ← abs_mul, ← abs_mul]; exact abs_add_le _ _
    _ ≤ ((1 + u) ^ k * m - m₀) * ((1 + u) ^ l * n) + m₀ * ((1 + u) ^ l * n - n₀) :=
      add_le_add (mul_le_mul hx.err hy.abs_le (abs_nonneg _) ((abs_nonneg _).trans hx.err))
        (mul_le_mul hx.bound hy.err (abs_nonneg _) hx.nonneg₀)
    _ = (1 + u) ^ (k + l) * (m * n) - m₀ * n₀ := by rw [pow_add]; ring

/-- Every way of adding up a list. -/
lemma SumRunU.near (hu : 0 ≤ u) {l : List ℝ} (h : SumRunU u η l r) :
    NearU u (l.length - 1) ((l.map (|·|)).sum + (l.length - 1 : ℕ) * η) (l.map (|·|)).sum r l.sum := by
  induction h with
  | nil => exact ⟨by simp, by simp, by simp⟩
  | one x => exact ⟨by simp, by simp, by simp⟩
  | @add l m x y r hl hm _ _ hr hx hy =>
    have h1 : 1 ≤ l.length := List.length_pos_iff.2 hl
    have h2 : 1 ≤ m.length := List.length_pos_iff.2 hm
    have := ((hx.mono hu (l := l.length + m.length - 2) (by omega) le_rfl).plus
      (hy.mono hu (l := l.length + m.length - 2) (by omega) le_rfl)).round hu hr
    rw [List.map_append, List.sum_append, List.sum_append, List.length_append]
    refine this.mono hu (by omega) (le_of_eq ?_)
    have e : l.length + m.length - 1 = (l.length - 1) + (m.length - 1) + 1 := by omega
    rw [e]
    push_cast
    ring
  | perm h _ hx =>
    rw [← (h.map _).sum_eq, ← h.sum_eq, ← h.length_eq]
    exact hx

lemma sumRunU_near (hu : 0 ≤ u) (hη : 0 ≤ η) {N : ℕ} {xs ys ms m₀s : Fin N → ℝ}
    (hxs : ∀ i, NearU u k (ms i) (m₀s i) (xs i) (ys i)) (h : SumRunU u η (List.ofFn xs) r) :
    NearU u (k + (N - 1)) (∑ i, ms i + (N - 1 : ℕ) * η) (∑ i, m₀s i) r (∑ i, ys i) := by
  have h1 := h.near hu
  rw [List.length_ofFn, List.map_ofFn, List.sum_ofFn, List.sum_ofFn] at h1
  have hN : (0 : ℝ) ≤ (N - 1 : ℕ) * η := by positivity
  have hle : ∑ i, m₀s i ≤ ∑ i, ms i := Finset.sum_le_sum fun i _ => (hxs i).le
  refine ⟨?_, (Finset.abs_sum_le_sum_abs _ _).trans (Finset.sum_le_sum fun i _ => (hxs i).bound), by linarith⟩
  have h2 : |∑ i, xs i - ∑ i, ys i| ≤ (1 + u) ^ k * ∑ i, ms i - ∑ i, m₀s i := by
    rw [← Finset.sum_sub_distrib, Finset.mul_sum, ← Finset.sum_sub_distrib]
    exact (Finset.abs_sum_le_sum_abs _ _).trans (Finset.sum_le_sum fun i _ => (hxs i).err)
  have h3 : ∑ i, |xs i| ≤ (1 + u) ^ k * ∑ i, ms i := by
    rw [Finset.mul_sum]
    exact Finset.sum_le_sum fun i _ => (hxs i).abs_le
  have e : r - ∑ i, ys i = (r - ∑ i, xs i) + (∑ i, xs i - ∑ i, ys i) := by ring
  have h5 := one_le_pow_u hu (N - 1)
  have h6 := one_le_pow_u hu k
  have h7 := h1.err
  have h8 := abs_add_le (r - ∑ i, xs i) (∑ i, xs i - ∑ i, ys i)
  have h9 : ((1 + u) ^ (N - 1) - 1) * ∑ i, |xs i| ≤ ((1 + u) ^ (N - 1) - 1) * ((1 + u) ^ k * ∑ i, ms i) :=
    mul_le_mul_of_nonneg_left h3 (by linarith)
  have h10 : (1 + u) ^ (N - 1) * ((N - 1 : ℕ) * η) ≤ (1 + u) ^ k * ((1 + u) ^ (N - 1) * ((N - 1 : ℕ) * η)) :=
    le_mul_of_one_le_left (by positivity) h6
  rw [e]
  have e2 : (1 + u) ^ (k + (N - 1)) * (∑ i, ms i + (N - 1 : ℕ) * η)
      = ((1 + u) ^ (N - 1) - 1) * ((1 + u) ^ k * ∑ i, ms i) + (1 + u) ^ k * ∑ i, ms i
        + (1 + u) ^ k * ((1 + u) ^ (N - 1) * ((N - 1 : ℕ) * η)) := by
    rw [pow_add]; ring
  simp only [Function.comp] at h7
  linarith

end

namespace ExprOf

/-- Expressions of the same form whose numbers differ by at most `τ`. -/
inductive CloseE (τ : ℝ) : Expr → Expr → Prop
  | val {j : ℕ} {x y : ℝ} (h : |x - y| ≤ τ) : CloseE τ (val j x) (val j y)
  | add {a b a' b' : Expr} (ha : CloseE τ a a') (hb : CloseE τ b b') : CloseE τ (add a b) (add a' b')
  | sub {a b a' b' : Expr} (ha : CloseE τ a a') (hb : CloseE τ b b') : CloseE τ (sub a b) (sub a' b')
  | mul {a b a' b' : Expr} (ha : CloseE τ a a') (hb : CloseE τ b b') : CloseE τ (mul a b) (mul a' b')
  | sq {a a' : Expr} (ha : CloseE τ a a') : CloseE τ (sq a) (sq a')
  | abs {a a' : Expr} (ha : CloseE τ a a') : CloseE τ (abs a) (abs a')
  | sum {n : ℕ} {f g : Fin n → Expr} (h : ∀ i, CloseE τ (f i) (g i)) : CloseE τ (sum n f) (sum n g)
  | mean {n : ℕ} {f g : Fin n → Expr} (h : ∀ i, CloseE τ (f i) (g i)) : CloseE τ (mean n f) (mean n g)

/-- The value with absolute values and sums, where every number is larger by `τ` and every operation adds `η`. -/
noncomputable def umag (η τ : ℝ) : Expr → ℝ
  | val j x => |x| + τ + j * η
  | add a b => a.umag η τ + b.umag η τ + η
  | sub a b => a.umag η τ + b.umag η τ + η
  | mul a b => a.umag η τ * b.umag η τ + η
  | sq a => a.umag η τ ^ 2 + η
  | abs a => a.umag η τ
  | sum n f => ∑ i, (f i).umag η τ + (n - 1 : ℕ) * η
  | mean n f => (∑ i, (f i).umag η τ + (n - 1 : ℕ) * η) / n + η

lemma umag_zero : ∀ e : Expr, e.umag 0 0 = e.mag
  | val j x => by simp [umag, mag]
  | add a b => by simp [umag, mag, umag_zero a, umag_zero b]
  | sub a b => by simp [umag, mag, umag_zero a, umag_zero b]
  | mul a b => by simp [umag, mag, umag_zero a, umag_zero b]
  | sq a => by simp [umag, mag, umag_zero a]
  | abs a => by simp [umag, mag, umag_zero a]
  | sum n f => by simp [umag, mag, fun i => umag_zero (f i)]
  | mean n f => by simp [umag, mag, fun i => umag_zero (f i)]

lemma umag_nonneg {η τ : ℝ} (hη : 0 ≤ η) (hτ : 0 ≤ τ) : ∀ e : Expr, 0 ≤ e.umag η τ
  | val j x => by simp only [umag]; positivity
  | add a b => by
    have := umag_nonneg hη hτ a; have := umag_nonneg hη hτ b; simp only [umag]; positivity
  | sub a b => by
    have := umag_nonneg hη hτ a; have := umag_nonneg hη hτ b; simp only [umag]; positivity
  | mul a b => by
    have := umag_nonneg hη hτ a; have := umag_nonneg hη hτ b; simp only [umag]; positivity
  | sq a => by simp only [umag]; positivity
  | abs a => umag_nonneg hη hτ a
  | sum n f => by
    have := Finset.sum_nonneg fun i (_ : i ∈ Finset.univ) => umag_nonneg hη hτ (f i)
    simp only [umag]; positivity
  | mean n f => by
    have := Finset.sum_nonneg fun i (_ : i ∈ Finset.univ) => umag_nonneg hη hτ (f i)
    simp only [umag]; positivity

lemma umag_mono {η τ t : ℝ} (hη : 0 ≤ η) (hτ : 0 ≤ τ) (h1 : η ≤ t) (h2 : τ ≤ t) :
    ∀ e : Expr, e.umag η τ ≤ e.umag t t
  | val j x => by simp only [umag]; gcongr
  | add a b => by
    have := umag_mono hη hτ h1 h2 a; have := umag_mono hη hτ h1 h2 b; simp only [umag]; gcongr
  | sub a b => by
    have := umag_mono hη hτ h1 h2 a; have := umag_mono hη hτ h1 h2 b; simp only [umag]; gcongr
  | mul a b => by
    have := umag_mono hη hτ h1 h2 a; have := umag_mono hη hτ h1 h2 b
    have := umag_nonneg hη hτ b; have := umag_nonneg (hη.trans h1) (hη.trans h1) a
    simp only [umag]; gcongr
  | sq a => by
    have := umag_mono hη hτ h1 h2 a
    have := umag_nonneg hη hτ a
    simp only [umag]; gcongr
  | abs a => umag_mono hη hτ h1 h2 a
  | sum n f => by
    have := Finset.sum_le_sum fun i (_ : i ∈ Finset.univ) => umag_mono hη hτ h1 h2 (f i)
    simp only [umag]; gcongr
  | mean n f => by
    have := Finset.sum_le_sum fun i (_ : i ∈ Finset.univ) => umag_mono hη hτ h1 h2 (f i)
    simp only [umag]; gcongr

lemma umag_continuous : ∀ e : Expr, Continuous fun t => e.umag t t
  | val j x => by simp only [umag]; fun_prop
  | add a b => by
    have := umag_continuous a; have := umag_continuous b; simp only [umag]; fun_prop
  | sub a b => by
    have := umag_continuous a; have := umag_continuous b; simp only [umag]; fun_prop
  | mul a b => by
    have := umag_continuous a; have := umag_continuous b; simp only [umag]; fun_prop
  | sq a => by
    have := umag_continuous a; simp only [umag]; fun_prop
  | abs a => umag_continuous a
  | sum n f => by
    have := continuous_finsetSum Finset.univ fun i _ => umag_continuous (f i)
    simp only [umag]; fun_prop
  | mean n f => by
    have := continuous_finsetSum Finset.univ fun i _ => umag_continuous (f i)
    simp only [umag]; fun_prop


/-- Every evaluation of an expression with nearby numbers is near the exact value. -/
theorem nearU {u η τ : ℝ} (hu : 0 ≤ u) (hη : 0 ≤ η) (hτ : 0 ≤ τ) {e' e : Expr} (he : CloseE τ e' e) :
    ∀ {r : ℝ}, e'.RunU u η r → NearU u e.depth (e.umag η τ) e.mag r e.eval := by
  induction he with
  | @val j y x h =>
    intro r hr
    have hj := one_le_pow_u hu j
    have h0 : (0 : ℝ) ≤ j * η := by positivity
    refine ⟨?_, le_rfl, ?_⟩
    · have h1 : |r - x| ≤ |r - y| + |y - x| := abs_sub_le r y x
      have h2 : |y| ≤ |x| + τ := by
        have := abs_sub_abs_le_abs_sub y x
        linarith
      have h3 : ((1 + u) ^ j - 1) * |y| ≤ ((1 + u) ^ j - 1) * (|x| + τ) :=
        mul_le_mul_of_nonneg_left h2 (by linarith)
      simp only [RunU, umag, mag, depth, eval] at hr ⊢
      nlinarith
    · simp only [umag, mag]
      linarith
  | add _ _ ha hb =>
    rintro r ⟨x, y, hx, hy, hr⟩
    exact (((ha hx).mono hu (le_max_left _ _) le_rfl).plus
      ((hb hy).mono hu (le_max_right _ _) le_rfl)).round hu hr
  | @sub a b a' b' _ _ ha hb =>
    rintro r ⟨x, y, hx, hy, hr⟩
    rw [sub_eq_add_neg] at hr
    have := (((ha hx).mono hu (le_max_left _ b'.depth) le_rfl).plus
      ((hb hy).mono hu (le_max_right _ _) le_rfl).neg).round hu hr
    rw [← sub_eq_add_neg] at this
    exact this
  | mul _ _ ha hb =>
    rintro r ⟨x, y, hx, hy, hr⟩
    exact ((ha hx).times (hb hy)).round hu hr
  | @sq a a' _ ha =>
    rintro r ⟨x, hx, hr⟩
    rw [pow_two] at hr
    have := ((ha hx).times (ha hx)).round hu hr
    rw [← two_mul, ← pow_two (a'.umag η τ), ← pow_two a'.mag, ← pow_two a'.eval] at this
    exact this
  | @abs a a' _ ha =>
    rintro r ⟨x, hx, rfl⟩
    have h := ha hx
    exact ⟨(abs_abs_sub_abs_le_abs_sub _ _).trans h.err, by rw [eval, abs_abs]; exact h.bound, h.le⟩
  | @sum n f g _ ih =>
    rintro r ⟨x, hx, hr⟩
    exact sumRunU_near hu hη (fun i => (ih i (hx i)).mono hu
      (Finset.le_sup (f := fun i => (g i).depth) (Finset.mem_univ i)) le_rfl) hr
  | @mean n f g _ ih =>
    rintro r ⟨x, s, δ, hx, hs, hδ, hr⟩
    have h := sumRunU_near hu hη (fun i => (ih i (hx i)).mono hu
      (Finset.le_sup (f := fun i => (g i).depth) (Finset.mem_univ i)) le_rfl) hs
    have hn : (0 : ℝ) ≤ n := by positivity
    have h1 : NearU u ((Finset.univ.sup fun i => (g i).depth) + (n - 1))
        ((∑ i, (g i).umag η τ + (n - 1 : ℕ) * η) / n) ((∑ i, (g i).mag) / n) (s / n) ((∑ i, (g i).eval) / n) := by
      refine ⟨?_, ?_, ?_⟩
      · rw [← sub_div, abs_div, abs_of_nonneg hn, ← mul_div_assoc, ← sub_div]
        gcongr
        exact h.err
      · rw [abs_div, abs_of_nonneg hn]
        gcongr
        exact h.bound
      · gcongr
        exact h.le
    have h2 : NearU u ((Finset.univ.sup fun i => (g i).depth) + (n - 1) + 1)
        ((∑ i, (g i).umag η τ + (n - 1 : ℕ) * η) / n) ((∑ i, (g i).mag) / n) (s / n * (1 + δ))
        ((∑ i, (g i).eval) / n) := by
      have := h1.round (η := 0) (s := s / n * (1 + δ)) hu ⟨δ, 0, hδ, by simp, by ring⟩
      rwa [add_zero] at this
    exact h2.round hu hr

/-- The evaluations converge to the exact value when the precision grows. -/
theorem converge (e : Expr) {κ : ℝ} (hκ : 0 < κ) : ∃ d > 0, ∀ u η τ : ℝ, 0 ≤ u → u ≤ d → 0 ≤ η → η ≤ d → 0 ≤ τ →
    τ ≤ d → ∀ e', CloseE τ e' e → ∀ r, e'.RunU u η r → |r - e.eval| ≤ κ := by
  have hc : Continuous fun t : ℝ => (1 + t) ^ e.depth * e.umag t t - e.mag := by
    have := umag_continuous e
    fun_prop
  obtain ⟨d, hd, h⟩ := Metric.continuous_iff.1 hc 0 κ hκ
  refine ⟨d / 2, by linarith, fun u η τ hu hud hη hηd hτ hτd e' he r hr => ?_⟩
  have h1 := (nearU hu hη hτ he hr).err
  have h2 := h (d / 2) (by rw [Real.dist_eq, sub_zero, abs_of_pos (by linarith)]; linarith)
  rw [Real.dist_eq, umag_zero] at h2
  have h3 := le_abs_self ((1 + d / 2) ^ e.depth * e.umag (d / 2) (d / 2) - e.mag - ((1 + 0) ^ e.depth * e.mag - e.mag))
  have h4 : (1 + u) ^ e.depth * e.umag η τ ≤ (1 + d / 2) ^ e.depth * e.umag (d / 2) (d / 2) :=
    mul_le_mul (pow_le_pow_left₀ (by linarith) (by linarith) _) (umag_mono hη hτ hηd hτd e)
      (umag_nonneg hη hτ e) (by positivity)
  simp only [add_zero, one_pow, one_mul, sub_self, sub_zero] at h2 h3
  linarith

lemma CloseE.refl {τ : ℝ} (hτ : 0 ≤ τ) : ∀ e : Expr, CloseE τ e e
  | .val j x => .val (by simpa using hτ)
  | .add a b => .add (refl hτ a) (refl hτ b)
  | .sub a b => .sub (refl hτ a) (refl hτ b)
  | .mul a b => .mul (refl hτ a) (refl hτ b)
  | .sq a => .sq (refl hτ a)
  | .abs a => .abs (refl hτ a)
  | .sum _ f => .sum fun i => refl hτ (f i)
  | .mean _ f => .mean fun i => refl hτ (f i)

end ExprOf

/-! ## The losses -/

section
open ExprOf Spec
variable {nc nt nq : ℕ} {V GX GY V' GX' GY' : Fin nc → Fin nt → Fin nq → ℝ}
  {v ux uy v' ux' uy' : Fin nc → Fin nq → ℝ} {F F' : Fin nt → Fin nc → ℝ} {τ : ℝ}

/-- Close numbers give close expressions. -/
lemma lossE_close (j : ℕ) (hτ : 0 ≤ τ) (hV : ∀ c t q, |V' c t q - V c t q| ≤ τ)
    (hGX : ∀ c t q, |GX' c t q - GX c t q| ≤ τ) (hGY : ∀ c t q, |GY' c t q - GY c t q| ≤ τ)
    (hF : ∀ t c, |F' t c - F t c| ≤ τ) (hv : ∀ c q, |v' c q - v c q| ≤ τ) (hux : ∀ c q, |ux' c q - ux c q| ≤ τ)
    (huy : ∀ c q, |uy' c q - uy c q| ≤ τ) {ks' ks : List (Fin nc → Fin nq → ℝ)}
    (hks : List.Forall₂ (fun k' k => ∀ c q, |k' c q - k c q| ≤ τ) ks' ks) {kind : LossKind} {p ip : ParamDict}
    {es' es : Fin nc → Expr} (h' : lossE j V' GX' GY' v' ux' uy' F' kind p ip ks' = .ok es')
    (h : lossE j V GX GY v ux uy F kind p ip ks = .ok es) (c : Fin nc) : CloseE τ (es' c) (es c) := by
  have h0 : ∀ x : ℝ, |x - x| ≤ τ := fun x => by simpa using hτ
  cases kind <;> simp only [lossE, pdeLossPoissonE, pdeLossCd2dE, pdeLossCd2dRestE, pdeLossHelmholtzE,
    pdeLossCd2dInverseDomainE, paramGetE, pyIndex_head] at h h'
  case poisson =>
    cases h1 : paramGet p "eps" <;> simp only [h1] at h h' <;> cases h
    all_goals cases h'
    exact .mean fun t => .sq (.sub (.mul (.val (h0 _)) (.add (.sum fun q => .mul (.val (hGX _ _ _)) (.val (hux _ _)))
      (.sum fun q => .mul (.val (hGY _ _ _)) (.val (huy _ _))))) (.val (hF _ _)))
  case poissonInverse =>
    cases h1 : paramGet ip "eps" <;> simp only [h1] at h h' <;> cases h
    all_goals cases h'
    exact .mean fun t => .sq (.sub (.mul (.val (h0 _)) (.add (.sum fun q => .mul (.val (hGX _ _ _)) (.val (hux _ _)))
      (.sum fun q => .mul (.val (hGY _ _ _)) (.val (huy _ _))))) (.val (hF _ _)))
  case helmholtz =>
    cases h1 : paramGet p "eps" <;> cases h2 : paramGet p "k" <;> simp only [h1, h2] at h h' <;> cases h
    all_goals cases h'
    exact .mean fun t => .sq (.sub (.add (.mul (.val (h0 _)) (.mul (.val (h0 _))
      (.add (.sum fun q => .mul (.val (hGX _ _ _)) (.val (hux _ _)))
      (.sum fun q => .mul (.val (hGY _ _ _)) (.val (huy _ _))))))
      (.mul (.mul (.val (h0 _)) (.val (h0 _))) (.sum fun q => .mul (.val (hV _ _ _)) (.val (hv _ _))))) (.val (hF _ _)))
  case cd2d =>
    cases h1 : paramGet p "eps" <;> cases h2 : paramGet p "b_x" <;> cases h3 : paramGet p "b_y" <;>
      cases h4 : paramGet p "c" <;> simp only [h1, h2, h3, h4] at h h' <;> cases h
    all_goals cases h'
    exact .mean fun t => .sq (.sub (.add (.add (.mul (.val (h0 _))
      (.add (.sum fun q => .mul (.val (hGX _ _ _)) (.val (hux _ _)))
      (.sum fun q => .mul (.val (hGY _ _ _)) (.val (huy _ _)))))
      (.add (.mul (.val (h0 _)) (.sum fun q => .mul (.val (hV _ _ _)) (.val (hux _ _))))
        (.mul (.val (h0 _)) (.sum fun q => .mul (.val (hV _ _ _)) (.val (huy _ _))))))
      (.mul (.val (h0 _)) (.sum fun q => .mul (.val (hV _ _ _)) (.val (hv _ _))))) (.val (hF _ _)))
  case cd2dInverse =>
    cases h1 : paramGet ip "eps" <;> cases h2 : paramGet p "b_x" <;> cases h3 : paramGet p "b_y" <;>
      cases h4 : paramGet p "c" <;> simp only [h1, h2, h3, h4] at h h' <;> cases h
    all_goals cases h'
    exact .mean fun t => .sq (.sub (.add (.add (.mul (.val (h0 _))
      (.add (.sum fun q => .mul (.val (hGX _ _ _)) (.val (hux _ _)))
      (.sum fun q => .mul (.val (hGY _ _ _)) (.val (huy _ _)))))
      (.add (.mul (.val (h0 _)) (.sum fun q => .mul (.val (hV _ _ _)) (.val (hux _ _))))
        (.mul (.val (h0 _)) (.sum fun q => .mul (.val (hV _ _ _)) (.val (huy _ _))))))
      (.mul (.val (h0 _)) (.sum fun q => .mul (.val (hV _ _ _)) (.val (hv _ _))))) (.val (hF _ _)))
  case cd2dInverseDomain =>
    cases hks with
    | nil => cases h
    | cons hk _ =>
      cases h2 : paramGet p "b_x" <;> cases h3 : paramGet p "b_y" <;>
        cases h4 : paramGet p "c" <;> simp only [h2, h3, h4] at h h' <;> cases h
      all_goals cases h'
      exact .mean fun t => .sq (.sub (.add (.add
        (.add (.sum fun q => .mul (.val (hGX _ _ _)) (.mul (.val (hux _ _)) (.val (hk _ _))))
        (.sum fun q => .mul (.val (hGY _ _ _)) (.mul (.val (huy _ _)) (.val (hk _ _)))))
        (.add (.mul (.val (h0 _)) (.sum fun q => .mul (.val (hV _ _ _)) (.val (hux _ _))))
          (.mul (.val (h0 _)) (.sum fun q => .mul (.val (hV _ _ _)) (.val (huy _ _))))))
        (.mul (.val (h0 _)) (.sum fun q => .mul (.val (hV _ _ _)) (.val (hv _ _))))) (.val (hF _ _)))

/-- The exact value of the expression of the PDE loss. -/
lemma totalPdeE_eval {j : ℕ} {a : Fin nc → Fin nq → ℝ} {b : ℝ × ℝ} {r : ℝ} {es : Fin nt → Fin nc → Expr}
    (h : ∀ t c, ResidualExpr V GX GY v ux uy F j a b r (es t c) c t) :
    (totalPdeE (meanSquare0E es)).eval = ∑ c, meanSq (testedResidual V GX GY v ux uy F a b r c) := by
  simp only [totalPdeE, meanSquare0E, ExprOf.eval, (h _ _).eval, meanSq, pow_two, leaf_real]
  norm_num

lemma meanSquareErrorE_eval {n dout : ℕ} (j : ℕ) (x : Fin n → Fin dout → ℝ) (y : Fin n → ℝ) (i : Fin dout) :
    (meanSquareErrorE j x y i).eval = meanSq fun k => x k i - y k := by
  simp only [meanSquareErrorE, meanSquare0E, ExprOf.eval, meanSq, pow_two]

lemma meanSquareErrorE_close {n dout : ℕ} (j : ℕ) {x' x : Fin n → Fin dout → ℝ} {y' y : Fin n → ℝ} {i : Fin dout}
    (hx : ∀ k, |x' k i - x k i| ≤ τ) (hy : ∀ k, |y' k - y k| ≤ τ) :
    CloseE τ (meanSquareErrorE j x' y' i) (meanSquareErrorE j x y i) :=
  .mean fun k => .sq (.sub (.val (hx k)) (.val (hy k)))

end

/-! ## Evaluation with a rounding function -/

section
variable {u η : ℝ} {fl : ℝ → ℝ}

lemma sumRunU_foldl (hfl : ∀ x, FlU u η x (fl x)) : ∀ (l m : List ℝ) (s : ℝ), m ≠ [] → SumRunU u η m s →
    SumRunU u η (m ++ l) (l.foldl (fun s y => fl (s + y)) s)
  | [], m, s, _, h => by simpa using h
  | y :: l, m, s, hm, h => by
    have := sumRunU_foldl hfl l (m ++ [y]) (fl (s + y)) (by simp)
      (.add hm (List.cons_ne_nil y []) h (.one y) (hfl _))
    simpa using this

lemma sumRunU_inOrder (hfl : ∀ x, FlU u η x (fl x)) (l : List ℝ) : SumRunU u η l (ExprOf.inOrder.sumInOrder fl l) := by
  cases l with
  | nil => exact .nil
  | cons x l => exact sumRunU_foldl hfl l [x] x (List.cons_ne_nil x []) (.one x)

/-- Evaluating with a rounding function and sums from left to right is one of the possible evaluations. -/
lemma ExprOf.runU_inOrder (hu : 0 ≤ u) (hη : 0 ≤ η) (hfl : ∀ x, FlU u η x (fl x)) :
    ∀ e : Expr, e.RunU u η (e.inOrder fl)
  | val j x => by
    simp only [RunU, inOrder]
    have h1 := one_le_pow_u hu j
    have h2 : (0 : ℝ) ≤ ((1 + u) ^ j - 1) * |x| := mul_nonneg (by linarith) (abs_nonneg x)
    split_ifs with hj
    · rw [sub_self, abs_zero]
      positivity
    · obtain ⟨δ, θ, hδ, hθ, e⟩ := hfl x
      have e' : fl x - x = x * δ + θ := by rw [e]; ring
      have hj1 : (1 : ℝ) ≤ j := by exact_mod_cast Nat.one_le_iff_ne_zero.2 hj
      have h3 : 1 + u ≤ (1 + u) ^ j := le_self_pow₀ (by linarith) hj
      have h4 : |x * δ| ≤ |x| * u := by
        rw [abs_mul]
        gcongr
      have h5 : |x| * u ≤ ((1 + u) ^ j - 1) * |x| := by nlinarith [abs_nonneg x]
      have h6 : η ≤ (1 + u) ^ j * (j * η) := by
        calc η ≤ j * η := le_mul_of_one_le_left hη hj1
          _ ≤ (1 + u) ^ j * (j * η) := le_mul_of_one_le_left (by positivity) h1
      rw [e']
      linarith [abs_add_le (x * δ) θ]
  | add a b => ⟨_, _, runU_inOrder hu hη hfl a, runU_inOrder hu hη hfl b, hfl _⟩
  | sub a b => ⟨_, _, runU_inOrder hu hη hfl a, runU_inOrder hu hη hfl b, hfl _⟩
  | mul a b => ⟨_, _, runU_inOrder hu hη hfl a, runU_inOrder hu hη hfl b, hfl _⟩
  | sq a => ⟨_, runU_inOrder hu hη hfl a, hfl _⟩
  | abs a => ⟨_, runU_inOrder hu hη hfl a, rfl⟩
  | sum n f => ⟨_, fun i => runU_inOrder hu hη hfl (f i), sumRunU_inOrder hfl _⟩
  | mean n f => ⟨_, _, 0, fun i => runU_inOrder hu hη hfl (f i), sumRunU_inOrder hfl _, by simpa using hu, by
      rw [add_zero, mul_one]
      exact hfl _⟩

end

end FastVPINNs
