import Verif.Model.Rounded
import Mathlib.Tactic.Positivity
import Mathlib.Tactic.GCongr
import Mathlib.Tactic.Linarith
import Mathlib.Tactic.Ring
import Mathlib.Algebra.Order.BigOperators.Group.Finset
import Mathlib.Algebra.Order.BigOperators.Group.List

/-! # Error propagation in arithmetic expressions -/

namespace FastVPINNs

/-- `r` is near `x`: the error is at most `(1 + u) ^ k - 1` times a bound `m` of `|x|`. -/
structure Near (u : ℝ) (k : ℕ) (m r x : ℝ) : Prop where
  err : |r - x| ≤ ((1 + u) ^ k - 1) * m
  bound : |x| ≤ m

section
variable {u : ℝ} {k l : ℕ} {m n r s x y : ℝ}

lemma one_le_pow_u (hu : 0 ≤ u) (k : ℕ) : 1 ≤ (1 + u) ^ k := one_le_pow₀ (by linarith)

lemma Near.nonneg (h : Near u k m r x) : 0 ≤ m := (abs_nonneg x).trans h.bound

lemma Near.mono (hu : 0 ≤ u) (h : Near u k m r x) (hkl : k ≤ l) (hmn : m ≤ n) : Near u l n r x := by
  refine ⟨h.err.trans ?_, h.bound.trans hmn⟩
  have h0 := h.nonneg
  have h1 : (1 + u) ^ k ≤ (1 + u) ^ l := pow_le_pow_right₀ (by linarith) hkl
  have h2 := one_le_pow_u hu k
  calc ((1 + u) ^ k - 1) * m ≤ ((1 + u) ^ l - 1) * m := by gcongr
    _ ≤ ((1 + u) ^ l - 1) * n := mul_le_mul_of_nonneg_left hmn (by linarith)

lemma Near.abs_le (h : Near u k m r x) : |r| ≤ (1 + u) ^ k * m := by
  have := abs_sub_abs_le_abs_sub r x
  linarith [h.err, h.bound]

/-- One rounding. -/
lemma Near.round (h : Near u k m r x) {δ : ℝ} (hδ : |δ| ≤ u) :
    Near u (k + 1) m (r * (1 + δ)) x := by
  refine ⟨?_, h.bound⟩
  have e : r * (1 + δ) - x = (r - x) + r * δ := by ring
  calc |r * (1 + δ) - x| ≤ |r - x| + |r| * |δ| := by rw [e, ← abs_mul]; exact abs_add_le _ _
    _ ≤ ((1 + u) ^ k - 1) * m + (1 + u) ^ k * m * u :=
      add_le_add h.err (mul_le_mul h.abs_le hδ (abs_nonneg _) ((abs_nonneg _).trans h.abs_le))
    _ = ((1 + u) ^ (k + 1) - 1) * m := by ring

lemma Near.plus (hx : Near u k m r x) (hy : Near u k n s y) : Near u k (m + n) (r + s) (x + y) := by
  refine ⟨?_, (abs_add_le _ _).trans (add_le_add hx.bound hy.bound)⟩
  have e : r + s - (x + y) = (r - x) + (s - y) := by ring
  rw [e]
  calc _ ≤ |r - x| + |s - y| := abs_add_le _ _
    _ ≤ _ := by linarith [hx.err, hy.err]

lemma Near.neg (hx : Near u k m r x) : Near u k m (-r) (-x) := by
  refine ⟨?_, by rw [abs_neg]; exact hx.bound⟩
  have e : -r - -x = -(r - x) := by ring
  rw [e, abs_neg]
  exact hx.err

lemma Near.times (hx : Near u k m r x) (hy : Near u l n s y) :
    Near u (k + l) (m * n) (r * s) (x * y) := by
  refine ⟨?_, by rw [abs_mul]; exact mul_le_mul hx.bound hy.bound (abs_nonneg _) hx.nonneg⟩
  have e : r * s - x * y = (r - x) * s + x * (s - y) := by ring
  calc |r * s - x * y| ≤ |r - x| * |s| + |x| * |s - y| := by
        rw [e, ← abs_mul, ← abs_mul]; exact abs_add_le _ _
    _ ≤ (((1 + u) ^ k - 1) * m) * ((1 + u) ^ l * n) + m * (((1 + u) ^ l - 1) * n) :=
      add_le_add (mul_le_mul hx.err hy.abs_le (abs_nonneg _) ((abs_nonneg _).trans hx.err))
        (mul_le_mul hx.bound hy.err (abs_nonneg _) hx.nonneg)
    _ = ((1 + u) ^ (k + l) - 1) * (m * n) := by rw [pow_add]; ring

/-- Every way of adding up a list. -/
lemma SumRun.near (hu : 0 ≤ u) {l : List ℝ} (h : SumRun u l r) :
    Near u (l.length - 1) (l.map (|·|)).sum r l.sum := by
  induction h with
  | nil => exact ⟨by simp, by simp⟩
  | one x => exact ⟨by simp, by simp⟩
  | @add l m x y δ hl hm _ _ hδ hx hy =>
    have h1 : 1 ≤ l.length := List.length_pos_iff.2 hl
    have h2 : 1 ≤ m.length := List.length_pos_iff.2 hm
    have := ((hx.mono hu (l := l.length + m.length - 2) (by omega) le_rfl).plus
      (hy.mono hu (l := l.length + m.length - 2) (by omega) le_rfl)).round hδ
    rw [List.map_append, List.sum_append, List.sum_append, List.length_append]
    exact this.mono hu (by omega) le_rfl
  | perm h _ hx =>
    rw [← (h.map _).sum_eq, ← h.sum_eq, ← h.length_eq]
    exact hx

lemma sumRun_near (hu : 0 ≤ u) {N : ℕ} {xs ys ms : Fin N → ℝ} (hxs : ∀ i, Near u k (ms i) (xs i) (ys i))
    (h : SumRun u (List.ofFn xs) r) : Near u (k + (N - 1)) (∑ i, ms i) r (∑ i, ys i) := by
  have h1 := h.near hu
  rw [List.length_ofFn, List.map_ofFn, List.sum_ofFn, List.sum_ofFn] at h1
  have h0 : ∀ i ∈ Finset.univ, 0 ≤ ms i := fun i _ => (hxs i).nonneg
  refine ⟨?_, (Finset.abs_sum_le_sum_abs _ _).trans (Finset.sum_le_sum fun i _ => (hxs i).bound)⟩
  have h2 : |∑ i, xs i - ∑ i, ys i| ≤ ((1 + u) ^ k - 1) * ∑ i, ms i := by
    rw [← Finset.sum_sub_distrib, Finset.mul_sum]
    exact (Finset.abs_sum_le_sum_abs _ _).trans (Finset.sum_le_sum fun i _ => (hxs i).err)
  have h3 : ∑ i, |xs i| ≤ (1 + u) ^ k * ∑ i, ms i := by
    rw [Finset.mul_sum]
    exact Finset.sum_le_sum fun i _ => (hxs i).abs_le
  have e : r - ∑ i, ys i = (r - ∑ i, xs i) + (∑ i, xs i - ∑ i, ys i) := by ring
  have h5 := one_le_pow_u hu (N - 1)
  calc |r - ∑ i, ys i| ≤ |r - ∑ i, xs i| + |∑ i, xs i - ∑ i, ys i| := by rw [e]; exact abs_add_le _ _
    _ ≤ ((1 + u) ^ (N - 1) - 1) * ((1 + u) ^ k * ∑ i, ms i) + ((1 + u) ^ k - 1) * ∑ i, ms i :=
      add_le_add (h1.err.trans (mul_le_mul_of_nonneg_left h3 (by linarith))) h2
    _ = ((1 + u) ^ (k + (N - 1)) - 1) * ∑ i, ms i := by rw [pow_add]; ring

end

namespace ExprOf

/-- A bound on the number of roundings on the way from a number read to the result. -/
def depth : Expr → ℕ
  | val j _ => j
  | add a b => max a.depth b.depth + 1
  | sub a b => max a.depth b.depth + 1
  | mul a b => a.depth + b.depth + 1
  | sq a => 2 * a.depth + 1
  | abs a => a.depth
  | sum n f => (Finset.univ.sup fun i => (f i).depth) + (n - 1)
  | mean n f => (Finset.univ.sup fun i => (f i).depth) + (n - 1) + 2

/-- The value with all numbers read replaced by their absolute values and all differences by sums. -/
noncomputable def mag : Expr → ℝ
  | val _ x => |x|
  | add a b => a.mag + b.mag
  | sub a b => a.mag + b.mag
  | mul a b => a.mag * b.mag
  | sq a => a.mag ^ 2
  | abs a => a.mag
  | sum _ f => ∑ i, (f i).mag
  | mean n f => (∑ i, (f i).mag) / n

lemma mean_near {u : ℝ} {k : ℕ} {m r x : ℝ} (h : Near u k m r x) (n : ℕ) {δ ε : ℝ}
    (hδ : |δ| ≤ u) (hε : |ε| ≤ u) : Near u (k + 2) (m / n) (r / n * (1 + δ) * (1 + ε)) (x / n) := by
  have h1 : Near u k (m / n) (r / n) (x / n) := by
    have hn : (0 : ℝ) ≤ n := by positivity
    constructor
    · rw [← sub_div, abs_div, abs_of_nonneg hn, ← mul_div_assoc]
      gcongr
      exact h.err
    · rw [abs_div, abs_of_nonneg hn]
      gcongr
      exact h.bound
  exact (h1.round hδ).round hε

/-- Every floating-point evaluation of an expression is near its exact value. -/
theorem near {u : ℝ} (hu : 0 ≤ u) : ∀ (e : Expr) {r : ℝ}, e.Run u r → Near u e.depth e.mag r e.eval
  | val j x, r, h => ⟨h, le_rfl⟩
  | add a b, r, ⟨x, y, δ, hx, hy, hδ, hr⟩ => by
    rw [hr]
    exact ((near hu a hx).mono hu (le_max_left _ _) le_rfl).plus
      ((near hu b hy).mono hu (le_max_right _ _) le_rfl) |>.round hδ
  | sub a b, r, ⟨x, y, δ, hx, hy, hδ, hr⟩ => by
    rw [hr, sub_eq_add_neg]
    have := ((near hu a hx).mono hu (le_max_left _ b.depth) le_rfl).plus
      ((near hu b hy).mono hu (le_max_right _ _) le_rfl).neg |>.round hδ
    rw [← sub_eq_add_neg a.eval] at this
    exact this
  | mul a b, r, ⟨x, y, δ, hx, hy, hδ, hr⟩ => by
    rw [hr]
    exact ((near hu a hx).times (near hu b hy)).round hδ
  | sq a, r, ⟨x, δ, hx, hδ, hr⟩ => by
    rw [hr, pow_two]
    have := ((near hu a hx).times (near hu a hx)).round hδ
    rw [← two_mul, ← pow_two a.mag, ← pow_two a.eval] at this
    exact this
  | abs a, r, ⟨x, hx, hr⟩ => by
    have h := near hu a hx
    rw [hr]
    exact ⟨(abs_abs_sub_abs_le_abs_sub _ _).trans h.err, by rw [eval, abs_abs]; exact h.bound⟩
  | sum n f, r, ⟨x, hx, hr⟩ =>
    sumRun_near hu (fun i => (near hu (f i) (hx i)).mono hu
      (Finset.le_sup (f := fun i => (f i).depth) (Finset.mem_univ i)) le_rfl) hr
  | mean n f, r, ⟨x, s, δ, ε, hx, hs, hδ, hε, hr⟩ => by
    rw [hr]
    exact mean_near (sumRun_near hu (fun i => (near hu (f i) (hx i)).mono hu
      (Finset.le_sup (f := fun i => (f i).depth) (Finset.mem_univ i)) le_rfl) hs) n hδ hε

end ExprOf

end FastVPINNs
