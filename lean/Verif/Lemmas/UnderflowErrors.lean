import Verif.Model.UnderflowErrors
import Verif.Spec.UnderflowErrors
import Verif.Lemmas.RoundedErrors
import Mathlib.Algebra.Order.Chebyshev
import Mathlib.Algebra.BigOperators.Fin

/-! # Accuracy up to an absolute amount -/

namespace FastVPINNs

open Spec

section
variable {ε η t s : ℝ} {k l : ℕ} {r x y r' : ℝ}

lemma FlS.refl (h0 : 0 ≤ ε) (hη : 0 ≤ η) (x : ℝ) : FlS ε η x x :=
  ⟨⟨0, 0, by simpa using h0, by simpa using hη, by ring⟩, id, id⟩

lemma FlS.zero (h : FlS ε η 0 r) : r = 0 := le_antisymm (h.2.2 le_rfl) (h.2.1 le_rfl)

lemma FlS.eta (h : FlS ε η x r) : 0 ≤ η := by
  obtain ⟨⟨δ, θ, hδ, hθ, -⟩, -⟩ := h
  exact (abs_nonneg θ).trans hθ

lemma FlS.eps (h : FlS ε η x r) : 0 ≤ ε := by
  obtain ⟨⟨δ, θ, hδ, hθ, -⟩, -⟩ := h
  exact (abs_nonneg δ).trans hδ

lemma Spec.AccurateUpTo.refl (h0 : 0 ≤ ε) (h1 : ε < 1) (hx : 0 ≤ x) (ht : 0 ≤ t) (k : ℕ) : AccurateUpTo ε k t x x := by
  have := mul_le_of_le_one_right hx (pow_le_one' h0 h1 k)
  exact ⟨by linarith, by linarith⟩

lemma Spec.AccurateUpTo.mono (h0 : 0 ≤ ε) (h1 : ε < 1) (h : AccurateUpTo ε k t r x) (hx : 0 ≤ x) (hr : 0 ≤ r)
    (hkl : k ≤ l) (hts : t ≤ s) : AccurateUpTo ε l s r x := by
  have hp : (1 - ε) ^ l ≤ (1 - ε) ^ k := pow_le_pow_of_le_one (by linarith) (by linarith) hkl
  have h2 := mul_le_mul_of_nonneg_left hp hx
  have h3 := mul_le_mul_of_nonneg_left hp hr
  exact ⟨by linarith [h.1], by linarith [h.2]⟩

lemma Spec.AccurateUpTo.trans (h0 : 0 ≤ ε) (h1 : ε < 1) (ht : 0 ≤ t) (hs : 0 ≤ s) (h : AccurateUpTo ε k t r y)
    (h' : AccurateUpTo ε l s y x) : AccurateUpTo ε (k + l) (t + s) r x := by
  have hk := pow_nonneg' h1 k
  have hl := pow_nonneg' h1 l
  have k1 := pow_le_one' h0 h1 k
  have l1 := pow_le_one' h0 h1 l
  constructor
  · calc x * (1 - ε) ^ (k + l) = x * (1 - ε) ^ l * (1 - ε) ^ k := by ring
      _ ≤ (y + s) * (1 - ε) ^ k := mul_le_mul_of_nonneg_right h'.1 hk.le
      _ ≤ r + (t + s) := by nlinarith [h.1]
  · calc r * (1 - ε) ^ (k + l) = r * (1 - ε) ^ k * (1 - ε) ^ l := by ring
      _ ≤ (y + t) * (1 - ε) ^ l := mul_le_mul_of_nonneg_right h.2 hl.le
      _ ≤ x + (t + s) := by nlinarith [h'.2]

/-- One more operation on a number that is not negative. -/
lemma Spec.AccurateUpTo.round (h1 : ε < 1) (ht : 0 ≤ t) (h : AccurateUpTo ε k t r x) (hr : 0 ≤ r)
    (hs : FlS ε η r r') : AccurateUpTo ε (k + 1) (t + η) r' x := by
  have h0 := hs.eps
  have hη := hs.eta
  obtain ⟨⟨δ, θ, hδ, hθ, rfl⟩, -, -⟩ := hs
  obtain ⟨d1, d2⟩ := abs_le.1 hδ
  obtain ⟨e1, e2⟩ := abs_le.1 hθ
  have hp := pow_nonneg' h1 k
  have p1 := pow_le_one' h0 h1 (k + 1)
  have p2 := pow_nonneg' h1 (k + 1)
  constructor
  · have a1 : x * (1 - ε) ^ (k + 1) ≤ (r + t) * (1 - ε) := by
      rw [pow_succ, ← mul_assoc]
      exact mul_le_mul_of_nonneg_right h.1 (by linarith)
    have a2 : r * (1 - ε) ≤ r * (1 + δ) := mul_le_mul_of_nonneg_left (by linarith) hr
    have a3 : t * (1 - ε) ≤ t := mul_le_of_le_one_right ht (by linarith)
    nlinarith
  · have e : (r * (1 + δ) + θ) * (1 - ε) ^ (k + 1) = r * (1 - ε) ^ k * ((1 + δ) * (1 - ε)) + θ * (1 - ε) ^ (k + 1) := by
      ring
    have a1 : r * (1 - ε) ^ k * ((1 + δ) * (1 - ε)) ≤ r * (1 - ε) ^ k :=
      mul_le_of_le_one_right (mul_nonneg hr hp.le) (by nlinarith [sq_nonneg ε])
    have a2 : θ * (1 - ε) ^ (k + 1) ≤ η := by
      calc θ * (1 - ε) ^ (k + 1) ≤ η * (1 - ε) ^ (k + 1) := mul_le_mul_of_nonneg_right e2 p2.le
        _ ≤ η := mul_le_of_le_one_right hη p1
    rw [e]
    linarith [h.2]

lemma Spec.AccurateUpTo.plus (hx : AccurateUpTo ε k t r x) (hy : AccurateUpTo ε k s r' y) :
    AccurateUpTo ε k (t + s) (r + r') (x + y) := by
  constructor
  · rw [add_mul]
    linarith [hx.1, hy.1]
  · rw [add_mul]
    linarith [hx.2, hy.2]

lemma Spec.AccurateUpTo.divBy (h : AccurateUpTo ε k t r x) (hy : 0 ≤ y) : AccurateUpTo ε k (t / y) (r / y) (x / y) := by
  constructor
  · rw [div_mul_eq_mul_div, ← add_div]
    exact div_le_div_of_nonneg_right h.1 hy
  · rw [div_mul_eq_mul_div, ← add_div]
    exact div_le_div_of_nonneg_right h.2 hy

lemma sqrt_add_le_add_sqrt (hx : 0 ≤ x) (hy : 0 ≤ y) : Real.sqrt (x + y) ≤ Real.sqrt x + Real.sqrt y := by
  refine Real.sqrt_le_iff.2 ⟨by positivity, ?_⟩
  nlinarith [Real.sq_sqrt hx, Real.sq_sqrt hy, mul_nonneg (Real.sqrt_nonneg x) (Real.sqrt_nonneg y)]

lemma Spec.AccurateUpTo.sqrt (h0 : 0 ≤ ε) (h1 : ε < 1) (ht : 0 ≤ t) (h : AccurateUpTo ε k t r x) (hx : 0 ≤ x)
    (hr : 0 ≤ r) : AccurateUpTo ε k (Real.sqrt t) (Real.sqrt r) (Real.sqrt x) := by
  have hp := (pow_nonneg' h1 k).le
  have hc : (1 - ε) ^ k ≤ Real.sqrt ((1 - ε) ^ k) := by
    refine Real.le_sqrt_of_sq_le ?_
    rw [pow_two]
    exact mul_le_of_le_one_right hp (pow_le_one' h0 h1 k)
  have key : ∀ {a b : ℝ}, 0 ≤ a → 0 ≤ b → a * (1 - ε) ^ k ≤ b + t →
      Real.sqrt a * (1 - ε) ^ k ≤ Real.sqrt b + Real.sqrt t := fun {a b} ha hb hab =>
    calc Real.sqrt a * (1 - ε) ^ k ≤ Real.sqrt a * Real.sqrt ((1 - ε) ^ k) :=
          mul_le_mul_of_nonneg_left hc (Real.sqrt_nonneg _)
      _ = Real.sqrt (a * (1 - ε) ^ k) := (Real.sqrt_mul ha _).symm
      _ ≤ Real.sqrt (b + t) := Real.sqrt_le_sqrt hab
      _ ≤ _ := sqrt_add_le_add_sqrt hb ht
  exact ⟨key hx hr h.1, key hr hx h.2⟩

/-- A quotient, where the denominator loses little compared with its size. -/
lemma Spec.AccurateUpTo.over (h0 : 0 ≤ ε) (h1 : ε < 1) (ht : 0 ≤ t) (hx : AccurateUpTo ε k t r x) (hr : 0 ≤ r)
    (hx0 : 0 ≤ x) (hy : AccurateUpTo ε l s r' y) (hy0 : 0 < y) (hs : s ≤ ε * (y * (1 - ε) ^ l)) :
    0 < r' ∧ AccurateUpTo ε (k + l + 1) (t / y) (r / r') (x / y) := by
  have hk := pow_nonneg' h1 k
  have hl := pow_nonneg' h1 l
  have l1 := pow_le_one' h0 h1 l
  have k1 := pow_le_one' h0 h1 k
  have he : 0 < 1 - ε := by linarith
  have a1 : y * (1 - ε) ^ l * (1 - ε) ≤ r' := by linarith [hy.1]
  have hr' : 0 < r' := lt_of_lt_of_le (by positivity) a1
  refine ⟨hr', ?_⟩
  have a2 : r' * ((1 - ε) ^ l * (1 - ε)) ≤ y := by
    have b1 : r' * (1 - ε) ^ l ≤ y * (1 + ε) := by
      have : ε * (y * (1 - ε) ^ l) ≤ ε * y := by
        have := mul_le_of_le_one_right hy0.le l1
        gcongr
      linarith [hy.2]
    calc r' * ((1 - ε) ^ l * (1 - ε)) = r' * (1 - ε) ^ l * (1 - ε) := by ring
      _ ≤ y * (1 + ε) * (1 - ε) := mul_le_mul_of_nonneg_right b1 he.le
      _ ≤ y := by nlinarith [mul_nonneg hy0.le (sq_nonneg ε)]
  have e : ∀ z : ℝ, z * (1 - ε) ^ (k + l + 1) = z * (1 - ε) ^ k * ((1 - ε) ^ l * (1 - ε)) := fun z => by ring
  constructor
  · have : x / y * (1 - ε) ^ (k + l + 1) ≤ (r * y + t * r') / (r' * y) := by
      rw [div_mul_eq_mul_div, div_le_div_iff₀ hy0 (by positivity), e]
      have c1 : x * (1 - ε) ^ k * ((1 - ε) ^ l * (1 - ε)) * r' ≤ (r + t) * (r' * ((1 - ε) ^ l * (1 - ε))) := by
        calc _ = x * (1 - ε) ^ k * (r' * ((1 - ε) ^ l * (1 - ε))) := by ring
          _ ≤ _ := mul_le_mul_of_nonneg_right hx.1 (by positivity)
      have c2 : r * (r' * ((1 - ε) ^ l * (1 - ε))) ≤ r * y := mul_le_mul_of_nonneg_left a2 hr
      have c4 : (1 - ε) ^ l * (1 - ε) ≤ 1 := mul_le_one₀ l1 he.le (by linarith)
      have c3 : t * (r' * ((1 - ε) ^ l * (1 - ε))) ≤ t * r' :=
        mul_le_mul_of_nonneg_left (mul_le_of_le_one_right hr'.le c4) ht
      calc _ = (x * (1 - ε) ^ k * ((1 - ε) ^ l * (1 - ε)) * r') * y := by ring
        _ ≤ (r * y + t * r') * y := mul_le_mul_of_nonneg_right (by linarith) hy0.le
    refine this.trans (le_of_eq ?_)
    field_simp
  · rw [← add_div, div_mul_eq_mul_div, div_le_div_iff₀ hr' hy0, e]
    calc r * (1 - ε) ^ k * ((1 - ε) ^ l * (1 - ε)) * y = r * (1 - ε) ^ k * (y * (1 - ε) ^ l * (1 - ε)) := by ring
      _ ≤ (x + t) * r' := mul_le_mul hx.2 a1 (by positivity) (by linarith)

lemma Spec.AccurateUpTo.maximum (h1 : ε < 1) (hx : AccurateUpTo ε k t r x) (hy : AccurateUpTo ε k t r' y) :
    AccurateUpTo ε k t (max r r') (max x y) := by
  have hp := (pow_nonneg' h1 k).le
  rw [AccurateUpTo, max_mul_of_nonneg _ _ hp, max_mul_of_nonneg _ _ hp, ← max_add_add_right, ← max_add_add_right]
  exact ⟨max_le_max hx.1 hy.1, max_le_max hx.2 hy.2⟩

/-! ## Lists -/

/-- Every way of adding up numbers that are not negative. -/
lemma sumRunR_accurate (h0 : 0 ≤ ε) (h1 : ε < 1) (hη : 0 ≤ η) {xs : List ℝ} (h : SumRunR (FlS ε η) xs r)
    (hx : ∀ z ∈ xs, 0 ≤ z) : AccurateUpTo ε (xs.length - 1) ((xs.length - 1 : ℕ) * η) r xs.sum ∧ 0 ≤ r := by
  induction h with
  | nil => exact ⟨.refl h0 h1 (by simp) (by simp) _, le_rfl⟩
  | one x =>
    rw [List.sum_singleton]
    have : 0 ≤ x := by simpa using hx
    exact ⟨.refl h0 h1 this (by simp) _, this⟩
  | @add l m x y r hl hm _ _ hr ih ih' =>
    have e1 : 1 ≤ l.length := List.length_pos_iff.2 hl
    have e2 : 1 ≤ m.length := List.length_pos_iff.2 hm
    have hl0 : ∀ z ∈ l, 0 ≤ z := fun z hz => hx z (by simp [hz])
    have hm0 : ∀ z ∈ m, 0 ≤ z := fun z hz => hx z (by simp [hz])
    obtain ⟨p1, q1⟩ := ih hl0
    obtain ⟨p2, q2⟩ := ih' hm0
    have s1 := List.sum_nonneg hl0
    have s2 := List.sum_nonneg hm0
    have p := (p1.mono h0 h1 s1 q1 (l := l.length + m.length - 2) (by omega) le_rfl).plus
      (p2.mono h0 h1 s2 q2 (l := l.length + m.length - 2) (by omega) le_rfl)
    have q := p.round h1 (by positivity) (by positivity) hr
    rw [List.sum_append, List.length_append]
    refine ⟨?_, hr.2.1 (by positivity)⟩
    have e : l.length + m.length - 1 = (l.length - 1) + (m.length - 1) + 1 := by omega
    have e' : ((l.length + m.length - 1 : ℕ) : ℝ) * η
        = ((l.length - 1 : ℕ) : ℝ) * η + ((m.length - 1 : ℕ) : ℝ) * η + η := by
      rw [e]
      push_cast
      ring
    rw [e']
    exact q.mono h0 h1 (by positivity) (hr.2.1 (by positivity)) (by omega) le_rfl
  | perm hp _ ih =>
    rw [← hp.sum_eq, ← hp.length_eq]
    exact ih fun z hz => hx z (hp.mem_iff.1 hz)

lemma accurateUpTo_sum {xs ys : List ℝ} (h : List.Forall₂ (AccurateUpTo ε k t) xs ys) :
    AccurateUpTo ε k (xs.length * t) xs.sum ys.sum := by
  induction h with
  | nil => simp [AccurateUpTo]
  | @cons a b as bs h _ ih =>
    have e : (((a :: as).length : ℕ) : ℝ) * t = t + as.length * t := by
      rw [List.length_cons]
      push_cast
      ring
    rw [List.sum_cons, List.sum_cons, e]
    exact h.plus ih

lemma accurateUpTo_max (h1 : ε < 1) {xs ys : List ℝ} (h : List.Forall₂ (AccurateUpTo ε k t) xs ys)
    (hr : npMax xs = .ok r) (hx : npMax ys = .ok x) : AccurateUpTo ε k t r x := by
  cases h with
  | nil => cases hr
  | @cons a b as bs h t =>
    rw [npMax, Except.ok.injEq] at hr hx
    subst hr hx
    induction t generalizing a b with
    | nil => exact h
    | cons h' _ ih => exact ih (h.maximum h1 h')

/-- The mean of numbers that are not negative, where the entries are accurate. -/
lemma underflowMean_accurate (h0 : 0 ≤ ε) (h1 : ε < 1) (hη : 0 ≤ η) (ht : 0 ≤ t) {xs ys : List ℝ}
    (hall : List.Forall₂ (AccurateUpTo ε k t) xs ys) (hx : ∀ z ∈ xs, 0 ≤ z) (hy : ∀ z ∈ ys, 0 ≤ z)
    (hr : UnderflowMean (FlS ε η) xs r) :
    AccurateUpTo ε (ys.length + k) (t + 2 * η) r (ys.sum / ys.length) ∧ 0 ≤ r := by
  obtain ⟨hne, s, hs, hr⟩ := hr
  have hlen := hall.length_eq
  obtain ⟨p1, q1⟩ := sumRunR_accurate h0 h1 hη hs hx
  have hpos : 1 ≤ xs.length := List.length_pos_iff.2 hne
  have hn : (0 : ℝ) < xs.length := by exact_mod_cast hpos
  have sy := List.sum_nonneg hy
  have p2 := ((p1.trans h0 h1 (by positivity) (by positivity) (accurateUpTo_sum hall)).divBy hn.le).round h1
    (by positivity) (by positivity) hr
  have rn : 0 ≤ r := hr.2.1 (by positivity)
  rw [← hlen]
  refine ⟨p2.mono h0 h1 (by positivity) rn (by omega) ?_, rn⟩
  have c : ((xs.length - 1 : ℕ) : ℝ) ≤ xs.length := by exact_mod_cast Nat.sub_le _ _
  have : (((xs.length - 1 : ℕ) : ℝ) * η + xs.length * t) / xs.length ≤ η + t := by
    rw [div_le_iff₀ hn]
    nlinarith
  linarith

/-! ## Root mean squares -/

lemma sq_sum_abs_le (l : List ℝ) : (l.map fun x => |x|).sum ^ 2 ≤ l.length * (l.map fun x => x ^ 2).sum := by
  rw [← Fin.sum_univ_fun_getElem l, ← Fin.sum_univ_fun_getElem l]
  have := sq_sum_le_card_mul_sum_sq (s := (Finset.univ : Finset (Fin l.length))) (f := fun i => |l[i]|)
  simpa [sq_abs] using this

lemma meanAbs_le_rms (l : List ℝ) : meanAbs l ≤ rootMeanSquare l := by
  rcases Nat.eq_zero_or_pos l.length with h | h
  · rw [List.length_eq_zero_iff.1 h]
    simp [meanAbs, rootMeanSquare]
  · have hn : (0 : ℝ) < l.length := by exact_mod_cast h
    refine Real.le_sqrt_of_sq_le ?_
    rw [meanAbs, div_pow, div_le_div_iff₀ (by positivity) hn]
    nlinarith [sq_sum_abs_le l]

lemma meanAbs_nonneg (l : List ℝ) : 0 ≤ meanAbs l :=
  div_nonneg (List.sum_nonneg fun z hz => by
    obtain ⟨w, -, rfl⟩ := List.mem_map.1 hz
    exact abs_nonneg w) (Nat.cast_nonneg _)

lemma sum_sq_nonneg (l : List ℝ) : 0 ≤ (l.map fun x => x ^ 2).sum := List.sum_nonneg fun z hz => by
  obtain ⟨w, -, rfl⟩ := List.mem_map.1 hz
  exact sq_nonneg w

lemma sum_sq_shift (l : List ℝ) (t : ℝ) : (l.map fun x => (|x| + t) ^ 2).sum
    = (l.map fun x => x ^ 2).sum + 2 * t * (l.map fun x => |x|).sum + l.length * t ^ 2 := by
  induction l with
  | nil => simp
  | cons x l ih =>
    rw [List.map_cons, List.sum_cons, ih, List.map_cons, List.sum_cons, List.map_cons, List.sum_cons, List.length_cons,
      add_sq, sq_abs]
    push_cast
    ring

/-- Entries that are comparable up to an absolute amount have comparable root mean squares. -/
lemma rms_le {c t : ℝ} (hc : 0 ≤ c) (ht : 0 ≤ t) {xs ys : List ℝ}
    (h : List.Forall₂ (fun x y => |x| * c ≤ |y| + t) xs ys) : rootMeanSquare xs * c ≤ rootMeanSquare ys + t := by
  have hsum : (xs.map fun x => x ^ 2).sum * c ^ 2 ≤ (ys.map fun y => (|y| + t) ^ 2).sum := by
    clear ht
    induction h with
    | nil => simp
    | @cons a b as bs h _ ih =>
      simp only [List.map_cons, List.sum_cons, add_mul]
      refine add_le_add ?_ ih
      rw [← sq_abs a, ← mul_pow]
      exact pow_le_pow_left₀ (by positivity) h 2
  have hlen := h.length_eq
  rcases Nat.eq_zero_or_pos ys.length with h' | h'
  · rw [h'] at hlen
    rw [List.length_eq_zero_iff.1 hlen, List.length_eq_zero_iff.1 h']
    simpa [rootMeanSquare] using ht
  · have hn : (0 : ℝ) < ys.length := by exact_mod_cast h'
    have e : rootMeanSquare xs * c = Real.sqrt ((xs.map fun x => x ^ 2).sum / ys.length * c ^ 2) := by
      rw [Real.sqrt_mul (div_nonneg (sum_sq_nonneg _) hn.le), Real.sqrt_sq hc, rootMeanSquare, hlen]
    rw [e]
    refine Real.sqrt_le_iff.2 ⟨add_nonneg (Real.sqrt_nonneg _) ht, ?_⟩
    have h1 := meanAbs_le_rms ys
    have h2 : rootMeanSquare ys ^ 2 = (ys.map fun x => x ^ 2).sum / ys.length :=
      Real.sq_sqrt (div_nonneg (sum_sq_nonneg _) hn.le)
    rw [sum_sq_shift] at hsum
    have h3 : (xs.map fun x => x ^ 2).sum / ys.length * c ^ 2
        ≤ (ys.map fun x => x ^ 2).sum / ys.length + 2 * t * meanAbs ys + t ^ 2 := by
      rw [meanAbs, div_mul_eq_mul_div, div_le_iff₀ hn]
      have : ((ys.map fun x => x ^ 2).sum / ys.length + 2 * t * ((ys.map fun x => |x|).sum / ys.length) + t ^ 2) * ys.length
          = (ys.map fun x => x ^ 2).sum + 2 * t * (ys.map fun x => |x|).sum + ys.length * t ^ 2 := by
        field_simp
      rw [this]
      exact hsum
    have h4 : 2 * t * meanAbs ys ≤ 2 * t * rootMeanSquare ys := by gcongr
    rw [add_sq, h2]
    linarith

lemma flS_abs (h1 : ε < 1) (h : FlS ε η x r) : AccurateUpTo ε 1 η |r| |x| := by
  have h0 := h.eps
  have hη := h.eta
  have key : ∀ {a b : ℝ}, 0 ≤ a → FlS ε η a b → AccurateUpTo ε 1 η b a := fun {a b} ha hb => by
    simpa using (AccurateUpTo.refl h0 h1 ha le_rfl 0).round h1 le_rfl ha hb
  rcases le_total 0 x with hx | hx
  · rw [abs_of_nonneg hx, abs_of_nonneg (h.2.1 hx)]
    exact key hx h
  · rw [abs_of_nonpos hx, abs_of_nonpos (h.2.2 hx)]
    refine key (by linarith) ⟨?_, fun h' => ?_, fun h' => ?_⟩
    · obtain ⟨δ, θ, hδ, hθ, rfl⟩ := h.1
      exact ⟨δ, -θ, hδ, by simpa using hθ, by ring⟩
    · linarith [h.2.2 hx]
    · linarith [h.2.1 (by linarith)]

lemma map_abs_forall₂ (h1 : ε < 1) {d ds : List ℝ} (h : List.Forall₂ (FlS ε η) d ds) :
    List.Forall₂ (AccurateUpTo ε 1 η) (ds.map fun x => |x|) (d.map fun x => |x|) := by
  induction h with
  | nil => exact .nil
  | cons h _ ih => exact .cons (flS_abs h1 h) ih

lemma abs_map_nonneg (l : List ℝ) : ∀ z ∈ l.map (fun x => |x|), 0 ≤ z := fun z hz => by
  obtain ⟨w, -, rfl⟩ := List.mem_map.1 hz
  exact abs_nonneg w

lemma sq_map_nonneg (l : List ℝ) : ∀ z ∈ l.map (fun x => x ^ 2), 0 ≤ z := fun z hz => by
  obtain ⟨w, -, rfl⟩ := List.mem_map.1 hz
  exact sq_nonneg w

/-- `np.sqrt(np.mean(np.square(d)))` of given numbers. -/
lemma underflowRms_accurate (h0 : 0 ≤ ε) (h1 : ε < 1) (hη : 0 ≤ η) {ds : List ℝ}
    (hr : UnderflowRms (FlS ε η) ds r) :
    AccurateUpTo ε (ds.length + 2) (Real.sqrt (3 * η) + η) r (rootMeanSquare ds) ∧ 0 ≤ r := by
  obtain ⟨ss, m, hss, hm, hr⟩ := hr
  have hall : List.Forall₂ (AccurateUpTo ε 1 η) ss (ds.map fun x => x ^ 2) ∧ ∀ z ∈ ss, 0 ≤ z := by
    clear hm
    unfold UnderflowSquare at hss
    induction hss with
    | nil => exact ⟨.nil, by simp⟩
    | @cons d s ds ss h _ ih =>
      have hs : 0 ≤ s := h.2.1 (sq_nonneg d)
      refine ⟨.cons ?_ ih.1, ?_⟩
      · have := flS_abs h1 h
        rwa [abs_of_nonneg hs, abs_of_nonneg (sq_nonneg d)] at this
      · intro z hz
        rcases List.mem_cons.1 hz with rfl | hz
        · exact hs
        · exact ih.2 z hz
  obtain ⟨p, q⟩ := underflowMean_accurate h0 h1 hη hη hall.1 hall.2 (sq_map_nonneg _) hm
  rw [List.length_map] at p
  have e : η + 2 * η = 3 * η := by ring
  rw [e] at p
  have hsq : (0 : ℝ) ≤ (ds.map fun x => x ^ 2).sum / ds.length := div_nonneg (sum_sq_nonneg _) (Nat.cast_nonneg _)
  have p2 := (p.sqrt h0 h1 (by positivity) hsq q).round h1 (by positivity) (Real.sqrt_nonneg _) hr
  exact ⟨p2, hr.2.1 (Real.sqrt_nonneg _)⟩

end

end FastVPINNs
