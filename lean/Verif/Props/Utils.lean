import Verif.Model.Utils
import Mathlib.Analysis.InnerProductSpace.PiL2
import Mathlib.Algebra.Order.Chebyshev
import Mathlib.Tactic.Linarith
import Mathlib.Tactic.Positivity

/-! # C53–C57: error measures and tables

Arrays of `n` numbers in any shapes `s`, `s'`: `⟨s, List.ofFn u⟩`. -/

namespace FastVPINNs

open Finset

theorem zipWith_ofFn {n : ℕ} (u v : Fin n → ℝ) :
    List.zipWith (· - ·) (List.ofFn u) (List.ofFn v) = List.ofFn fun i => u i - v i := by
  refine List.ext_getElem (by simp) fun k h1 h2 => ?_
  simp

theorem npSub_ofFn {n : ℕ} (u v : Fin n → ℝ) :
    npSub (List.ofFn u) (List.ofFn v) = .ok (List.ofFn fun i => u i - v i) := by
  unfold npSub
  rw [if_pos (by simp), zipWith_ofFn]

theorem npMean_ofFn {n : ℕ} (w : Fin n → ℝ) : npMean (List.ofFn w) = (∑ i, w i) / n := by
  unfold npMean
  rw [List.sum_ofFn, List.length_ofFn]

theorem foldl_max (a : ℝ) (l : List ℝ) : a ≤ l.foldl max a ∧ (∀ b ∈ l, b ≤ l.foldl max a) ∧
    (l.foldl max a = a ∨ l.foldl max a ∈ l) := by
  induction l generalizing a with
  | nil => simp
  | cons b l ih =>
    obtain ⟨h1, h2, h3⟩ := ih (max a b)
    simp only [List.foldl_cons]
    refine ⟨(le_max_left a b).trans h1, fun c hc => ?_, ?_⟩
    · rcases List.mem_cons.mp hc with rfl | hc
      · exact (le_max_right a c).trans h1
      · exact h2 c hc
    · rcases h3 with h3 | h3
      · rcases max_choice a b with hm | hm
        · exact Or.inl (h3.trans hm)
        · right
          rw [h3, hm]
          simp
      · exact Or.inr (List.mem_cons_of_mem _ h3)

theorem npMax_ofFn {n : ℕ} (hn : 0 < n) (w : Fin n → ℝ) :
    ∃ m, npMax (List.ofFn w) = .ok m ∧ IsGreatest (Set.range w) m := by
  obtain ⟨k, rfl⟩ : ∃ k, n = k + 1 := ⟨n - 1, by omega⟩
  rw [List.ofFn_succ]
  refine ⟨_, rfl, ?_, ?_⟩
  · rcases (foldl_max (w 0) (List.ofFn fun i => w i.succ)).2.2 with h | h
    · rw [h]
      exact ⟨0, rfl⟩
    · obtain ⟨i, hi⟩ := (List.mem_ofFn' _ _).mp h
      exact ⟨i.succ, hi⟩
  · rintro _ ⟨i, rfl⟩
    obtain ⟨h1, h2, -⟩ := foldl_max (w 0) (List.ofFn fun i => w i.succ)
    refine Fin.cases h1 (fun i => ?_) i
    exact h2 _ ((List.mem_ofFn' _ _).mpr ⟨i, rfl⟩)

section
variable {n : ℕ} (hn : 0 < n) (s s' s'' : List ℕ) (u v w : Fin n → ℝ)

theorem l2_value : computeL2Error ⟨s, List.ofFn u⟩ ⟨s', List.ofFn v⟩
    = .ok (Real.sqrt ((∑ i, (u i - v i) ^ 2) / n)) := by
  unfold computeL2Error NDArray.flatten
  simp only [npSub_ofFn, List.map_ofFn]
  rw [npMean_ofFn]
  rfl

theorem l1_value : computeL1Error ⟨s, List.ofFn u⟩ ⟨s', List.ofFn v⟩ = .ok ((∑ i, |u i - v i|) / n) := by
  unfold computeL1Error NDArray.flatten
  simp only [npSub_ofFn, List.map_ofFn]
  rw [npMean_ofFn]
  rfl

include hn in
theorem linf_value : ∃ m, computeLinfError ⟨s, List.ofFn u⟩ ⟨s', List.ofFn v⟩ = .ok m ∧
    IsGreatest (Set.range fun i => |u i - v i|) m := by
  unfold computeLinfError NDArray.flatten
  simp only [npSub_ofFn, List.map_ofFn]
  exact npMax_ofFn hn _

/-! ## C53 -/

include hn in
/-- The `l1` error is a distance. -/
theorem C53_l1 : ∃ d : (Fin n → ℝ) → (Fin n → ℝ) → ℝ,
    (∀ s s' u v, computeL1Error ⟨s, List.ofFn u⟩ ⟨s', List.ofFn v⟩ = .ok (d u v)) ∧
    (∀ u v, 0 ≤ d u v) ∧ (∀ u v, d u v = 0 ↔ u = v) ∧ (∀ u v, d u v = d v u) ∧
    (∀ u v w, d u w ≤ d u v + d v w) := by
  have hn' : (0 : ℝ) < n := by exact_mod_cast hn
  refine ⟨fun u v => (∑ i, |u i - v i|) / n, fun s s' u v => l1_value s s' u v, fun u v => by positivity,
    fun u v => ?_, fun u v => ?_, fun u v w => ?_⟩
  · rw [div_eq_zero_iff, or_iff_left hn'.ne', Finset.sum_eq_zero_iff_of_nonneg (fun i _ => abs_nonneg _)]
    simp only [mem_univ, true_implies, abs_eq_zero, sub_eq_zero]
    exact ⟨fun h => funext h, fun h i => by rw [h]⟩
  · simp only [abs_sub_comm]
  · rw [← add_div, ← Finset.sum_add_distrib]
    refine div_le_div_of_nonneg_right (Finset.sum_le_sum fun i _ => abs_sub_le _ _ _) hn'.le

include hn in
/-- The `linf` error is a distance. -/
theorem C53_linf : ∃ d : (Fin n → ℝ) → (Fin n → ℝ) → ℝ,
    (∀ s s' u v, computeLinfError ⟨s, List.ofFn u⟩ ⟨s', List.ofFn v⟩ = .ok (d u v)) ∧
    (∀ u v, 0 ≤ d u v) ∧ (∀ u v, d u v = 0 ↔ u = v) ∧ (∀ u v, d u v = d v u) ∧
    (∀ u v w, d u w ≤ d u v + d v w) := by
  have hval : ∀ u v : Fin n → ℝ, ∃ m, (∀ s s', computeLinfError ⟨s, List.ofFn u⟩ ⟨s', List.ofFn v⟩ = .ok m) ∧
      IsGreatest (Set.range fun i => |u i - v i|) m := by
    intro u v
    obtain ⟨m, h1, h2⟩ := linf_value hn [] [] u v
    exact ⟨m, fun s s' => h1, h2⟩
  choose d hd hg using hval
  have hle : ∀ u v i, |u i - v i| ≤ d u v := fun u v i => (hg u v).2 ⟨i, rfl⟩
  have hub : ∀ u v c, (∀ i, |u i - v i| ≤ c) → d u v ≤ c := by
    intro u v c hc
    obtain ⟨i, hi⟩ := (hg u v).1
    rw [← hi]
    exact hc i
  have h0 : ∀ u v, 0 ≤ d u v := fun u v => (abs_nonneg _).trans (hle u v ⟨0, hn⟩)
  refine ⟨d, fun s s' u v => hd u v s s', h0, fun u v => ⟨fun h => funext fun i => ?_, ?_⟩,
    fun u v => ?_, fun u v w => ?_⟩
  · have := hle u v i
    rw [h] at this
    exact sub_eq_zero.mp (abs_eq_zero.mp (le_antisymm this (abs_nonneg _)))
  · rintro rfl
    exact le_antisymm (hub u u 0 fun i => by simp) (h0 u u)
  · exact le_antisymm (hub u v _ fun i => by rw [abs_sub_comm]; exact hle v u i)
      (hub v u _ fun i => by rw [abs_sub_comm]; exact hle u v i)
  · exact hub u w _ fun i => (abs_sub_le (u i) (v i) (w i)).trans (add_le_add (hle u v i) (hle v w i))

theorem sqrt_sum_triangle (a b : Fin n → ℝ) :
    Real.sqrt (∑ i, (a i + b i) ^ 2) ≤ Real.sqrt (∑ i, a i ^ 2) + Real.sqrt (∑ i, b i ^ 2) := by
  have h := norm_add_le (WithLp.toLp 2 a : EuclideanSpace ℝ (Fin n)) (WithLp.toLp 2 b)
  simpa [EuclideanSpace.norm_eq] using h

include hn in
/-- The `l2` error is a distance. -/
theorem C53_l2 : ∃ d : (Fin n → ℝ) → (Fin n → ℝ) → ℝ,
    (∀ s s' u v, computeL2Error ⟨s, List.ofFn u⟩ ⟨s', List.ofFn v⟩ = .ok (d u v)) ∧
    (∀ u v, 0 ≤ d u v) ∧ (∀ u v, d u v = 0 ↔ u = v) ∧ (∀ u v, d u v = d v u) ∧
    (∀ u v w, d u w ≤ d u v + d v w) := by
  have hn' : (0 : ℝ) < n := by exact_mod_cast hn
  refine ⟨fun u v => Real.sqrt ((∑ i, (u i - v i) ^ 2) / n), fun s s' u v => l2_value s s' u v,
    fun u v => Real.sqrt_nonneg _, fun u v => ?_, fun u v => ?_, fun u v w => ?_⟩
  · rw [Real.sqrt_eq_zero (by positivity), div_eq_zero_iff, or_iff_left hn'.ne',
      Finset.sum_eq_zero_iff_of_nonneg (fun i _ => sq_nonneg _)]
    simp only [mem_univ, true_implies, sq_eq_zero_iff, sub_eq_zero]
    exact ⟨fun h => funext h, fun h i => by rw [h]⟩
  · have : ∀ i, (u i - v i) ^ 2 = (v i - u i) ^ 2 := fun i => by ring
    simp only [this]
  · simp only
    rw [Real.sqrt_div (by positivity), Real.sqrt_div (by positivity), Real.sqrt_div (by positivity),
      ← add_div]
    refine div_le_div_of_nonneg_right ?_ (Real.sqrt_nonneg _)
    have := sqrt_sum_triangle (fun i => u i - v i) (fun i => v i - w i)
    simpa using this

example : computeL2Error ⟨[2, 1], List.ofFn ![3, 4]⟩ ⟨[2], List.ofFn ![0, 0]⟩ = .ok (Real.sqrt (25 / 2)) := by
  rw [l2_value]
  norm_num

/-! ## C54 -/

include hn in
/-- `l1 ≤ l2 ≤ linf ≤ sqrt N * l2`, `linf ≤ N * l1`. -/
theorem C54_ordering : ∃ l1 l2 linf,
    computeL1Error ⟨s, List.ofFn u⟩ ⟨s', List.ofFn v⟩ = .ok l1 ∧
    computeL2Error ⟨s, List.ofFn u⟩ ⟨s', List.ofFn v⟩ = .ok l2 ∧
    computeLinfError ⟨s, List.ofFn u⟩ ⟨s', List.ofFn v⟩ = .ok linf ∧
    l1 ≤ l2 ∧ l2 ≤ linf ∧ linf ≤ Real.sqrt n * l2 ∧ linf ≤ n * l1 := by
  have hn' : (0 : ℝ) < n := by exact_mod_cast hn
  obtain ⟨m, hm, ⟨i₀, hi₀⟩, hub⟩ := linf_value hn s s' u v
  simp only at hi₀
  have hle : ∀ i, |u i - v i| ≤ m := fun i => hub ⟨i, rfl⟩
  have hm0 : 0 ≤ m := (abs_nonneg _).trans (hle ⟨0, hn⟩)
  refine ⟨_, _, m, l1_value s s' u v, l2_value s s' u v, hm, ?_, ?_, ?_, ?_⟩
  · refine Real.le_sqrt_of_sq_le ?_
    rw [div_pow, div_le_div_iff₀ (by positivity) hn']
    have hcs := sq_sum_le_card_mul_sum_sq (s := (univ : Finset (Fin n))) (f := fun i => |u i - v i|)
    simp only [card_univ, Fintype.card_fin, sq_abs] at hcs
    calc (∑ i, |u i - v i|) ^ 2 * n ≤ (n * ∑ i, (u i - v i) ^ 2) * n := mul_le_mul_of_nonneg_right hcs hn'.le
      _ = (∑ i, (u i - v i) ^ 2) * (n : ℝ) ^ 2 := by ring
  · refine Real.sqrt_le_iff.mpr ⟨hm0, ?_⟩
    rw [div_le_iff₀ hn']
    calc ∑ i, (u i - v i) ^ 2 ≤ ∑ _i : Fin n, m ^ 2 :=
          Finset.sum_le_sum fun i _ => by
            rw [← sq_abs]
            exact pow_le_pow_left₀ (abs_nonneg _) (hle i) 2
      _ = m ^ 2 * n := by simp [mul_comm]
  · rw [← Real.sqrt_mul hn'.le, mul_div_cancel₀ _ hn'.ne']
    refine Real.le_sqrt_of_sq_le ?_
    rw [← hi₀, sq_abs]
    exact Finset.single_le_sum (f := fun i => (u i - v i) ^ 2) (fun i _ => sq_nonneg _) (mem_univ i₀)
  · rw [mul_div_cancel₀ _ hn'.ne', ← hi₀]
    exact Finset.single_le_sum (f := fun i => |u i - v i|) (fun i _ => abs_nonneg _) (mem_univ i₀)

/-! ## C55 -/

theorem l2rel_value : computeL2ErrorRelative ⟨s, List.ofFn u⟩ ⟨s', List.ofFn v⟩
    = .ok (Real.sqrt ((∑ i, (u i - v i) ^ 2) / n) / Real.sqrt ((∑ i, u i ^ 2) / n)) := by
  unfold computeL2ErrorRelative
  simp only [NDArray.flatten, l2_value, List.map_ofFn, npMean_ofFn]
  rfl

theorem l1rel_value : computeL1ErrorRelative ⟨s, List.ofFn u⟩ ⟨s', List.ofFn v⟩
    = .ok (((∑ i, |u i - v i|) / n) / ((∑ i, |u i|) / n)) := by
  unfold computeL1ErrorRelative
  simp only [NDArray.flatten, l1_value, List.map_ofFn, npMean_ofFn]
  rfl

include hn in
theorem linfrel_value : ∃ m k, IsGreatest (Set.range fun i => |u i - v i|) m ∧
    IsGreatest (Set.range fun i => |u i|) k ∧
    computeLinfErrorRelative ⟨s, List.ofFn u⟩ ⟨s', List.ofFn v⟩ = .ok (m / k) := by
  obtain ⟨m, h1, h2⟩ := linf_value hn [(List.ofFn u).length] [(List.ofFn v).length] u v
  obtain ⟨k, h3, h4⟩ := npMax_ofFn hn fun i => |u i|
  refine ⟨m, k, h2, h4, ?_⟩
  have e : (List.ofFn u).map (|·|) = List.ofFn fun i => |u i| := by simp [List.map_ofFn, Function.comp_def]
  unfold computeLinfErrorRelative NDArray.flatten
  simp only [h1, e, h3]

theorem isGreatest_abs_mul {a : Fin n → ℝ} {m : ℝ} (c : ℝ) (h : IsGreatest (Set.range fun i => |a i|) m) :
    IsGreatest (Set.range fun i => |c * a i|) (|c| * m) := by
  obtain ⟨⟨i, hi⟩, hub⟩ := h
  refine ⟨⟨i, ?_⟩, ?_⟩
  · simp only at hi ⊢
    rw [abs_mul, hi]
  · rintro _ ⟨j, rfl⟩
    simp only
    rw [abs_mul]
    exact mul_le_mul_of_nonneg_left (hub ⟨j, rfl⟩) (abs_nonneg c)

theorem isGreatest_perm {a : Fin n → ℝ} {m : ℝ} (σ : Equiv.Perm (Fin n)) (h : IsGreatest (Set.range a) m) :
    IsGreatest (Set.range fun i => a (σ i)) m := by
  have : (Set.range fun i => a (σ i)) = Set.range a := σ.surjective.range_comp a
  rwa [this]

include hn in
/-- A common factor `c` multiplies the absolute errors by `|c|`. -/
theorem C55_scaling_absolute (c : ℝ) : ∃ l1 l2 linf,
    computeL1Error ⟨s, List.ofFn u⟩ ⟨s', List.ofFn v⟩ = .ok l1 ∧
    computeL2Error ⟨s, List.ofFn u⟩ ⟨s', List.ofFn v⟩ = .ok l2 ∧
    computeLinfError ⟨s, List.ofFn u⟩ ⟨s', List.ofFn v⟩ = .ok linf ∧
    computeL1Error ⟨s, List.ofFn fun i => c * u i⟩ ⟨s', List.ofFn fun i => c * v i⟩ = .ok (|c| * l1) ∧
    computeL2Error ⟨s, List.ofFn fun i => c * u i⟩ ⟨s', List.ofFn fun i => c * v i⟩ = .ok (|c| * l2) ∧
    computeLinfError ⟨s, List.ofFn fun i => c * u i⟩ ⟨s', List.ofFn fun i => c * v i⟩ = .ok (|c| * linf) := by
  obtain ⟨m, hm, hg⟩ := linf_value hn s s' u v
  obtain ⟨m', hm', hg'⟩ := linf_value hn s s' (fun i => c * u i) (fun i => c * v i)
  have e : ∀ i, c * u i - c * v i = c * (u i - v i) := fun i => by ring
  refine ⟨_, _, m, l1_value s s' u v, l2_value s s' u v, hm, ?_, ?_, ?_⟩
  · rw [l1_value]
    simp only [e, abs_mul, ← Finset.mul_sum, mul_div_assoc]
  · rw [l2_value]
    simp only [e, mul_pow, ← Finset.mul_sum, mul_div_assoc]
    rw [Real.sqrt_mul (sq_nonneg c), Real.sqrt_sq_eq_abs]
  · rw [hm']
    simp only [e] at hg'
    rw [hg'.unique (isGreatest_abs_mul c hg)]

include hn in
/-- The three absolute errors by their formulas: mean absolute difference, root mean square difference, and
largest absolute difference; the arrays may have any shapes. -/
theorem C53_formulas : ∃ l1 l2 linf,
    computeL1Error ⟨s, List.ofFn u⟩ ⟨s', List.ofFn v⟩ = .ok l1 ∧
    computeL2Error ⟨s, List.ofFn u⟩ ⟨s', List.ofFn v⟩ = .ok l2 ∧
    computeLinfError ⟨s, List.ofFn u⟩ ⟨s', List.ofFn v⟩ = .ok linf ∧
    n * l1 = ∑ i, |u i - v i| ∧ 0 ≤ l2 ∧ n * l2 ^ 2 = ∑ i, (u i - v i) ^ 2 ∧
    (∀ i, |u i - v i| ≤ linf) ∧ ∃ i, |u i - v i| = linf := by
  have hn' : (n : ℝ) ≠ 0 := by exact_mod_cast hn.ne'
  obtain ⟨m, hm, ⟨i₀, hi₀⟩, hub⟩ := linf_value hn s s' u v
  refine ⟨_, _, m, l1_value s s' u v, l2_value s s' u v, hm, mul_div_cancel₀ _ hn', Real.sqrt_nonneg _, ?_,
    fun i => hub ⟨i, rfl⟩, i₀, hi₀⟩
  rw [Real.sq_sqrt (by positivity), mul_div_cancel₀ _ hn']

include hn in
/-- The three relative errors: the ratio of the absolute error to the norm of the first argument (the exact
solution), that is, to its absolute error against zero.  A zero exact solution is excluded. -/
theorem C55_formulas (hu : u ≠ fun _ => 0) (r1 r2 rinf : ℝ)
    (h1 : computeL1ErrorRelative ⟨s, List.ofFn u⟩ ⟨s', List.ofFn v⟩ = .ok r1)
    (h2 : computeL2ErrorRelative ⟨s, List.ofFn u⟩ ⟨s', List.ofFn v⟩ = .ok r2)
    (h3 : computeLinfErrorRelative ⟨s, List.ofFn u⟩ ⟨s', List.ofFn v⟩ = .ok rinf) :
    r1 * ∑ i, |u i| = ∑ i, |u i - v i| ∧ 0 ≤ r2 ∧ r2 ^ 2 * ∑ i, u i ^ 2 = ∑ i, (u i - v i) ^ 2 ∧
    ∃ m k, IsGreatest (Set.range fun i => |u i - v i|) m ∧ IsGreatest (Set.range fun i => |u i|) k ∧
      rinf * k = m := by
  have hn' : (n : ℝ) ≠ 0 := by exact_mod_cast hn.ne'
  obtain ⟨j, hj⟩ : ∃ j, u j ≠ 0 := by
    by_contra hne
    push Not at hne
    exact hu (funext hne)
  have s1 : ∑ i, |u i| ≠ 0 := by
    have := Finset.single_le_sum (f := fun i => |u i|) (fun i _ => abs_nonneg _) (mem_univ j)
    exact ((abs_pos.mpr hj).trans_le this).ne'
  have s2 : ∑ i, u i ^ 2 ≠ 0 := by
    have := Finset.single_le_sum (f := fun i => u i ^ 2) (fun i _ => sq_nonneg _) (mem_univ j)
    exact (((sq_pos_iff).mpr hj).trans_le this).ne'
  rw [l1rel_value, Except.ok.injEq] at h1
  rw [l2rel_value, Except.ok.injEq] at h2
  obtain ⟨m, k, hm, hk, h3'⟩ := linfrel_value hn s s' u v
  rw [h3', Except.ok.injEq] at h3
  subst h1 h2 h3
  refine ⟨?_, by positivity, ?_, m, k, hm, hk, ?_⟩
  · rw [div_div_div_cancel_right₀ hn', div_mul_cancel₀ _ s1]
  · rw [div_pow, Real.sq_sqrt (by positivity), Real.sq_sqrt (by positivity), div_div_div_cancel_right₀ hn',
      div_mul_cancel₀ _ s2]
  · have : 0 < k := (abs_pos.mpr hj).trans_le (hk.2 ⟨j, rfl⟩)
    rw [div_mul_cancel₀ _ this.ne']

include hn in
/-- A common non-zero factor leaves the relative errors unchanged. -/
theorem C55_scaling_relative (c : ℝ) (hc : c ≠ 0) :
    computeL1ErrorRelative ⟨s, List.ofFn fun i => c * u i⟩ ⟨s', List.ofFn fun i => c * v i⟩
      = computeL1ErrorRelative ⟨s, List.ofFn u⟩ ⟨s', List.ofFn v⟩ ∧
    computeL2ErrorRelative ⟨s, List.ofFn fun i => c * u i⟩ ⟨s', List.ofFn fun i => c * v i⟩
      = computeL2ErrorRelative ⟨s, List.ofFn u⟩ ⟨s', List.ofFn v⟩ ∧
    computeLinfErrorRelative ⟨s, List.ofFn fun i => c * u i⟩ ⟨s', List.ofFn fun i => c * v i⟩
      = computeLinfErrorRelative ⟨s, List.ofFn u⟩ ⟨s', List.ofFn v⟩ := by
  have hca : |c| ≠ 0 := abs_ne_zero.mpr hc
  have e : ∀ i, c * u i - c * v i = c * (u i - v i) := fun i => by ring
  refine ⟨?_, ?_, ?_⟩
  · rw [l1rel_value, l1rel_value]
    simp only [e, abs_mul, ← Finset.mul_sum]
    rw [mul_div_assoc _ _ (n : ℝ), mul_div_assoc _ _ (n : ℝ), mul_div_mul_left _ _ hca]
  · rw [l2rel_value, l2rel_value]
    simp only [e, mul_pow, ← Finset.mul_sum]
    rw [mul_div_assoc, mul_div_assoc, Real.sqrt_mul (sq_nonneg c), Real.sqrt_mul (sq_nonneg c), Real.sqrt_sq_eq_abs,
      mul_div_mul_left _ _ hca]
  · obtain ⟨m, k, g1, g2, h1⟩ := linfrel_value hn s s' u v
    obtain ⟨m', k', g1', g2', h1'⟩ := linfrel_value hn s s' (fun i => c * u i) (fun i => c * v i)
    simp only [e] at g1'
    rw [h1, h1', g1'.unique (isGreatest_abs_mul c g1), g2'.unique (isGreatest_abs_mul c g2),
      mul_div_mul_left _ _ hca]

include hn in
/-- The order of the entries does not matter. -/
theorem C55_permutation (σ : Equiv.Perm (Fin n)) :
    computeL1Error ⟨s, List.ofFn fun i => u (σ i)⟩ ⟨s', List.ofFn fun i => v (σ i)⟩
      = computeL1Error ⟨s, List.ofFn u⟩ ⟨s', List.ofFn v⟩ ∧
    computeL2Error ⟨s, List.ofFn fun i => u (σ i)⟩ ⟨s', List.ofFn fun i => v (σ i)⟩
      = computeL2Error ⟨s, List.ofFn u⟩ ⟨s', List.ofFn v⟩ ∧
    computeLinfError ⟨s, List.ofFn fun i => u (σ i)⟩ ⟨s', List.ofFn fun i => v (σ i)⟩
      = computeLinfError ⟨s, List.ofFn u⟩ ⟨s', List.ofFn v⟩ ∧
    computeL1ErrorRelative ⟨s, List.ofFn fun i => u (σ i)⟩ ⟨s', List.ofFn fun i => v (σ i)⟩
      = computeL1ErrorRelative ⟨s, List.ofFn u⟩ ⟨s', List.ofFn v⟩ ∧
    computeL2ErrorRelative ⟨s, List.ofFn fun i => u (σ i)⟩ ⟨s', List.ofFn fun i => v (σ i)⟩
      = computeL2ErrorRelative ⟨s, List.ofFn u⟩ ⟨s', List.ofFn v⟩ ∧
    computeLinfErrorRelative ⟨s, List.ofFn fun i => u (σ i)⟩ ⟨s', List.ofFn fun i => v (σ i)⟩
      = computeLinfErrorRelative ⟨s, List.ofFn u⟩ ⟨s', List.ofFn v⟩ := by
  have hs : ∀ f : Fin n → ℝ, ∑ i, f (σ i) = ∑ i, f i := fun f => Equiv.sum_comp σ f
  refine ⟨?_, ?_, ?_, ?_, ?_, ?_⟩
  · rw [l1_value, l1_value, hs fun i => |u i - v i|]
  · rw [l2_value, l2_value, hs fun i => (u i - v i) ^ 2]
  · obtain ⟨m, hm, hg⟩ := linf_value hn s s' u v
    obtain ⟨m', hm', hg'⟩ := linf_value hn s s' (fun i => u (σ i)) (fun i => v (σ i))
    rw [hm, hm', hg'.unique (isGreatest_perm σ hg)]
  · rw [l1rel_value, l1rel_value, hs fun i => |u i - v i|, hs fun i => |u i|]
  · rw [l2rel_value, l2rel_value, hs fun i => (u i - v i) ^ 2, hs fun i => u i ^ 2]
  · obtain ⟨m, k, g1, g2, h1⟩ := linfrel_value hn s s' u v
    obtain ⟨m', k', g1', g2', h1'⟩ := linfrel_value hn s s' (fun i => u (σ i)) (fun i => v (σ i))
    rw [h1, h1', g1'.unique (isGreatest_perm σ g1), g2'.unique (isGreatest_perm σ g2)]

include hn in
/-- The zero approximation has relative error one. -/
theorem C55_zero_approximation (hu : u ≠ fun _ => 0) :
    computeL1ErrorRelative ⟨s, List.ofFn u⟩ ⟨s', List.ofFn fun _ : Fin n => 0⟩ = .ok 1 ∧
    computeL2ErrorRelative ⟨s, List.ofFn u⟩ ⟨s', List.ofFn fun _ : Fin n => 0⟩ = .ok 1 ∧
    computeLinfErrorRelative ⟨s, List.ofFn u⟩ ⟨s', List.ofFn fun _ : Fin n => 0⟩ = .ok 1 := by
  have hn' : (0 : ℝ) < n := by exact_mod_cast hn
  obtain ⟨j, hj⟩ : ∃ j, u j ≠ 0 := by
    by_contra h
    push Not at h
    exact hu (funext h)
  have h1 : 0 < ∑ i, |u i| :=
    Finset.sum_pos' (fun i _ => abs_nonneg _) ⟨j, mem_univ j, abs_pos.mpr hj⟩
  have h2 : 0 < ∑ i, u i ^ 2 :=
    Finset.sum_pos' (fun i _ => sq_nonneg _) ⟨j, mem_univ j, by positivity⟩
  refine ⟨?_, ?_, ?_⟩
  · rw [l1rel_value]
    simp only [sub_zero]
    rw [div_self (by positivity)]
  · rw [l2rel_value]
    simp only [sub_zero]
    rw [div_self (Real.sqrt_pos.mpr (by positivity)).ne']
  · obtain ⟨m, k, g1, g2, h⟩ := linfrel_value hn s s' u fun _ => 0
    simp only [sub_zero] at g1
    have hk : 0 < k := (abs_pos.mpr hj).trans_le (g2.2 ⟨j, rfl⟩)
    rw [h, g1.unique g2, div_self hk.ne']

example : computeL2ErrorRelative ⟨[2], List.ofFn ![3, 4]⟩ ⟨[2], List.ofFn fun _ : Fin 2 => 0⟩ = .ok 1 :=
  (C55_zero_approximation (by norm_num) [2] [2] ![3, 4] (fun h => by simpa using congrFun h 0)).2.1

/-! ## C56 -/

include hn in
/-- The six numbers in their order; the shapes of the arrays do not matter. -/
theorem C56_combined (t t' : List ℕ) : ∃ l2 linf l2r linfr l1 l1r,
    computeL2Error ⟨t, List.ofFn u⟩ ⟨t', List.ofFn v⟩ = .ok l2 ∧
    computeLinfError ⟨t, List.ofFn u⟩ ⟨t', List.ofFn v⟩ = .ok linf ∧
    computeL2ErrorRelative ⟨t, List.ofFn u⟩ ⟨t', List.ofFn v⟩ = .ok l2r ∧
    computeLinfErrorRelative ⟨t, List.ofFn u⟩ ⟨t', List.ofFn v⟩ = .ok linfr ∧
    computeL1Error ⟨t, List.ofFn u⟩ ⟨t', List.ofFn v⟩ = .ok l1 ∧
    computeL1ErrorRelative ⟨t, List.ofFn u⟩ ⟨t', List.ofFn v⟩ = .ok l1r ∧
    computeErrorsCombined ⟨s, List.ofFn u⟩ ⟨s', List.ofFn v⟩ = .ok (l2, linf, l2r, linfr, l1, l1r) := by
  obtain ⟨m, hm, -⟩ := linf_value hn t t' u v
  obtain ⟨mm, k, -, -, hr⟩ := linfrel_value hn t t' u v
  refine ⟨_, m, _, mm / k, _, _, l2_value t t' u v, hm, l2rel_value t t' u v, hr, l1_value t t' u v,
    l1rel_value t t' u v, ?_⟩
  have hm' : ∀ s s', computeLinfError ⟨s, List.ofFn u⟩ ⟨s', List.ofFn v⟩ = .ok m := fun s s' => hm
  have hr' : ∀ s s', computeLinfErrorRelative ⟨s, List.ofFn u⟩ ⟨s', List.ofFn v⟩ = .ok (mm / k) :=
    fun s s' => hr
  unfold computeErrorsCombined
  simp only [NDArray.flatten, l2_value, hm', l2rel_value, hr', l1_value, l1rel_value, bind, Except.bind, pure,
    Except.pure]

end

/-- Arrays of different sizes, both with more than one entry, are rejected with a `ValueError` by every
measure. -/
theorem C56_size_mismatch (u v : NDArray) (h : u.data.length ≠ v.data.length) (hu : u.data.length ≠ 1)
    (hv : v.data.length ≠ 1) :
    computeL2Error u v = .error .valueError ∧ computeL1Error u v = .error .valueError ∧
    computeLinfError u v = .error .valueError ∧ computeL2ErrorRelative u v = .error .valueError ∧
    computeLinfErrorRelative u v = .error .valueError ∧ computeL1ErrorRelative u v = .error .valueError ∧
    computeErrorsCombined u v = .error .valueError := by
  have e : npSub u.data v.data = .error .valueError := by
    unfold npSub
    rw [if_neg h, if_neg hu, if_neg hv]
  simp [computeL2Error, computeL1Error, computeLinfError, computeL2ErrorRelative, computeLinfErrorRelative,
    computeL1ErrorRelative, computeErrorsCombined, NDArray.flatten, e, bind, Except.bind]

/-! ## C57 -/

/-- One row per index below both lengths, with the texts of the two columns. -/
theorem C57_rows (fmt4 : ℝ → String) (col1 : List String) (col2 : List TableVal) :
    (printTableRows fmt4 col1 col2).length = min col1.length col2.length ∧
    ∀ (k : ℕ) (a : String) (b : TableVal), col1[k]? = some a → col2[k]? = some b →
      ∃ text, (printTableRows fmt4 col1 col2)[k]? = some (a, text) ∧
        (∀ x, b = .float x → text = fmt4 x) ∧ (∀ t, b = .other t → text = t) := by
  unfold printTableRows
  refine ⟨by simp, fun k a b ha hb => ?_⟩
  have hz : (List.zip col1 col2)[k]? = some (a, b) := by
    rw [List.getElem?_zip_eq_some]
    exact ⟨ha, hb⟩
  rw [List.getElem?_map, hz]
  cases b with
  | float x =>
    refine ⟨fmt4 x, rfl, fun y hy => ?_, fun t ht => ?_⟩
    · cases hy
      rfl
    · cases ht
  | other t =>
    refine ⟨t, rfl, fun y hy => ?_, fun t ht => ?_⟩
    · cases hy
    · cases ht
      rfl

example : printTableRows (fun _ => "0.5000") ["a", "b", "c"] [.float 0.5, .other "7"]
    = [("a", "0.5000"), ("b", "7")] := rfl

end FastVPINNs
