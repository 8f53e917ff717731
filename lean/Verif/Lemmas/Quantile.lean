import Verif.Spec.Driver
import Mathlib.Data.List.GetD

/-! # Percentiles -/

namespace FastVPINNs

open Spec

section
variable (l : List ℝ)

/-- The sorted list. -/
noncomputable def sortedList : List ℝ := l.mergeSort (fun x y => decide (x ≤ y))

lemma sortedList_length : (sortedList l).length = l.length := List.length_mergeSort _

lemma sortedList_perm : (sortedList l).Perm l := List.mergeSort_perm _ _

lemma sortedList_mono {i j : ℕ} (hij : i ≤ j) (hj : j < l.length) :
    (sortedList l).getD i 0 ≤ (sortedList l).getD j 0 := by
  have hs : (sortedList l).Pairwise (fun a b => decide (a ≤ b) = true) :=
    List.pairwise_mergeSort (fun a b c => by simpa using le_trans) (fun a b => by simpa using le_total a b) l
  have hlen := sortedList_length l
  rcases hij.lt_or_eq with h | rfl
  · have := List.pairwise_iff_getElem.1 hs i j (by omega) (by omega) h
    rw [List.getD_eq_getElem _ _ (by omega), List.getD_eq_getElem _ _ (by omega)]
    simpa using this
  · exact le_rfl

open Classical in
lemma count_le (v : ℝ) (i : ℕ) (hi : i < l.length) (h : (sortedList l).getD i 0 ≤ v) :
    i + 1 ≤ (l.filter fun t => decide (t ≤ v)).length := by
  rw [← ((sortedList_perm l).filter _).length_eq]
  have hlen := sortedList_length l
  have : ((sortedList l).take (i + 1)).filter (fun t => decide (t ≤ v)) = (sortedList l).take (i + 1) := by
    rw [List.filter_eq_self]
    intro t ht
    obtain ⟨k, hk, rfl⟩ := List.mem_iff_getElem.1 ht
    rw [List.length_take] at hk
    rw [List.getElem_take]
    have := sortedList_mono l (i := k) (j := i) (by omega) hi
    rw [List.getD_eq_getElem _ _ (by omega)] at this
    simpa using this.trans h
  calc i + 1 = (((sortedList l).take (i + 1)).filter fun t => decide (t ≤ v)).length := by
        rw [this, List.length_take]; omega
    _ ≤ _ := ((List.take_sublist _ _).filter _).length_le

open Classical in
lemma count_ge (v : ℝ) (i : ℕ) (hi : i < l.length) (h : v ≤ (sortedList l).getD i 0) :
    l.length - i ≤ (l.filter fun t => decide (v ≤ t)).length := by
  rw [← ((sortedList_perm l).filter _).length_eq]
  have hlen := sortedList_length l
  have : ((sortedList l).drop i).filter (fun t => decide (v ≤ t)) = (sortedList l).drop i := by
    rw [List.filter_eq_self]
    intro t ht
    obtain ⟨k, hk, rfl⟩ := List.mem_iff_getElem.1 ht
    rw [List.length_drop] at hk
    rw [List.getElem_drop]
    have := sortedList_mono l (i := i) (j := i + k) (by omega) (by omega)
    rw [List.getD_eq_getElem (n := i + k) _ _ (by omega)] at this
    simpa using h.trans this
  calc l.length - i = (((sortedList l).drop i).filter fun t => decide (v ≤ t)).length := by
        rw [this, List.length_drop]; omega
    _ ≤ _ := ((List.drop_sublist _ _).filter _).length_le

/-- A value between the entries around position `x` of the sorted list is a quantile. -/
lemma quantile_of_between (q v : ℝ) (i : ℕ) (hi : i < l.length)
    (h1 : (i : ℝ) ≤ q * ((l.length : ℝ) - 1)) (h2 : q * ((l.length : ℝ) - 1) < i + 1)
    (hlo : (sortedList l).getD i 0 ≤ v)
    (hhi : (q * ((l.length : ℝ) - 1) = i ∧ v = (sortedList l).getD i 0) ∨
      (i : ℝ) < q * ((l.length : ℝ) - 1) ∧ i + 1 < l.length ∧ v ≤ (sortedList l).getD (i + 1) 0) :
    IsQuantile q l v := by
  constructor
  · have := count_le l v i hi hlo
    have : (i : ℝ) + 1 ≤ ((l.filter fun t => decide (t ≤ v)).length : ℝ) := by exact_mod_cast this
    exact lt_of_lt_of_le h2 (by convert this)
  · rcases hhi with ⟨h3, h4⟩ | ⟨h3, h4, h5⟩
    · have := count_ge l v i hi h4.le
      have h6 : ((l.length - i : ℕ) : ℝ) ≤ ((l.filter fun t => decide (v ≤ t)).length : ℝ) := by
        exact_mod_cast this
      rw [Nat.cast_sub hi.le] at h6
      refine lt_of_lt_of_le ?_ (by convert h6)
      linarith
    · have := count_ge l v (i + 1) h4 h5
      have h6 : ((l.length - (i + 1) : ℕ) : ℝ) ≤ ((l.filter fun t => decide (v ≤ t)).length : ℝ) := by
        exact_mod_cast this
      rw [Nat.cast_sub h4.le, Nat.cast_add, Nat.cast_one] at h6
      refine lt_of_lt_of_le ?_ (by convert h6)
      linarith

lemma percentile_isQuantile (hl : l ≠ []) (q : ℝ) (h0 : 0 ≤ q) (h1 : q < 100) :
    IsQuantile (q / 100) l (npPercentile l q) := by
  have hn : 0 < l.length := List.length_pos_iff.2 hl
  have hcast : ((l.length - 1 : ℕ) : ℝ) = (l.length : ℝ) - 1 := by
    rw [Nat.cast_sub hn, Nat.cast_one]
  unfold npPercentile
  dsimp only
  rw [hcast]
  set x := q / 100 * ((l.length : ℝ) - 1) with hx
  have hx0 : 0 ≤ x := by
    have : (1 : ℝ) ≤ l.length := by exact_mod_cast hn
    exact mul_nonneg (by positivity) (by linarith)
  have hfl := Nat.floor_le hx0
  have hfu := Nat.lt_floor_add_one x
  have hxn : x ≤ (l.length : ℝ) - 1 := by
    have : (1 : ℝ) ≤ l.length := by exact_mod_cast hn
    rw [hx]
    have : q / 100 ≤ 1 := by rw [div_le_one (by norm_num)]; exact h1.le
    nlinarith
  have hi : ⌊x⌋₊ < l.length := by
    have : (⌊x⌋₊ : ℝ) < l.length := by linarith
    exact_mod_cast this
  change IsQuantile (q / 100) l ((sortedList l).getD ⌊x⌋₊ 0 + (x - ⌊x⌋₊) *
    ((sortedList l).getD (min (⌊x⌋₊ + 1) (l.length - 1)) 0 - (sortedList l).getD ⌊x⌋₊ 0))
  rcases hfl.lt_or_eq with h | h
  · have h4 : ⌊x⌋₊ + 1 < l.length := by
      have : (⌊x⌋₊ : ℝ) + 1 < l.length := by linarith
      exact_mod_cast this
    rw [min_eq_left (by omega)]
    have hm := sortedList_mono l (i := ⌊x⌋₊) (j := ⌊x⌋₊ + 1) (by omega) h4
    refine quantile_of_between l _ _ ⌊x⌋₊ hi hfl hfu ?_ (Or.inr ⟨h, h4, ?_⟩)
    · have : 0 ≤ (x - ⌊x⌋₊) * ((sortedList l).getD (⌊x⌋₊ + 1) 0 - (sortedList l).getD ⌊x⌋₊ 0) :=
        mul_nonneg (by linarith) (by linarith)
      linarith
    · nlinarith
  · refine quantile_of_between l _ _ ⌊x⌋₊ hi hfl hfu ?_ (Or.inl ⟨h.symm, ?_⟩)
    · rw [h]; simp
    · rw [h]; simp

/-- The median is the 50th percentile. -/
lemma median_eq_percentile (hl : l ≠ []) : npMedian l = npPercentile l 50 := by
  have hn : 0 < l.length := List.length_pos_iff.2 hl
  have hcast : ((l.length - 1 : ℕ) : ℝ) = (l.length : ℝ) - 1 := by
    rw [Nat.cast_sub hn, Nat.cast_one]
  unfold npMedian npPercentile
  dsimp only
  rw [hcast]
  rcases Nat.even_or_odd' l.length with ⟨k, hk | hk⟩
  · rw [if_neg (by omega)]
    have hv : (50 : ℝ) / 100 * ((l.length : ℝ) - 1) = ((k - 1 : ℕ) : ℝ) + 1 / 2 := by
      rw [hk, Nat.cast_sub (by omega)]; push_cast; ring
    have hf : ⌊((k - 1 : ℕ) : ℝ) + 1 / 2⌋₊ = k - 1 := by
      rw [Nat.floor_eq_iff (by positivity)]
      constructor <;> linarith
    rw [hv, hf, show l.length / 2 = k by omega, show min (k - 1 + 1) (l.length - 1) = k by omega]
    ring
  · rw [if_pos (by omega)]
    have hv : (50 : ℝ) / 100 * ((l.length : ℝ) - 1) = (k : ℝ) := by
      rw [hk]; push_cast; ring
    rw [hv, Nat.floor_natCast, show l.length / 2 = k by omega]
    ring

/-- Percentiles are monotone. -/
lemma percentile_mono (hl : l ≠ []) (q r : ℝ) (h0 : 0 ≤ q) (hqr : q ≤ r) (h1 : r < 100) :
    npPercentile l q ≤ npPercentile l r := by
  have hn : 0 < l.length := List.length_pos_iff.2 hl
  have hcast : ((l.length - 1 : ℕ) : ℝ) = (l.length : ℝ) - 1 := by
    rw [Nat.cast_sub hn, Nat.cast_one]
  have hn1 : (0 : ℝ) ≤ (l.length : ℝ) - 1 := by
    have : (1 : ℝ) ≤ l.length := by exact_mod_cast hn
    linarith
  unfold npPercentile
  dsimp only
  rw [hcast]
  set x := q / 100 * ((l.length : ℝ) - 1) with hx
  set y := r / 100 * ((l.length : ℝ) - 1) with hy
  have hx0 : 0 ≤ x := mul_nonneg (by positivity) hn1
  have hxy : x ≤ y := mul_le_mul_of_nonneg_right (by linarith) hn1
  have hyn : y ≤ (l.length : ℝ) - 1 := by
    rw [hy]
    have : r / 100 ≤ 1 := by rw [div_le_one (by norm_num)]; exact h1.le
    nlinarith
  have hyi : ⌊y⌋₊ < l.length := by
    have h := Nat.floor_le (hx0.trans hxy)
    have : (⌊y⌋₊ : ℝ) < l.length := by linarith
    exact_mod_cast this
  have hfx := Nat.floor_le hx0
  have hfx' := Nat.lt_floor_add_one x
  have hfy := Nat.floor_le (hx0.trans hxy)
  have hle := Nat.floor_le_floor hxy
  change (sortedList l).getD ⌊x⌋₊ 0 + (x - ⌊x⌋₊) * ((sortedList l).getD (min (⌊x⌋₊ + 1) (l.length - 1)) 0
      - (sortedList l).getD ⌊x⌋₊ 0) ≤ (sortedList l).getD ⌊y⌋₊ 0 + (y - ⌊y⌋₊) *
      ((sortedList l).getD (min (⌊y⌋₊ + 1) (l.length - 1)) 0 - (sortedList l).getD ⌊y⌋₊ 0)
  have hmy := sortedList_mono l (i := ⌊y⌋₊) (j := min (⌊y⌋₊ + 1) (l.length - 1)) (by omega) (by omega)
  have hmx := sortedList_mono l (i := ⌊x⌋₊) (j := min (⌊x⌋₊ + 1) (l.length - 1)) (by omega) (by omega)
  rcases hle.lt_or_eq with h | h
  · have hm := sortedList_mono l (i := min (⌊x⌋₊ + 1) (l.length - 1)) (j := ⌊y⌋₊) (by omega) (by omega)
    have h2 : 0 ≤ (y - ⌊y⌋₊) * ((sortedList l).getD (min (⌊y⌋₊ + 1) (l.length - 1)) 0
      - (sortedList l).getD ⌊y⌋₊ 0) := mul_nonneg (by linarith) (by linarith)
    nlinarith
  · rw [h]
    rw [h] at hmx
    have : (x - ⌊y⌋₊) * ((sortedList l).getD (min (⌊y⌋₊ + 1) (l.length - 1)) 0
      - (sortedList l).getD ⌊y⌋₊ 0) ≤ (y - ⌊y⌋₊) * ((sortedList l).getD (min (⌊y⌋₊ + 1) (l.length - 1)) 0
      - (sortedList l).getD ⌊y⌋₊ 0) := mul_le_mul_of_nonneg_right (by linarith) (by linarith)
    linarith

end

end FastVPINNs
