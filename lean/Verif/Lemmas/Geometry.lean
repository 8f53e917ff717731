import Verif.Model.Geometry
import Verif.Spec.Plane
import Verif.Spec.Rectangle
import Mathlib.Analysis.SpecialFunctions.Trigonometric.Basic
import Mathlib.Analysis.Convex.Combination
import Mathlib.Analysis.Convex.Topology
import Mathlib.Topology.Order.DenselyOrdered
import Mathlib.Tactic.LinearCombination
import Mathlib.Tactic.FieldSimp
import Mathlib.Tactic.FinCases

/-! # Auxiliary lemmas: angles, sorting, grids -/

namespace FastVPINNs

open Spec

/-! ### Angles -/

/-- The cross product of two plane vectors in terms of their angles. -/
lemma cross_eq_sin (z w : ℂ) :
    z.re * w.im - z.im * w.re = ‖z‖ * ‖w‖ * Real.sin (w.arg - z.arg) := by
  rw [Real.sin_sub]
  have h1 := Complex.norm_mul_cos_arg z
  have h2 := Complex.norm_mul_sin_arg z
  have h3 := Complex.norm_mul_cos_arg w
  have h4 := Complex.norm_mul_sin_arg w
  rw [← h1, ← h2, ← h3, ← h4]
  ring

/-- A left turn seen from the origin: the angle grows by less than a half turn, modulo a full turn. -/
lemma arg_diff_of_cross_pos (z w : ℂ) (h : 0 < z.re * w.im - z.im * w.re) :
    (0 < w.arg - z.arg ∧ w.arg - z.arg < Real.pi) ∨ w.arg - z.arg < -Real.pi := by
  rw [cross_eq_sin] at h
  have hs : 0 < Real.sin (w.arg - z.arg) := by
    by_contra hn
    push Not at hn
    have : 0 ≤ ‖z‖ * ‖w‖ := by positivity
    nlinarith [mul_nonneg this (neg_nonneg.2 hn)]
  have hz1 := Complex.neg_pi_lt_arg z
  have hz2 := Complex.arg_le_pi z
  have hw1 := Complex.neg_pi_lt_arg w
  have hw2 := Complex.arg_le_pi w
  set d := w.arg - z.arg with hd
  have hpi := Real.pi_pos
  by_cases h0 : 0 < d
  · left
    refine ⟨h0, ?_⟩
    by_contra hn
    push Not at hn
    have : Real.sin d ≤ 0 := by
      have h5 : 0 ≤ Real.sin (d - Real.pi) :=
        Real.sin_nonneg_of_nonneg_of_le_pi (by linarith) (by linarith)
      rw [Real.sin_sub_pi] at h5
      linarith
    linarith
  · right
    push Not at h0
    by_contra hn
    push Not at hn
    have : Real.sin d ≤ 0 := Real.sin_nonpos_of_nonpos_of_neg_pi_le h0 hn
    linarith

/-! ### Sorting -/

/-- A strictly increasing rearrangement is the one found by `argsort`. -/
lemma argsort_eq {n : ℕ} (a : Fin n → ℝ) (σ : Equiv.Perm (Fin n)) (h : StrictMono (a ∘ σ)) :
    argsort a = σ := by
  have hinj : Function.Injective a := by
    have := h.injective
    intro x y hxy
    have h1 : (a ∘ σ) (σ.symm x) = (a ∘ σ) (σ.symm y) := by simp [hxy]
    exact σ.symm.injective (this h1)
  have h2 : a ∘ σ = a ∘ Tuple.sort a := Tuple.unique_monotone h.monotone (Tuple.monotone_sort a)
  funext k
  exact (hinj (congrFun h2 k)).symm

/-- The angles used by `sortCell`. -/
noncomputable def cellAngle (cell : Quad) (k : Fin 4) : ℝ :=
  arctan2 ((cell k).2 - (∑ k, (cell k).2) / 4) ((cell k).1 - (∑ k, (cell k).1) / 4)

lemma sortCell_eq (cell : Quad) : sortCell cell = cell ∘ argsort (cellAngle cell) := rfl

lemma sortCell_perm (cell : Quad) : ∃ τ : Equiv.Perm (Fin 4), sortCell cell = cell ∘ τ :=
  ⟨Tuple.sort (cellAngle cell), rfl⟩

lemma cellAngle_comp (cell : Quad) (σ : Equiv.Perm (Fin 4)) :
    cellAngle (cell ∘ σ) = cellAngle cell ∘ σ := by
  funext k
  simp only [cellAngle, Function.comp]
  rw [Equiv.sum_comp σ fun k => (cell k).2, Equiv.sum_comp σ fun k => (cell k).1]

/-- Consecutive vertices of a convex quadrilateral turn left around the centroid. -/
lemma centroid_cross {c : Quad} (hc : ConvexCCW c) (k : Fin 4) :
    0 < ((c k).1 - (∑ k, (c k).1) / 4) * ((c (k + 1)).2 - (∑ k, (c k).2) / 4)
      - ((c k).2 - (∑ k, (c k).2) / 4) * ((c (k + 1)).1 - (∑ k, (c k).1) / 4) := by
  obtain ⟨t0, t1, t2, t3⟩ := hc
  simp only [cross] at t0 t1 t2 t3
  simp only [Fin.sum_univ_four]
  fin_cases k <;> simp only [Fin.zero_eta, Fin.mk_one, Fin.reduceFinMk, Fin.reduceAdd, zero_add] <;>
    nlinarith

lemma angle_step {c : Quad} (hc : ConvexCCW c) (k : Fin 4) :
    (0 < cellAngle c (k + 1) - cellAngle c k ∧ cellAngle c (k + 1) - cellAngle c k < Real.pi) ∨
      cellAngle c (k + 1) - cellAngle c k < -Real.pi := by
  have h := centroid_cross hc k
  exact arg_diff_of_cross_pos ⟨_, _⟩ ⟨_, _⟩ h

lemma strictMono_four {a : Fin 4 → ℝ} (h0 : a 0 < a 1) (h1 : a 1 < a 2) (h2 : a 2 < a 3) :
    StrictMono a := by
  rw [Fin.strictMono_iff_lt_succ]
  intro i
  fin_cases i
  · exact h0
  · exact h1
  · exact h2

/-- Around the centroid of a convex quadrilateral listed anticlockwise the angle increases all the
way round except for one wrap-around. -/
lemma exists_rotation {c : Quad} (hc : ConvexCCW c) :
    ∃ r : Fin 4, StrictMono (cellAngle c ∘ fun k => k + r) := by
  have h0 := angle_step hc 0
  have h1 := angle_step hc 1
  have h2 := angle_step hc 2
  have h3 := angle_step hc 3
  simp only [Fin.reduceAdd, zero_add] at h0 h1 h2 h3
  have hpi := Real.pi_pos
  rcases h0 with h0 | h0 <;> rcases h1 with h1 | h1 <;> rcases h2 with h2 | h2 <;>
    rcases h3 with h3 | h3 <;> try (exfalso; linarith [h0, h1, h2, h3])
  all_goals first
    | exact ⟨0, strictMono_four (by simp; linarith) (by simp; linarith) (by simp; linarith)⟩
    | exact ⟨1, strictMono_four (by simp; linarith) (by simp; linarith) (by simp; linarith)⟩
    | exact ⟨2, strictMono_four (by simp; linarith) (by simp; linarith) (by simp; linarith)⟩
    | exact ⟨3, strictMono_four (by simp; linarith) (by simp; linarith) (by simp; linarith)⟩

lemma convexCCW_rotate {c : Quad} (hc : ConvexCCW c) (r : Fin 4) :
    ConvexCCW (c ∘ fun k => k + r) := by
  obtain ⟨t0, t1, t2, t3⟩ := hc
  fin_cases r <;> constructor <;> simpa using by assumption

/-- A convex quadrilateral listed in any order is sorted into an anticlockwise listing. -/
lemma sortCell_convex {c : Quad} (σ : Equiv.Perm (Fin 4)) (hc : ConvexCCW (c ∘ σ)) :
    ConvexCCW (sortCell c) := by
  obtain ⟨r, hr⟩ := exists_rotation hc
  have h1 : StrictMono (cellAngle c ∘ ((Equiv.addRight r).trans σ)) := by
    rw [cellAngle_comp] at hr
    exact hr
  rw [sortCell_eq, argsort_eq _ _ h1]
  exact convexCCW_rotate hc r

/-! ### Rectangles -/

lemma rectangle_convex {a b c d : ℝ} (h : a < b) (h' : c < d) : ConvexCCW (rectangle a b c d) := by
  have h1 := sub_pos.2 h
  have h2 := sub_pos.2 h'
  constructor <;> simp [rectangle, cross] <;> nlinarith [mul_pos h1 h2]

lemma cellAngle_neg {c : Quad} {k : Fin 4} (h : (c k).2 < (∑ k, (c k).2) / 4) :
    cellAngle c k < 0 := by
  rw [cellAngle, arctan2, Complex.arg_neg_iff]
  simpa using h

lemma cellAngle_nonneg {c : Quad} {k : Fin 4} (h : (∑ k, (c k).2) / 4 ≤ (c k).2) :
    0 ≤ cellAngle c k := by
  rw [cellAngle, arctan2, Complex.arg_nonneg_iff]
  simpa using h

/-- The angular sort leaves a rectangle listed from its bottom-left corner alone. -/
lemma sortCell_rectangle {a b c d : ℝ} (h : a < b) (h' : c < d) :
    sortCell (rectangle a b c d) = rectangle a b c d := by
  have hc := rectangle_convex h h'
  have h0 := angle_step hc 0
  have h1 := angle_step hc 1
  have h2 := angle_step hc 2
  simp only [Fin.reduceAdd, zero_add] at h0 h1 h2
  have a0 : cellAngle (rectangle a b c d) 0 < 0 := cellAngle_neg (by
    simp [rectangle, Fin.sum_univ_four]; linarith)
  have a1 : cellAngle (rectangle a b c d) 1 < 0 := cellAngle_neg (by
    simp [rectangle, Fin.sum_univ_four]; linarith)
  have a2 : 0 ≤ cellAngle (rectangle a b c d) 2 := cellAngle_nonneg (by
    simp [rectangle, Fin.sum_univ_four]; linarith)
  have a3 : 0 ≤ cellAngle (rectangle a b c d) 3 := cellAngle_nonneg (by
    simp [rectangle, Fin.sum_univ_four]; linarith)
  have l0 : -Real.pi < cellAngle (rectangle a b c d) 1 := Complex.neg_pi_lt_arg _
  have l2 : cellAngle (rectangle a b c d) 2 ≤ Real.pi := Complex.arg_le_pi _
  have hm : StrictMono (cellAngle (rectangle a b c d) ∘ (1 : Equiv.Perm (Fin 4))) := by
    apply strictMono_four
    · rcases h0 with h0 | h0
      · simpa using h0.1
      · simp; linarith
    · simp; linarith
    · rcases h2 with h2 | h2
      · simpa using h2.1
      · simp; linarith
  rw [sortCell_eq, argsort_eq _ _ hm]
  rfl

lemma range_rectangle (a b c d : ℝ) :
    Set.range (rectangle a b c d) = ({a, b} : Set ℝ) ×ˢ ({c, d} : Set ℝ) := by
  ext ⟨x, y⟩
  simp only [Set.mem_range, Set.mem_prod, Set.mem_insert_iff, Set.mem_singleton_iff]
  constructor
  · rintro ⟨k, hk⟩
    fin_cases k <;> simp [rectangle] at hk <;> simp [← hk.1, ← hk.2]
  · rintro ⟨rfl | rfl, rfl | rfl⟩
    · exact ⟨0, rfl⟩
    · exact ⟨3, rfl⟩
    · exact ⟨1, rfl⟩
    · exact ⟨2, rfl⟩

lemma hull_rectangle {a b c d : ℝ} (h : a ≤ b) (h' : c ≤ d) :
    convexHull ℝ (Set.range (rectangle a b c d)) = Set.Icc a b ×ˢ Set.Icc c d := by
  rw [range_rectangle, convexHull_prod, convexHull_pair, convexHull_pair, segment_eq_Icc h,
    segment_eq_Icc h']

/-! ### Grid lines -/

lemma gridLine_zero (a b : ℝ) (n : ℕ) : gridLine a b n 0 = a := by simp [gridLine]

lemma gridLine_last (a b : ℝ) {n : ℕ} (hn : 0 < n) : gridLine a b n n = b := by
  have : (n : ℝ) ≠ 0 := by positivity
  simp [gridLine, this]

lemma gridLine_lt {a b : ℝ} (h : a < b) {n i j : ℕ} (hn : 0 < n) (hij : i < j) :
    gridLine a b n i < gridLine a b n j := by
  have h1 : (0 : ℝ) < n := by exact_mod_cast hn
  have h2 : (i : ℝ) < j := by exact_mod_cast hij
  have h3 : (i : ℝ) / n < j / n := div_lt_div_of_pos_right h2 h1
  simp only [gridLine]
  nlinarith [mul_lt_mul_of_pos_left h3 (sub_pos.2 h)]

lemma gridLine_mono {a b : ℝ} (h : a ≤ b) {n i j : ℕ} (hij : i ≤ j) :
    gridLine a b n i ≤ gridLine a b n j := by
  have h2 : (i : ℝ) ≤ j := by exact_mod_cast hij
  have h3 : (i : ℝ) / n ≤ j / n := by gcongr
  simp only [gridLine]
  nlinarith [mul_le_mul_of_nonneg_left h3 (sub_nonneg.2 h)]

lemma linspace_eq_gridLine (a b : ℝ) (n : ℕ) (i : Fin (n + 1)) :
    linspace a b (n + 1) i = gridLine a b n i.val := by
  simp only [linspace, gridLine]
  push_cast
  ring

/-- Every point of `[a, b]` lies between two consecutive grid lines. -/
lemma exists_grid_interval {a b : ℝ} {n : ℕ} (hn : 0 < n) {s : ℝ}
    (hs : s ∈ Set.Icc a b) :
    ∃ i < n, s ∈ Set.Icc (gridLine a b n i) (gridLine a b n (i + 1)) := by
  classical
  have hex : ∃ i, s ≤ gridLine a b n (i + 1) :=
    ⟨n - 1, by rw [Nat.sub_add_cancel hn, gridLine_last a b hn]; exact hs.2⟩
  refine ⟨Nat.find hex, ?_, ?_, Nat.find_spec hex⟩
  · have : Nat.find hex ≤ n - 1 := Nat.find_le (by
      rw [Nat.sub_add_cancel hn, gridLine_last a b hn]; exact hs.2)
    omega
  · rcases Nat.eq_zero_or_pos (Nat.find hex) with h0 | h0
    · rw [h0, gridLine_zero]; exact hs.1
    · have := Nat.find_min hex (m := Nat.find hex - 1) (by omega)
      push Not at this
      rw [Nat.sub_add_cancel h0] at this
      exact this.le

/-! ### The list of cells -/

lemma flatMap_getElem? {α β γ : Type*} (l : List α) (m : List β) (f : α → β → γ) (i j : ℕ)
    (hj : j < m.length) :
    (l.flatMap fun a => m.map (f a))[i * m.length + j]? = l[i]?.bind fun a => m[j]?.map (f a) := by
  induction l generalizing i with
  | nil => simp
  | cons a l ih =>
    cases i with
    | zero =>
      simp [List.getElem?_append, hj]
    | succ i =>
      have : (i + 1) * m.length + j = m.length + (i * m.length + j) := by ring
      rw [this]
      simp only [List.flatMap_cons, List.getElem?_cons_succ]
      rw [List.getElem?_append_right (by simp), List.length_map, Nat.add_sub_cancel_left, ih]

end FastVPINNs
