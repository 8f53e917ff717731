import Verif.Props.Constructor
import Verif.Props.Geometry

/-! # C31, C32: quadrature weights and points of the cells -/

namespace FastVPINNs

open Spec Polynomial

/-! ### Facts about the rule of a space -/

lemma rule_facts {ext : QuadRoutines} {Q : ℤ} {qt : String} {r : QuadRule2D}
    (h : assignQuadratureRules ext "quadrilateral" Q qt = .ok r) (hr : RoutinesOK ext Q qt) :
    ∃ (n : ℕ) (x w : Fin n → ℝ), Q = n ∧ 3 ≤ n ∧ IsTensorRule x w r ∧
      ExactUpTo ⟨n, x, w⟩ (2 * n - 3) ∧ (qt = "gauss-legendre" → ExactUpTo ⟨n, x, w⟩ (2 * n - 1)) ∧
      (∀ i, 0 < w i) ∧ ∀ i, -1 ≤ x i ∧ x i ≤ 1 := by
  obtain ⟨-, q1, -, q3⟩ := (C12_quadrature_accepted _ _ _ _).1.1 ⟨_, h⟩
  rcases q3 with rfl | rfl
  · obtain ⟨-, n, hn, x, w, hT, hl, -⟩ := C22_tensor_order ext Q _ r h
    have hQ : Q.toNat = n + 2 := by omega
    have hext := hr.1 rfl
    rw [hQ] at hext
    obtain ⟨rfl, rfl⟩ := hl rfl
    exact ⟨n + 2, _, _, by rw [hn]; push_cast; ring, by omega, hT,
      fun p hp => hext.exact p (by omega), fun _ => hext.exact, hext.pos,
      fun i => ⟨(hext.mem i).1.le, (hext.mem i).2.le⟩⟩
  · obtain ⟨n, hn, x, w, hT, hmono, h0, h1, hpos, -, hex, -⟩ := C24_gauss_lobatto ext Q r h (hr.2 rfl)
    refine ⟨n + 1, x, w, by rw [hn]; push_cast; ring, by omega, hT, hex, fun h => absurd h (by decide),
      hpos, fun i => ⟨?_, ?_⟩⟩
    · rw [← h0]; exact hmono.monotone (Fin.zero_le i)
    · rw [← h1]; exact hmono.monotone (Fin.le_last i)

lemma rule_mem {n : ℕ} {x w : Fin n → ℝ} {r : QuadRule2D} (hT : IsTensorRule x w r)
    (hx : ∀ i, -1 ≤ x i ∧ x i ≤ 1) (k : Fin r.num) : (r.xi k, r.eta k) ∈ refSquare := by
  obtain ⟨i, j, hk⟩ := tensor_index hT k
  rw [hT.xi i j k hk, hT.eta i j k hk]
  exact ⟨(hx i).1, (hx i).2, (hx j).1, (hx j).2⟩

lemma integral_one_add (a : ℝ) : ∫ s in (-1 : ℝ)..1, (1 + C a * X : ℝ[X]).eval s = 2 := by
  simp only [eval_add, eval_one, eval_mul, eval_C, eval_X]
  rw [intervalIntegral.integral_add (by simp) (by apply Continuous.intervalIntegrable; fun_prop),
    intervalIntegral.integral_const_mul, integral_id]
  norm_num

/-- `∑ w (1 + aξ)(1 + bη) = 4`. -/
lemma rule_bilinear {n : ℕ} {x w : Fin n → ℝ} {r : QuadRule2D} (hT : IsTensorRule x w r) {d : ℕ}
    (hd : 1 ≤ d) (hx : ExactUpTo ⟨n, x, w⟩ d) (a b : ℝ) :
    ∑ k, r.weights k * ((1 + a * r.xi k) * (1 + b * r.eta k)) = 4 := by
  have hdeg : ∀ a : ℝ, (1 + C a * X : ℝ[X]).natDegree ≤ d := by
    intro a
    refine le_trans ?_ hd
    refine (natDegree_add_le _ _).trans (max_le (by simp) ?_)
    exact natDegree_mul_le.trans (by simp)
  have := (C23_exact_2d x w r d hT hx).2.1 (1 + C a * X) (1 + C b * X) (hdeg a) (hdeg b)
  rw [integral_one_add, integral_one_add] at this
  simp only [eval_add, eval_one, eval_mul, eval_C, eval_X] at this
  rw [this]; norm_num

lemma cross_sum (c : Quad) : cross (c 3) (c 0) (c 1) + cross (c 0) (c 1) (c 2)
    + cross (c 1) (c 2) (c 3) + cross (c 2) (c 3) (c 0) = 4 * polygonArea c := by
  simp only [cross, polygonArea, Fin.sum_univ_four, Fin.reduceAdd, zero_add]
  ring

section
variable {F V : Type} (ext : QuadRoutines) (mp : List (ℝ × ℝ)) (cells : List Quad) (bd : BdDict)
  (s : FESettings) (dict : List (ℤ × (ℝ → ℝ → V))) (f : F) (plot : Bool) {nq : ℕ}
  (S : Fespace2D F V (s.feOrder.toNat ^ 2) nq)

/-- **C31.**  Bilinear transformation, strictly convex cell listed anticlockwise: the weights reported
for the cell are positive and add up to its area.  Affine transformation, any cell: they add up to the
area of the parallelogram spanned at vertex 0. -/
theorem C31_weights (h : fespace2D ext mp cells bd s dict f plot = .ok ⟨nq, S⟩)
    (hr : RoutinesOK ext s.quadOrder s.quadType) (k : ℕ) (c : Quad) (hk : cells[k]? = some c) :
    ∃ w, S.getQuadratureWeights k = .ok w ∧
      (s.feTransformationType = "bilinear" → ConvexCCW c →
        (∀ p, 0 < w p) ∧ ∑ p, w p = polygonArea c) ∧
      (s.feTransformationType = "affine" →
        (∀ p, 0 < w p) ∧ ∑ p, w p = |cross (c 0) (c 1) (c 3)|) := by
  obtain ⟨hlen, B, wt, xi, eta, hB, hR, hcell⟩ := fespace_cell h
  obtain ⟨T, fc, hT, hfc, -, facts⟩ := hcell k c hk
  have hfc := (cellAt_nat S k fc).2 hfc
  obtain ⟨n, x, w, hQ, hn, hten, hex, -, hpos, hx⟩ := rule_facts hR hr
  have hwpos := (C23_exact_2d x w _ _ hten hex).2.2.2 hpos
  have hsum := (C23_exact_2d x w _ _ hten hex).2.2.1
  refine ⟨fc.mult, by simp [Fespace2D.getQuadratureWeights, hfc], ?_, ?_⟩
  · intro hb hc
    obtain ⟨h1, -⟩ | ⟨-, rfl⟩ := assignFe_ok hT
    · rw [hb] at h1; exact absurd h1 (by decide)
    have hjac : ∀ p, (quadBilinear c).jacobian (xi p) (eta p) = bilinDet c (xi p) (eta p) := fun p =>
      abs_of_pos (bilinDet_pos hc (rule_mem hten hx p))
    refine ⟨fun p => ?_, ?_⟩
    · rw [facts.mult, hjac]
      exact mul_pos (hwpos p) (bilinDet_pos hc (rule_mem hten hx p))
    · have e : ∀ p, 16 * fc.mult p
          = cross (c 3) (c 0) (c 1) * (wt p * ((1 + (-1) * xi p) * (1 + (-1) * eta p)))
          + cross (c 0) (c 1) (c 2) * (wt p * ((1 + 1 * xi p) * (1 + (-1) * eta p)))
          + cross (c 1) (c 2) (c 3) * (wt p * ((1 + 1 * xi p) * (1 + 1 * eta p)))
          + cross (c 2) (c 3) (c 0) * (wt p * ((1 + (-1) * xi p) * (1 + 1 * eta p))) := by
        intro p
        rw [facts.mult, hjac]
        linear_combination wt p * bilinDet_eq c (xi p) (eta p)
      have hS : 16 * ∑ p, fc.mult p = 16 * polygonArea c := by
        rw [Finset.mul_sum, Finset.sum_congr rfl fun p _ => e p]
        simp only [Finset.sum_add_distrib, ← Finset.mul_sum]
        have hb := fun a b => rule_bilinear hten (by omega) hex a b
        simp only at hb
        rw [hb, hb, hb, hb]
        linear_combination 4 * cross_sum c
      linarith
  · intro ha
    obtain ⟨-, rfl⟩ | ⟨h1, -⟩ := assignFe_ok hT
    swap
    · rw [ha] at h1; exact absurd h1 (by decide)
    have hjac : ∀ p, (quadAffin c).jacobian (xi p) (eta p) = |QuadAffin.detjk c| := fun p => rfl
    have hdet : 0 < |QuadAffin.detjk c| := by
      have hd : cross (c 0) (c 1) (c 3) ≠ 0 := by
        obtain ⟨-, -, -, -, -, -, htr, -⟩ := fespace_conditions ext mp cells bd s dict f h
        rcases htr with h1 | ⟨-, h2⟩
        · rw [ha] at h1; exact absurd h1 (by decide)
        · exact h2 c (List.mem_of_getElem? hk)
      rw [abs_pos]
      intro h0
      apply hd
      rw [← detjk_eq_cross, h0, mul_zero]
    refine ⟨fun p => ?_, ?_⟩
    · rw [facts.mult, hjac]
      exact mul_pos (hwpos p) hdet
    · simp only [facts.mult, hjac]
      rw [← Finset.sum_mul]
      simp only at hsum
      rw [hsum, ← detjk_eq_cross, abs_mul]
      norm_num

end

/-- **C31** (internal meshes).  The weights of all cells add up to the area of the domain, with either
transformation. -/
theorem C31_internal {F V : Type} (ext : QuadRoutines) (mp : List (ℝ × ℝ)) (bd : BdDict)
    (s : FESettings) (dict : List (ℤ × (ℝ → ℝ → V))) (f : F) (plot : Bool) {nq : ℕ}
    (S : Fespace2D F V (s.feOrder.toNat ^ 2) nq) (g : Geometry2D) (x y : ℝ × ℝ) (hx : x.1 < x.2)
    (hy : y.1 < y.2) (nx ny nb : ℕ) (smp : Fin 4 → Fin (nb / 4) → ℝ)
    (h : fespace2D ext mp (generateQuadMeshInternal g x y nx ny nb smp).cells bd s dict f plot
      = .ok ⟨nq, S⟩) (hr : RoutinesOK ext s.quadOrder s.quadType) :
    ∃ w : Fin (nx * ny) → Fin nq → ℝ, (∀ k : Fin (nx * ny), S.getQuadratureWeights k = .ok (w k)) ∧
      ∑ k, ∑ p, w k p = (x.2 - x.1) * (y.2 - y.1) := by
  have hlen := (C02_internal_cells g x y hx hy nx ny nb smp).1
  have hpos : 0 < nx * ny := by
    have := (fespace_ok h).2.1
    rw [← hlen]
    exact List.length_pos_of_ne_nil this
  have hnx : 0 < nx := Nat.pos_of_mul_pos_right hpos
  have hny : 0 < ny := Nat.pos_of_mul_pos_left hpos
  have hone : ∀ k : Fin (nx * ny), ∃ w, S.getQuadratureWeights k = .ok w ∧
      ∑ p, w p = (x.2 - x.1) * (y.2 - y.1) / (nx * ny) := by
    intro k
    obtain ⟨hi, hj, hkm⟩ := mem_internal_cells g x y hx hy nx ny nb smp k k.isLt
    generalize k.val / ny = i at hi hkm
    generalize k.val % ny = j at hj hkm
    obtain ⟨w, hw, hb, ha⟩ := C31_weights ext mp _ bd s dict f plot S h hr k _ hkm
    refine ⟨w, hw, ?_⟩
    obtain ⟨-, B, wt, xi, eta, -, -, hcell⟩ := fespace_cell h
    obtain ⟨T, -, hT, -⟩ := hcell k _ hkm
    have hxi := gridLine_lt hx hnx (Nat.lt_succ_self i)
    have hyj := gridLine_lt hy hny (Nat.lt_succ_self j)
    simp only [Nat.succ_eq_add_one] at hxi hyj
    have harea : (gridLine x.1 x.2 nx (i + 1) - gridLine x.1 x.2 nx i)
        * (gridLine y.1 y.2 ny (j + 1) - gridLine y.1 y.2 ny j)
          = (x.2 - x.1) * (y.2 - y.1) / (nx * ny) := by
      have h1 : (nx : ℝ) ≠ 0 := by positivity
      have h2 : (ny : ℝ) ≠ 0 := by positivity
      simp only [gridLine]
      push_cast
      field_simp
      ring
    rw [← harea]
    obtain ⟨ht, -⟩ | ⟨ht, -⟩ := assignFe_ok hT
    · rw [(ha ht).2]
      simp only [gridCell, rectangle, cross]
      simp
      rw [abs_of_pos (sub_pos.2 hxi), abs_of_pos (sub_pos.2 hyj)]
    · rw [(hb ht ?_).2]
      · simp only [polygonArea, gridCell, rectangle, Fin.sum_univ_four, Fin.reduceAdd, zero_add]
        simp
        ring
      · have hp := mul_pos (sub_pos.2 hxi) (sub_pos.2 hyj)
        constructor <;> simp [gridCell, rectangle, cross] <;> nlinarith
  choose w hw hs using hone
  refine ⟨w, hw, ?_⟩
  rw [Finset.sum_congr rfl fun k _ => hs k]
  have h1 : (nx : ℝ) ≠ 0 := by positivity
  have h2 : (ny : ℝ) ≠ 0 := by positivity
  simp only [Finset.sum_const, Finset.card_univ, Fintype.card_fin, nsmul_eq_mul]
  push_cast
  field_simp

/-- **C32.**  The quadrature points reported for a cell are in the convex hull of its vertices (bilinear
transformation, any cell; affine transformation, parallelograms). -/
theorem C32_points {F V : Type} (ext : QuadRoutines) (mp : List (ℝ × ℝ)) (cells : List Quad) (bd : BdDict)
    (s : FESettings) (dict : List (ℤ × (ℝ → ℝ → V))) (f : F) (plot : Bool) {nq : ℕ}
    (S : Fespace2D F V (s.feOrder.toNat ^ 2) nq)
    (h : fespace2D ext mp cells bd s dict f plot = .ok ⟨nq, S⟩)
    (hr : RoutinesOK ext s.quadOrder s.quadType) (k : ℕ) (c : Quad) (hk : cells[k]? = some c)
    (hc : s.feTransformationType = "affine" → IsParallelogram c) :
    ∃ x, S.getQuadratureActualCoordinates k = .ok x ∧ ∀ p, x p ∈ convexHull ℝ (Set.range c) := by
  obtain ⟨hlen, B, wt, xi, eta, hB, hR, hcell⟩ := fespace_cell h
  obtain ⟨T, fc, hT, hfc, -, facts⟩ := hcell k c hk
  have hfc := (cellAt_nat S k fc).2 hfc
  obtain ⟨n, x, w, hQ, hn, hten, hex, -, hpos, hx⟩ := rule_facts hR hr
  refine ⟨fc.quadActualCoordinates, by simp [Fespace2D.getQuadratureActualCoordinates, hfc], fun p => ?_⟩
  have hmem := bilin_mem_hull c _ (rule_mem hten hx p)
  rw [facts.point]
  obtain ⟨ht, hTa⟩ | ⟨-, rfl⟩ := assignFe_ok hT
  · rw [ht] at hT
    have := ((C29_affine_vs_bilinear c T (quadBilinear c) hT (by simp [assignFeTransformation])).1
      (hc ht)).1 (xi p) (eta p)
    rw [this.1]
    exact hmem
  · exact hmem

/-- **C32** (internal meshes).  With either transformation the points reported for cell `i * ny + j` are
in the closed grid rectangle in column `i` and row `j`. -/
theorem C32_internal {F V : Type} (ext : QuadRoutines) (mp : List (ℝ × ℝ)) (bd : BdDict)
    (s : FESettings) (dict : List (ℤ × (ℝ → ℝ → V))) (f : F) (plot : Bool) {nq : ℕ}
    (S : Fespace2D F V (s.feOrder.toNat ^ 2) nq) (g : Geometry2D) (x y : ℝ × ℝ) (hx : x.1 < x.2)
    (hy : y.1 < y.2) (nx ny nb : ℕ) (smp : Fin 4 → Fin (nb / 4) → ℝ)
    (h : fespace2D ext mp (generateQuadMeshInternal g x y nx ny nb smp).cells bd s dict f plot
      = .ok ⟨nq, S⟩) (hr : RoutinesOK ext s.quadOrder s.quadType) (i j : ℕ) (hi : i < nx) (hj : j < ny) :
    ∃ pts, S.getQuadratureActualCoordinates ((i * ny + j : ℕ) : ℤ) = .ok pts ∧
      ∀ p, pts p ∈ Set.Icc (gridLine x.1 x.2 nx i) (gridLine x.1 x.2 nx (i + 1)) ×ˢ
        Set.Icc (gridLine y.1 y.2 ny j) (gridLine y.1 y.2 ny (j + 1)) := by
  have hc := (C02_internal_cells g x y hx hy nx ny nb smp).2 i hi j hj
  obtain ⟨pts, h1, h2⟩ := C32_points ext mp _ bd s dict f plot S h hr _ _ hc fun _ => by
    simp [IsParallelogram, gridCell, rectangle]
  refine ⟨pts, h1, fun p => ?_⟩
  rw [← hull_rectangle (gridLine_mono hx.le (by omega)) (gridLine_mono hy.le (by omega))]
  exact h2 p

/-- C31 and C32 on the kite of the demo space: there are routines that meet the hypothesis; the weights
add up to its area. -/
example : ∃ ext, RoutinesOK ext 5 "gauss-legendre" ∧ ∃ nq S,
    fespace2D ext [(0, 0), (1, 1)] demoCells demoBoundary (demoSettings "bilinear") demoDict () false
      = .ok ⟨nq, S⟩ ∧ ∃ w x, S.getQuadratureWeights 1 = .ok w ∧ ∑ p, w p = polygonArea kiteCell ∧
      S.getQuadratureActualCoordinates 1 = .ok x ∧ ∀ p, x p ∈ convexHull ℝ (Set.range kiteCell) := by
  obtain ⟨ext, h1, h2⟩ := quadRoutines_exist
  have hr : RoutinesOK ext 5 "gauss-legendre" := ⟨fun _ => h1 _ (by norm_num), fun _ => h2 _⟩
  obtain ⟨nq, S, h⟩ := demo_fespace ext () "bilinear" (Or.inl rfl)
  obtain ⟨w, hw, hb, -⟩ := C31_weights ext _ demoCells _ (demoSettings "bilinear") _ _ _ S h hr 1 kiteCell rfl
  obtain ⟨x, hx, hx'⟩ := C32_points ext _ demoCells _ (demoSettings "bilinear") _ _ _ S h hr 1 kiteCell rfl
    fun h => absurd h (by decide)
  exact ⟨ext, hr, nq, S, h, w, x, hw, (hb rfl (demo_cells_ok kiteCell (by simp [demoCells])).1).2, hx, hx'⟩

/-- The internal-mesh versions apply to a 3×2 mesh with the affine transformation and Gauss–Lobatto
points. -/
example (g : Geometry2D) (smp) : ∃ ext, RoutinesOK ext 4 "gauss-jacobi" ∧ ∃ nq S,
    fespace2D (V := ℝ) ext [] (generateQuadMeshInternal g (0, 3) (0, 2) 3 2 100 smp).cells []
      ⟨"quadrilateral", 2, "legendre", 4, "gauss-jacobi", "affine"⟩ [] () false = .ok ⟨nq, S⟩ := by
  obtain ⟨ext, h1, h2⟩ := quadRoutines_exist
  refine ⟨ext, ⟨fun h => absurd h (by decide), fun _ => h2 _⟩, ?_⟩
  refine (C63_constructor ext _ _ _ _ _ _).2 ⟨rfl, ?_, by decide, by simp [supportedFeType], by decide,
    Or.inr rfl, Or.inr ⟨rfl, ?_⟩, by simp⟩
  · apply List.ne_nil_of_length_pos
    rw [(C02_internal_cells g (0, 3) (0, 2) (by norm_num) (by norm_num) 3 2 100 smp).1]
    norm_num
  · intro c hc
    obtain ⟨k, hk⟩ := List.mem_iff_getElem?.1 hc
    obtain ⟨hk', -⟩ := List.getElem?_eq_some_iff.1 hk
    rw [(C02_internal_cells g (0, 3) (0, 2) (by norm_num) (by norm_num) 3 2 100 smp).1] at hk'
    obtain ⟨-, -, hkm⟩ := mem_internal_cells g (0, 3) (0, 2) (by norm_num) (by norm_num) 3 2 100 smp k hk'
    rw [hk] at hkm
    cases hkm
    have e1 := gridLine_lt (a := 0) (b := 3) (by norm_num) (show 0 < 3 by norm_num) (Nat.lt_succ_self (k / 2))
    have e2 := gridLine_lt (a := 0) (b := 2) (by norm_num) (show 0 < 2 by norm_num) (Nat.lt_succ_self (k % 2))
    simp only [gridCell, rectangle, cross]
    simp only [Matrix.cons_val_zero, Matrix.cons_val_one, Matrix.cons_val, sub_self, zero_mul, sub_zero]
    exact (mul_pos (sub_pos.2 e1) (sub_pos.2 e2)).ne'

end FastVPINNs
