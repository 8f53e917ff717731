import Verif.Spec.Folding
import Verif.Props.CellGeometry

/-! # C116: cells that are not convex -/

namespace FastVPINNs

open Spec

lemma turns_iff (c : Quad) : TurnsOneWay c ↔
    (0 ≤ cross (c 3) (c 0) (c 1) ∧ 0 ≤ cross (c 0) (c 1) (c 2) ∧ 0 ≤ cross (c 1) (c 2) (c 3) ∧
      0 ≤ cross (c 2) (c 3) (c 0)) ∨
    (cross (c 3) (c 0) (c 1) ≤ 0 ∧ cross (c 0) (c 1) (c 2) ≤ 0 ∧ cross (c 1) (c 2) (c 3) ≤ 0 ∧
      cross (c 2) (c 3) (c 0) ≤ 0) := by
  simp only [TurnsOneWay, Fin.forall_fin_succ, Fin.isValue, zero_add, IsEmpty.forall_iff, and_true]
  rfl

/-- A sum of absolute values with positive weights is the absolute value of the sum iff there are no two signs. -/
lemma sum_abs_eq_iff {n : ℕ} (w d : Fin n → ℝ) (hw : ∀ p, 0 < w p) :
    ∑ p, w p * |d p| = |∑ p, w p * d p| ↔ (∀ p, 0 ≤ d p) ∨ ∀ p, d p ≤ 0 := by
  constructor
  · intro h
    rcases le_total 0 (∑ p, w p * d p) with h0 | h0
    · left
      rw [abs_of_nonneg h0] at h
      have hz : ∑ p, w p * (|d p| - d p) = 0 := by
        simp only [mul_sub, Finset.sum_sub_distrib]; linarith
      have := (Finset.sum_eq_zero_iff_of_nonneg fun p _ =>
        mul_nonneg (hw p).le (sub_nonneg.2 (le_abs_self (d p)))).1 hz
      intro p
      have hp := (mul_eq_zero.1 (this p (Finset.mem_univ p))).resolve_left (hw p).ne'
      rw [← sub_eq_zero.1 hp]
      exact abs_nonneg _
    · right
      rw [abs_of_nonpos h0] at h
      have hz : ∑ p, w p * (|d p| + d p) = 0 := by
        simp only [mul_add, Finset.sum_add_distrib]; linarith
      have := (Finset.sum_eq_zero_iff_of_nonneg fun p _ =>
        mul_nonneg (hw p).le (by linarith [neg_abs_le (d p)])).1 hz
      intro p
      have hp := (mul_eq_zero.1 (this p (Finset.mem_univ p))).resolve_left (hw p).ne'
      linarith [abs_nonneg (d p)]
  · rintro (h | h)
    · rw [abs_of_nonneg (Finset.sum_nonneg fun p _ => mul_nonneg (hw p).le (h p))]
      exact Finset.sum_congr rfl fun p _ => by rw [abs_of_nonneg (h p)]
    · rw [abs_of_nonpos (Finset.sum_nonpos fun p _ => mul_nonpos_of_nonneg_of_nonpos (hw p).le (h p)),
        ← Finset.sum_neg_distrib]
      exact Finset.sum_congr rfl fun p _ => by rw [abs_of_nonpos (h p)]; ring

section
variable {F V : Type} (ext : QuadRoutines) (mp : List (ℝ × ℝ)) (cells : List Quad) (bd : BdDict)
  (s : FESettings) (dict : List (ℤ × (ℝ → ℝ → V))) (f : F) (plot : Bool) {nq : ℕ}
  (S : Fespace2D F V (s.feOrder.toNat ^ 2) nq)

/-- The weights of any cell with the bilinear map, and the sum of the signed determinants. -/
lemma folding_facts (h : fespace2D ext mp cells bd s dict f plot = .ok ⟨nq, S⟩)
    (hr : RoutinesOK ext s.quadOrder s.quadType) (hb : s.feTransformationType = "bilinear") (k : ℕ) (c : Quad)
    (hk : cells[k]? = some c) : ∃ wt xi eta,
      assignQuadratureRules ext "quadrilateral" s.quadOrder s.quadType = .ok ⟨nq, wt, xi, eta⟩ ∧
      S.getQuadratureWeights k = .ok (fun p => wt p * |bilinDet c (xi p) (eta p)|) ∧ (∀ p, 0 < wt p) ∧
      (∀ p, (xi p, eta p) ∈ refSquare) ∧ ∑ p, wt p * bilinDet c (xi p) (eta p) = polygonArea c := by
  obtain ⟨hlen, B, wt, xi, eta, hB, hR, hcell⟩ := fespace_cell h
  obtain ⟨T, fc, hT, hfc, -, facts⟩ := hcell k c hk
  have hfc := (cellAt_nat S k fc).2 hfc
  obtain ⟨n, x, w, hQ, hn, hten, hex, -, hpos, hx⟩ := rule_facts hR hr
  have hwpos := (C23_exact_2d x w _ _ hten hex).2.2.2 hpos
  obtain ⟨h1, -⟩ | ⟨-, rfl⟩ := assignFe_ok hT
  · rw [hb] at h1; exact absurd h1 (by decide)
  refine ⟨wt, xi, eta, hR, ?_, hwpos, rule_mem hten hx, ?_⟩
  · simp only [Fespace2D.getQuadratureWeights, hfc, Except.ok.injEq]
    funext p
    rw [facts.mult]
    rfl
  · have e : ∀ p, 16 * (wt p * bilinDet c (xi p) (eta p))
        = cross (c 3) (c 0) (c 1) * (wt p * ((1 + (-1) * xi p) * (1 + (-1) * eta p)))
        + cross (c 0) (c 1) (c 2) * (wt p * ((1 + 1 * xi p) * (1 + (-1) * eta p)))
        + cross (c 1) (c 2) (c 3) * (wt p * ((1 + 1 * xi p) * (1 + 1 * eta p)))
        + cross (c 2) (c 3) (c 0) * (wt p * ((1 + (-1) * xi p) * (1 + 1 * eta p))) := by
      intro p
      linear_combination wt p * bilinDet_eq c (xi p) (eta p)
    have hS : 16 * ∑ p, wt p * bilinDet c (xi p) (eta p) = 16 * polygonArea c := by
      rw [Finset.mul_sum, Finset.sum_congr rfl fun p _ => e p]
      simp only [Finset.sum_add_distrib, ← Finset.mul_sum]
      have hb := fun a b => rule_bilinear hten (by omega) hex a b
      simp only at hb
      rw [hb, hb, hb, hb]
      linear_combination 4 * cross_sum c
    linarith

lemma oneWay_det {c : Quad} (hc : TurnsOneWay c) : (∀ p ∈ refSquare, 0 ≤ bilinDet c p.1 p.2) ∨
    ∀ p ∈ refSquare, bilinDet c p.1 p.2 ≤ 0 := by
  have key : ∀ p ∈ refSquare, 0 ≤ (1 - p.1) * (1 - p.2) ∧ 0 ≤ (1 + p.1) * (1 - p.2) ∧ 0 ≤ (1 + p.1) * (1 + p.2) ∧
      0 ≤ (1 - p.1) * (1 + p.2) := by
    rintro p ⟨h1, h2, h3, h4⟩
    exact ⟨mul_nonneg (by linarith) (by linarith), mul_nonneg (by linarith) (by linarith),
      mul_nonneg (by linarith) (by linarith), mul_nonneg (by linarith) (by linarith)⟩
  rcases (turns_iff c).1 hc with ⟨t0, t1, t2, t3⟩ | ⟨t0, t1, t2, t3⟩
  · left
    intro p hp
    obtain ⟨k0, k1, k2, k3⟩ := key p hp
    have := bilinDet_eq c p.1 p.2
    linarith [mul_nonneg k0 t0, mul_nonneg k1 t1, mul_nonneg k2 t2, mul_nonneg k3 t3]
  · right
    intro p hp
    obtain ⟨k0, k1, k2, k3⟩ := key p hp
    have := bilinDet_eq c p.1 p.2
    linarith [mul_nonpos_of_nonneg_of_nonpos k0 t0, mul_nonpos_of_nonneg_of_nonpos k1 t1,
      mul_nonpos_of_nonneg_of_nonpos k2 t2, mul_nonpos_of_nonneg_of_nonpos k3 t3]

/-- **C116** (any cell).  `Fespace2D` accepts cells of any shape.  With the bilinear map the weights are never negative
and add up to at least the area; to exactly the area if the cell is convex, in either orientation. -/
theorem C116_weights (h : fespace2D ext mp cells bd s dict f plot = .ok ⟨nq, S⟩)
    (hr : RoutinesOK ext s.quadOrder s.quadType) (hb : s.feTransformationType = "bilinear") (k : ℕ) (c : Quad)
    (hk : cells[k]? = some c) :
    ∃ w, S.getQuadratureWeights k = .ok w ∧ (∀ p, 0 ≤ w p) ∧ |polygonArea c| ≤ ∑ p, w p ∧
      (TurnsOneWay c → ∑ p, w p = |polygonArea c|) := by
  obtain ⟨wt, xi, eta, -, hw, hpos, hmem, hsum⟩ := folding_facts ext mp cells bd s dict f plot S h hr hb k c hk
  refine ⟨_, hw, fun p => mul_nonneg (hpos p).le (abs_nonneg _), ?_, fun hc => ?_⟩
  · rw [← hsum]
    refine (Finset.abs_sum_le_sum_abs _ _).trans (le_of_eq ?_)
    exact Finset.sum_congr rfl fun p _ => by rw [abs_mul, abs_of_pos (hpos p)]
  · rw [← hsum]
    exact (sum_abs_eq_iff wt (fun p => bilinDet c (xi p) (eta p)) hpos).2
      ((oneWay_det hc).imp (fun h p => h _ (hmem p)) fun h p => h _ (hmem p))

/-- **C116** (`gauss-jacobi`).  With the points of this rule, which has the corners among them, the weights of a cell add
up to its area exactly if the cell is convex: every cell with a re-entrant corner or crossing sides gets more (for the
latter the area is that of the shoelace formula). -/
theorem C116_lobatto (h : fespace2D ext mp cells bd s dict f plot = .ok ⟨nq, S⟩)
    (hr : RoutinesOK ext s.quadOrder s.quadType) (hb : s.feTransformationType = "bilinear")
    (hq : s.quadType = "gauss-jacobi") (k : ℕ) (c : Quad) (hk : cells[k]? = some c) :
    ∃ w, S.getQuadratureWeights k = .ok w ∧ (∑ p, w p = |polygonArea c| ↔ TurnsOneWay c) := by
  obtain ⟨w', hw', -, -, hone⟩ := C116_weights ext mp cells bd s dict f plot S h hr hb k c hk
  refine ⟨w', hw', fun he => ?_, hone⟩
  obtain ⟨wt, xi, eta, hR, hw, hpos, hmem, hsum⟩ := folding_facts ext mp cells bd s dict f plot S h hr hb k c hk
  rw [hw', Except.ok.injEq] at hw
  subst hw
  rw [← hsum] at he
  have hdet := (sum_abs_eq_iff wt (fun p => bilinDet c (xi p) (eta p)) hpos).1 he
  rw [hq] at hR
  obtain ⟨n, hn, x, v, hten, -, hx0, hxl, -⟩ := C24_gauss_lobatto ext s.quadOrder _ hR (hr.2 hq)
  have hcorner : ∀ i j : Fin (n + 1), ∃ p, xi p = x i ∧ eta p = x j := by
    intro i j
    have hlt : (n + 1) * j.val + i.val < nq := by
      have h1 := hten.num
      simp only at h1
      rw [h1]
      calc (n + 1) * j.val + i.val < (n + 1) * j.val + (n + 1) := by have := i.isLt; omega
        _ = (n + 1) * (j.val + 1) := by ring
        _ ≤ (n + 1) * (n + 1) := Nat.mul_le_mul_left _ j.isLt
    exact ⟨⟨_, hlt⟩, hten.xi i j ⟨_, hlt⟩ rfl, hten.eta i j ⟨_, hlt⟩ rfl⟩
  have corner : ∀ (P : ℝ → Prop), (∀ p, P (bilinDet c (xi p) (eta p))) → P (bilinDet c (-1) (-1)) ∧
      P (bilinDet c 1 (-1)) ∧ P (bilinDet c 1 1) ∧ P (bilinDet c (-1) 1) := by
    intro P hP
    have get : ∀ i j, P (bilinDet c (x i) (x j)) := fun i j => by
      obtain ⟨p, h1, h2⟩ := hcorner i j
      rw [← h1, ← h2]
      exact hP p
    refine ⟨?_, ?_, ?_, ?_⟩
    · have := get 0 0; rwa [hx0] at this
    · have := get (Fin.last n) 0; rwa [hx0, hxl] at this
    · have := get (Fin.last n) (Fin.last n); rwa [hxl] at this
    · have := get 0 (Fin.last n); rwa [hx0, hxl] at this
  have e0 := bilinDet_eq c (-1) (-1)
  have e1 := bilinDet_eq c 1 (-1)
  have e2 := bilinDet_eq c 1 1
  have e3 := bilinDet_eq c (-1) 1
  refine (turns_iff c).2 (hdet.imp (fun h => ?_) fun h => ?_)
  · obtain ⟨d0, d1, d2, d3⟩ := corner (fun t => 0 ≤ t) h
    exact ⟨by linarith, by linarith, by linarith, by linarith⟩
  · obtain ⟨d0, d1, d2, d3⟩ := corner (fun t => t ≤ 0) h
    exact ⟨by linarith, by linarith, by linarith, by linarith⟩

/-- **C116** (whole mesh).  With `gauss-jacobi` the weights of all cells add up to the sum of the areas exactly if all
cells are convex; otherwise to more.  So the sum, compared with the area of the domain, detects every bad cell. -/
theorem C116_mesh (h : fespace2D ext mp cells bd s dict f plot = .ok ⟨nq, S⟩)
    (hr : RoutinesOK ext s.quadOrder s.quadType) (hb : s.feTransformationType = "bilinear")
    (hq : s.quadType = "gauss-jacobi") :
    ∃ w : Fin cells.length → Fin nq → ℝ, (∀ k : Fin cells.length, S.getQuadratureWeights (k.val : ℕ) = .ok (w k)) ∧
      ∑ k, |polygonArea (cells.get k)| ≤ ∑ k, ∑ p, w k p ∧
      (∑ k, ∑ p, w k p = ∑ k, |polygonArea (cells.get k)| ↔ ∀ c ∈ cells, TurnsOneWay c) := by
  have hk : ∀ k : Fin cells.length, cells[k.val]? = some (cells.get k) := fun k => by simp
  choose w hw hiff using fun k : Fin cells.length =>
    C116_lobatto ext mp cells bd s dict f plot S h hr hb hq k.val (cells.get k) (hk k)
  have hle : ∀ k, |polygonArea (cells.get k)| ≤ ∑ p, w k p := by
    intro k
    obtain ⟨w', hw', -, h1, -⟩ := C116_weights ext mp cells bd s dict f plot S h hr hb k.val _ (hk k)
    rw [hw k, Except.ok.injEq] at hw'
    rw [hw']
    exact h1
  refine ⟨w, hw, Finset.sum_le_sum fun k _ => hle k, ?_⟩
  rw [eq_comm, Finset.sum_eq_sum_iff_of_le fun k _ => hle k]
  constructor
  · intro he c hc
    obtain ⟨k, hk, rfl⟩ := List.getElem_of_mem hc
    exact (hiff ⟨k, hk⟩).1 (he ⟨k, hk⟩ (Finset.mem_univ _)).symm
  · intro hall k _
    exact ((hiff k).2 (hall _ (List.get_mem _ _))).symm

end

/-- The unit square with its first vertex moved to `(1/2 + δ, 1/2 + δ)`. -/
noncomputable def dentedCell (δ : ℝ) : Quad := ![(1 / 2 + δ, 1 / 2 + δ), (1, 0), (1, 1), (0, 1)]

lemma dented_cross (δ : ℝ) : cross (dentedCell δ 3) (dentedCell δ 0) (dentedCell δ 1) = -(2 * δ) ∧
    cross (dentedCell δ 0) (dentedCell δ 1) (dentedCell δ 2) = 1 / 2 - δ ∧
    cross (dentedCell δ 1) (dentedCell δ 2) (dentedCell δ 3) = 1 ∧
    cross (dentedCell δ 2) (dentedCell δ 3) (dentedCell δ 0) = 1 / 2 - δ := by
  simp only [cross, dentedCell, Matrix.cons_val_zero, Matrix.cons_val_one, Matrix.cons_val]
  refine ⟨by ring, by ring, by ring, by ring⟩

lemma dented_not_oneWay {δ : ℝ} (h0 : 0 < δ) : ¬ TurnsOneWay (dentedCell δ) := by
  obtain ⟨c0, c1, c2, c3⟩ := dented_cross δ
  rw [turns_iff, c0, c1, c2, c3]
  rintro (⟨h, -⟩ | ⟨-, -, h, -⟩) <;> linarith

/-- **C116** (`gauss-legendre` is blind near the corners).  For every order of this rule there is a cell with a
re-entrant corner whose weights are all positive and add up to its area: the sum of the weights does not show that the
map folds. -/
theorem C116_legendre {F V : Type} (ext : QuadRoutines) (s : FESettings) (hs : s.cellType = "quadrilateral")
    (ho : 2 ≤ s.feOrder ∧ s.feOrder < 1000) (hty : supportedFeType s.feType)
    (hQ : 3 ≤ s.quadOrder ∧ s.quadOrder ≤ 9999) (hr : RoutinesOK ext s.quadOrder s.quadType)
    (hb : s.feTransformationType = "bilinear") (hq : s.quadType = "gauss-legendre")
    (dict : List (ℤ × (ℝ → ℝ → V))) (f : F) :
    ∃ c : Quad, ¬ TurnsOneWay c ∧ ∃ (nq : ℕ) (S : Fespace2D F V (s.feOrder.toNat ^ 2) nq) (w : Fin nq → ℝ),
      fespace2D ext [] [c] [] s dict f false = .ok ⟨nq, S⟩ ∧ S.getQuadratureWeights (0 : ℕ) = .ok w ∧
      (∀ p, 0 < w p) ∧ ∑ p, w p = polygonArea c := by
  have hbuild : ∀ c : Quad, ∃ nq S, fespace2D ext [] [c] [] s dict f false = .ok ⟨nq, S⟩ := fun c =>
    (C63_constructor ext [] [c] [] s dict f).2 ⟨hs, by simp, ho, hty, hQ, .inl hq, .inl hb, by simp⟩
  obtain ⟨rule, hR⟩ := (C12_quadrature_accepted ext "quadrilateral" s.quadOrder s.quadType).1.2
    ⟨rfl, hQ.1, hQ.2, .inl hq⟩
  -- all points are away from the sides
  have hin : ∀ p, 0 < 1 + rule.xi p ∧ rule.xi p ≤ 1 ∧ 0 < 1 + rule.eta p ∧ rule.eta p ≤ 1 := by
    obtain ⟨-, n, hn, x, w, hT, hl, -⟩ := C22_tensor_order ext s.quadOrder _ rule hR
    have hext := hr.1 hq
    have hQn : s.quadOrder.toNat = n + 2 := by omega
    rw [hQn] at hext
    obtain ⟨rfl, rfl⟩ := hl hq
    intro p
    obtain ⟨i, j, hk⟩ := tensor_index hT p
    rw [hT.xi i j p hk, hT.eta i j p hk]
    exact ⟨by linarith [(hext.mem i).1], (hext.mem i).2.le, by linarith [(hext.mem j).1], (hext.mem j).2.le⟩
  obtain ⟨m, hm, hmin⟩ : ∃ m : ℝ, 0 < m ∧ ∀ p, m ≤ (1 + rule.xi p) * (1 + rule.eta p) := by
    by_cases hne : Nonempty (Fin rule.num)
    · obtain ⟨p, hp⟩ := Finite.exists_min fun p => (1 + rule.xi p) * (1 + rule.eta p)
      exact ⟨_, mul_pos (hin p).1 (hin p).2.2.1, hp⟩
    · exact ⟨1, one_pos, fun p => absurd ⟨p⟩ hne⟩
  set δ : ℝ := min (1 / 4) (m / 16) with hδ
  have hδ0 : 0 < δ := lt_min (by norm_num) (by linarith)
  have hδ1 : δ ≤ 1 / 4 := min_le_left _ _
  have hδ2 : δ ≤ m / 16 := min_le_right _ _
  refine ⟨dentedCell δ, dented_not_oneWay hδ0, ?_⟩
  obtain ⟨nq, S, h⟩ := hbuild (dentedCell δ)
  obtain ⟨wt, xi, eta, hR', hw, hpos, -, hsum⟩ := folding_facts ext [] [dentedCell δ] [] s dict f false S h hr hb 0 _ rfl
  rw [hR, Except.ok.injEq] at hR'
  subst hR'
  obtain ⟨c0, c1, c2, c3⟩ := dented_cross δ
  have hdet : ∀ p, 0 < bilinDet (dentedCell δ) (xi p) (eta p) := by
    intro p
    obtain ⟨h1, h2, h3, h4⟩ := hin p
    have hm' := hmin p
    simp only at h1 h2 h3 h4 hm'
    have e := bilinDet_eq (dentedCell δ) (xi p) (eta p)
    rw [c0, c1, c2, c3] at e
    have k0 : (1 - xi p) * (1 - eta p) ≤ 4 := by nlinarith
    have k1 : 0 ≤ (1 + xi p) * (1 - eta p) := mul_nonneg h1.le (by linarith)
    have k3 : 0 ≤ (1 - xi p) * (1 + eta p) := mul_nonneg (by linarith) h3.le
    have j1 : 0 ≤ (1 + xi p) * (1 - eta p) * (1 / 2 - δ) := mul_nonneg k1 (by linarith)
    have j3 : 0 ≤ (1 - xi p) * (1 + eta p) * (1 / 2 - δ) := mul_nonneg k3 (by linarith)
    have j0 : (1 - xi p) * (1 - eta p) * (2 * δ) ≤ 4 * (2 * δ) := mul_le_mul_of_nonneg_right k0 (by linarith)
    linarith
  refine ⟨nq, S, _, h, hw, fun p => mul_pos (hpos p) (abs_pos.2 (hdet p).ne'), ?_⟩
  rw [← hsum]
  exact Finset.sum_congr rfl fun p _ => by rw [abs_of_pos (hdet p)]

/-- C116: there are convex cells, clockwise as well as anticlockwise, and cells that turn both ways. -/
example : TurnsOneWay (squareCell 1) ∧ TurnsOneWay ![(0, 0), (0, 1), (1, 1), (1, 0)] ∧
    ¬ TurnsOneWay (dentedCell (1 / 10)) := by
  refine ⟨(turns_iff _).2 (.inl ?_), (turns_iff _).2 (.inr ?_), dented_not_oneWay (by norm_num)⟩ <;>
    simp [cross, squareCell]

/-- C116: with `gauss-jacobi` the dented cell gets more than its area. -/
example : ∃ (ext : QuadRoutines) (nq : ℕ) (S : Fespace2D Unit ℝ (3 ^ 2) nq) (w : Fin nq → ℝ),
    fespace2D ext [] [dentedCell (1 / 10)] [] ⟨"quadrilateral", 3, "jacobi", 5, "gauss-jacobi", "bilinear"⟩ [] () false
      = .ok ⟨nq, S⟩ ∧ S.getQuadratureWeights (0 : ℕ) = .ok w ∧ |polygonArea (dentedCell (1 / 10))| < ∑ p, w p := by
  obtain ⟨ext, h1, h2⟩ := quadRoutines_exist
  have hr : RoutinesOK ext 5 "gauss-jacobi" := ⟨fun h => absurd h (by decide), fun _ => h2 _⟩
  obtain ⟨nq, S, h⟩ := (C63_constructor (V := ℝ) ext [] [dentedCell (1 / 10)] []
    ⟨"quadrilateral", 3, "jacobi", 5, "gauss-jacobi", "bilinear"⟩ [] ()).2 ⟨rfl, by simp, by decide,
      by simp [supportedFeType], by decide, .inr rfl, .inl rfl, by simp⟩
  obtain ⟨w, hw, -, hle, -⟩ := C116_weights ext [] [dentedCell (1 / 10)] []
    ⟨"quadrilateral", 3, "jacobi", 5, "gauss-jacobi", "bilinear"⟩ [] () false S h hr rfl 0 _ rfl
  obtain ⟨w', hw', hiff⟩ := C116_lobatto ext [] [dentedCell (1 / 10)] []
    ⟨"quadrilateral", 3, "jacobi", 5, "gauss-jacobi", "bilinear"⟩ [] () false S h hr rfl rfl 0 _ rfl
  rw [hw, Except.ok.injEq] at hw'
  subst hw'
  exact ⟨ext, nq, S, w, h, hw, lt_of_le_of_ne hle fun he => dented_not_oneWay (by norm_num) (hiff.1 he.symm)⟩

end FastVPINNs
