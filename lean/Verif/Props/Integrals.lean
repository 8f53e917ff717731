import Verif.Lemmas.CellIntegral
import Verif.Props.ExactSolution
import Verif.Spec.Integral

/-! # C68: quadrature sums are integrals -/

namespace FastVPINNs

open Spec MeasureTheory Polynomial

lemma handled_isQ {d : ℕ} {c : Quad} {g : ℝ × ℝ → ℝ} (h : IntegrandHandled d c g) :
    IsQ d fun p => bilinDet c p.1 p.2 * g (bmap c p) := by
  rcases h with ⟨m, hg, hm⟩ | ⟨hc, m, hg, hm⟩ | ⟨⟨a, b, p, q, rfl⟩, m, hg, hm⟩
  · exact (isQ_bilinDet c).mul (isQ_comp hg c) (by omega)
  · have p1 : (c 1).1 - (c 0).1 = (c 2).1 - (c 3).1 := congrArg Prod.fst hc
    have p2 : (c 1).2 - (c 0).2 = (c 2).2 - (c 3).2 := congrArg Prod.snd hc
    have q1 : QuadBilinear.xc3 c = 0 := by
      simp only [QuadBilinear.xc3]; linear_combination (-1 / 4) * p1
    have q2 : QuadBilinear.yc3 c = 0 := by
      simp only [QuadBilinear.yc3]; linear_combination (-1 / 4) * p2
    have hdet : (fun p : ℝ × ℝ => bilinDet c p.1 p.2) = fun _ => bilinDet c 0 0 := by
      funext p
      simp [bilinDet, q1, q2]
    have h0 : IsQ 0 fun p => bilinDet c p.1 p.2 := by
      rw [hdet]
      exact isQ_const 0 _
    exact h0.mul (isQ_comp hg c) (by omega)
  · have q1 : QuadBilinear.xc3 (rectangle a b p q) = 0 := by
      simp [QuadBilinear.xc3, rectangle]
    have q2 : QuadBilinear.yc3 (rectangle a b p q) = 0 := by
      simp [QuadBilinear.yc3, rectangle]
    have q3 : QuadBilinear.xc2 (rectangle a b p q) = 0 := by
      simp [QuadBilinear.xc2, rectangle]
    have q4 : QuadBilinear.yc1 (rectangle a b p q) = 0 := by
      simp [QuadBilinear.yc1, rectangle]
    have h0 : IsQ 0 fun z => bilinDet (rectangle a b p q) z.1 z.2 := by
      have : (fun z : ℝ × ℝ => bilinDet (rectangle a b p q) z.1 z.2)
          = fun _ => bilinDet (rectangle a b p q) 0 0 := by
        funext z
        simp [bilinDet, q1, q2]
      rw [this]
      exact isQ_const 0 _
    refine h0.mul (e := m) ?_ (by omega)
    refine IsPolynomial.induct (p := fun g => IsQ m fun z => g (bmap (rectangle a b p q) z))
      (isQ_const m 0) ?_ hg
    rintro α i j u ⟨hi, hj⟩ hu
    refine IsPolynomial.add ?_ hu
    have hdeg : ∀ (β γ : ℝ) (n : ℕ), ((C β + C γ * X) ^ n : ℝ[X]).natDegree ≤ n := by
      intro β γ n
      refine natDegree_pow_le.trans ?_
      have : (C β + C γ * X : ℝ[X]).natDegree ≤ 1 := by compute_degree
      calc n * _ ≤ n * 1 := Nat.mul_le_mul_left n this
        _ = n := mul_one n
    have := (isQ_const 0 α).mul (isQ_eval (d := m)
      ((C (QuadBilinear.xc0 (rectangle a b p q)) + C (QuadBilinear.xc1 (rectangle a b p q)) * X) ^ i)
      ((C (QuadBilinear.yc0 (rectangle a b p q)) + C (QuadBilinear.yc2 (rectangle a b p q)) * X) ^ j)
      ((hdeg _ _ i).trans hi) ((hdeg _ _ j).trans hj)) (f := m) (by omega)
    refine cast (congrArg _ (funext fun z => ?_)) this
    simp [bmap, quadBilinear, QuadBilinear.getOriginalFromRef, q1, q2, q3, q4]
    ring

lemma testFamily_degree (ty : String) (i : ℕ) : (testFamily ty i).natDegree ≤ i + 2 := by
  by_cases h : ty = "jacobi_plain"
  · subst h
    have : testFamily "jacobi_plain" i = legendreP i := by
      simp [testFamily, legendrePlain]
    rw [this, natDegree_legendreP]
    omega
  · exact (testFamily_facts h i).2.2

/-- The reported points and weights of a cell, in terms of the reference rule. -/
lemma cell_rule {F V : Type} {ext : QuadRoutines} {mp : List (ℝ × ℝ)} {cells : List Quad} {bd : BdDict}
    {s : FESettings} {dict : List (ℤ × (ℝ → ℝ → V))} {f : F} {plot : Bool} {nq : ℕ}
    {S : Fespace2D F V (s.feOrder.toNat ^ 2) nq}
    (h : fespace2D ext mp cells bd s dict f plot = .ok ⟨nq, S⟩)
    (hr : RoutinesOK ext s.quadOrder s.quadType) :
    ∃ (wt xi eta : Fin nq → ℝ) (n : ℕ) (x w : Fin n → ℝ),
      assignQuadratureRules ext "quadrilateral" s.quadOrder s.quadType = .ok ⟨nq, wt, xi, eta⟩ ∧
      IsTensorRule x w ⟨nq, wt, xi, eta⟩ ∧ ExactUpTo ⟨n, x, w⟩ (ruleDegree s.quadType s.quadOrder) ∧
      (∀ q, 0 ≤ wt q) ∧ (∀ q, (xi q, eta q) ∈ refSquare) ∧
      ∀ (k : ℕ) (c : Quad), cells[k]? = some c → ConvexCCW c →
        (s.feTransformationType = "affine" → IsParallelogram c) →
        S.getQuadratureActualCoordinates k = .ok (fun q => bmap c (xi q, eta q)) ∧
        S.getQuadratureWeights k = .ok (fun q => wt q * bilinDet c (xi q) (eta q)) ∧
        ∃ T, assignFeTransformation "quadrilateral" s.feTransformationType c = .ok T ∧
          ∀ q, T.originalFromRef (xi q) (eta q) = bmap c (xi q, eta q) ∧
            T.jacobian (xi q) (eta q) = bilinDet c (xi q) (eta q) := by
  obtain ⟨hlen, B, wt, xi, eta, hB, hR, hcell⟩ := fespace_cell h
  obtain ⟨n, x, w, hQ, hn, hten, hex, hex', hpos, hx⟩ := rule_facts hR hr
  have hexact : ExactUpTo ⟨n, x, w⟩ (ruleDegree s.quadType s.quadOrder) := by
    unfold ruleDegree
    rw [hQ, Int.toNat_natCast]
    split_ifs with hq
    · exact hex' hq
    · exact hex
  have hmem : ∀ q, (xi q, eta q) ∈ refSquare := fun q => rule_mem hten hx q
  refine ⟨wt, xi, eta, n, x, w, hR, hten, hexact, fun q => ?_, hmem, fun k c hk hc hpar => ?_⟩
  · obtain ⟨i, j, hij⟩ := tensor_index hten q
    have := hten.weight i j q hij
    simp only at this
    rw [this]
    exact (mul_pos (hpos i) (hpos j)).le
  · obtain ⟨T, fc, hT, hfc, -, facts⟩ := hcell k c hk
    have hfc := (cellAt_nat S k fc).2 hfc
    have hTb : ∀ q, T.originalFromRef (xi q) (eta q) = bmap c (xi q, eta q) ∧
        T.jacobian (xi q) (eta q) = bilinDet c (xi q) (eta q) := by
      intro q
      have hdet := bilinDet_pos hc (hmem q)
      obtain ⟨ht, -⟩ | ⟨-, rfl⟩ := assignFe_ok hT
      · rw [ht] at hT
        have := ((C29_affine_vs_bilinear c T (quadBilinear c) hT (by simp [assignFeTransformation])).1
          (hpar ht)).1 (xi q) (eta q)
        exact ⟨this.1, this.2.trans (abs_of_pos hdet)⟩
      · exact ⟨rfl, abs_of_pos hdet⟩
    refine ⟨?_, ?_, T, hT, hTb⟩
    · simp only [Fespace2D.getQuadratureActualCoordinates, hfc]
      congr 1
      funext q
      rw [facts.point, (hTb q).1]
    · simp only [Fespace2D.getQuadratureWeights, hfc]
      congr 1
      funext q
      rw [facts.mult, (hTb q).2]

section
variable {F V : Type} (ext : QuadRoutines) (mp : List (ℝ × ℝ)) (cells : List Quad) (bd : BdDict)
  (s : FESettings) (dict : List (ℤ × (ℝ → ℝ → V))) (f : F) (plot : Bool) {nq : ℕ}
  (S : Fespace2D F V (s.feOrder.toNat ^ 2) nq)

/-- **C68.**  For a strictly convex cell (a parallelogram with the affine transformation) and every
polynomial of a degree that the rule handles, the sum of weight times value over the points reported for
the cell is the integral over the cell. -/
theorem C68_polynomials (h : fespace2D ext mp cells bd s dict f plot = .ok ⟨nq, S⟩)
    (hr : RoutinesOK ext s.quadOrder s.quadType) (k : ℕ) (c : Quad) (hk : cells[k]? = some c)
    (hc : ConvexCCW c) (hpar : s.feTransformationType = "affine" → IsParallelogram c) (g : ℝ × ℝ → ℝ)
    (hg : IntegrandHandled (ruleDegree s.quadType s.quadOrder) c g) :
    ∃ x w, S.getQuadratureActualCoordinates k = .ok x ∧ S.getQuadratureWeights k = .ok w ∧
      ∑ q, w q * g (x q) = ∫ z in cellSet c, g z := by
  obtain ⟨wt, xi, eta, n, x, w, -, hten, hex, -, -, hcell⟩ := cell_rule h hr
  obtain ⟨h1, h2, -⟩ := hcell k c hk hc hpar
  refine ⟨_, _, h1, h2, ?_⟩
  rw [cellSet, cell_change hc, ← (ref_exact hten hex (handled_isQ hg)).2]
  exact Finset.sum_congr rfl fun q _ => by ring

/-- **C68** (whole mesh).  On a mesh of strictly convex cells that do not overlap, the sums over all cells
add up to the integral over the union of the cells. -/
theorem C68_mesh (h : fespace2D ext mp cells bd s dict f plot = .ok ⟨nq, S⟩)
    (hr : RoutinesOK ext s.quadOrder s.quadType)
    (hcells : ∀ c ∈ cells, ConvexCCW c ∧ (s.feTransformationType = "affine" → IsParallelogram c))
    (hdis : NoOverlap cells) (g : ℝ × ℝ → ℝ)
    (hg : ∀ c ∈ cells, IntegrandHandled (ruleDegree s.quadType s.quadOrder) c g) :
    ∃ x w : Fin cells.length → Fin nq → _, (∀ k : Fin cells.length,
        S.getQuadratureActualCoordinates k = .ok (x k) ∧ S.getQuadratureWeights k = .ok (w k)) ∧
      ∑ k, ∑ q, w k q * g (x k q) = ∫ z in meshSet cells, g z := by
  have key := fun k : Fin cells.length => C68_polynomials ext mp cells bd s dict f plot S h hr k
    cells[k] (by simp) (hcells _ (List.getElem_mem k.2)).1 (hcells _ (List.getElem_mem k.2)).2 g
    (hg _ (List.getElem_mem k.2))
  choose x w hx hw hsum using key
  refine ⟨x, w, fun k => ⟨hx k, hw k⟩, ?_⟩
  rw [mesh_integral hdis fun c hc => ?_]
  · exact Finset.sum_congr rfl fun k _ => hsum k
  · have : Continuous g := by
      rcases hg c hc with ⟨m, h, -⟩ | ⟨-, m, h, -⟩ | ⟨-, m, h, -⟩ <;> exact h.differentiable.continuous
    exact this.continuousOn.integrableOn_compact (cellSet_compact c)

/-- **C68** (internal meshes).  On an internal rectangular mesh, for every polynomial of degree at most
that of the rule in each variable, the sums over all cells add up to the integral over the domain. -/
theorem C68_internal (g : Geometry2D) (x y : ℝ × ℝ) (hx : x.1 < x.2) (hy : y.1 < y.2) (nx ny nb : ℕ)
    (smp : Fin 4 → Fin (nb / 4) → ℝ)
    (h : fespace2D ext mp (generateQuadMeshInternal g x y nx ny nb smp).cells bd s dict f plot
      = .ok ⟨nq, S⟩) (hr : RoutinesOK ext s.quadOrder s.quadType) (hnx : 0 < nx) (hny : 0 < ny)
    (u : ℝ × ℝ → ℝ) (m : ℕ) (hm : m ≤ ruleDegree s.quadType s.quadOrder)
    (hu : IsPolynomial (fun i j => i ≤ m ∧ j ≤ m) u) :
    ∃ pt w : Fin (nx * ny) → Fin nq → _, (∀ k : Fin (nx * ny),
        S.getQuadratureActualCoordinates k = .ok (pt k) ∧ S.getQuadratureWeights k = .ok (w k)) ∧
      ∑ k, ∑ q, w k q * u (pt k q) = ∫ z in domain x y, u z := by
  obtain ⟨hlen, hget⟩ := C02_internal_cells g x y hx hy nx ny nb smp
  obtain ⟨htile, hdis⟩ := C03_tiling g x y hx hy nx ny nb hnx hny smp
  generalize hcs : (generateQuadMeshInternal g x y nx ny nb smp).cells = cs at h hlen hget htile hdis
  have hgrid : ∀ c ∈ cs, ∃ i < nx, ∃ j < ny, c = gridCell x y nx ny i j := by
    intro c hc
    obtain ⟨k, hk, rfl⟩ := List.mem_iff_getElem.1 hc
    rw [hlen] at hk
    have hi : k / ny < nx := by rw [Nat.div_lt_iff_lt_mul hny]; exact hk
    have hj : k % ny < ny := Nat.mod_lt _ hny
    refine ⟨k / ny, hi, k % ny, hj, ?_⟩
    have := hget _ hi _ hj
    rw [Nat.div_add_mod' k ny, List.getElem?_eq_getElem (by omega)] at this
    exact Option.some.inj this
  have := C68_mesh ext mp cs bd s dict f plot S h hr (fun c hc => ?_) hdis u (fun c hc => ?_)
  · have hset : meshSet cs = domain x y := by
      ext z
      exact (htile z).symm
    rw [hset, hlen] at this
    exact this
  · obtain ⟨i, hi, j, hj, rfl⟩ := hgrid c hc
    refine ⟨convexCCW_gridCell hx hy i j hnx hny, fun _ => ?_⟩
    simp [IsParallelogram, gridCell, rectangle]
  · obtain ⟨i, hi, j, hj, rfl⟩ := hgrid c hc
    exact Or.inr (Or.inr ⟨⟨_, _, _, _, rfl⟩, m, hu, hm⟩)

end

section
variable {V : Type} (ext : QuadRoutines) (mp : List (ℝ × ℝ)) (cells : List Quad) (bd : BdDict)
  (s : FESettings) (dict : List (ℤ × (ℝ → ℝ → V))) (f : ℝ → ℝ → ℝ) (plot : Bool) {nq : ℕ}
  (S S' : Fespace2D (ℝ → ℝ → ℝ) V (s.feOrder.toNat ^ 2) nq)

lemma refTest_isQ (ty : String) {N i j : ℕ} (hi : i < N) (hj : j < N) : IsQ (N + 1) (refTest ty i j) :=
  isQ_eval _ _ ((testFamily_degree ty i).trans (by omega)) ((testFamily_degree ty j).trans (by omega))

/-- **C68** (forcing).  For every polynomial forcing function of degree `d` in the sense of the rule, with
`d + N + 1` at most the degree of the rule, the entries of the forcing vector are the exact integrals of
forcing function times test function over the cell. -/
theorem C68_forcing (h : fespace2D ext mp cells bd s dict f plot = .ok ⟨nq, S⟩) (hS : Reachable S S')
    (hr : RoutinesOK ext s.quadOrder s.quadType) (k : ℕ) (c : Quad) (hk : cells[k]? = some c)
    (hc : ConvexCCW c) (hpar : s.feTransformationType = "affine" → IsParallelogram c) (d : ℕ)
    (hf : IntegrandHandled d c fun z => f z.1 z.2)
    (hd : d + s.feOrder.toNat + 1 ≤ ruleDegree s.quadType s.quadOrder) :
    ∃ col S'', S'.getForcingFunctionValues k = .ok (col, S'') ∧ ∀ t ψ,
      IsTestFunction s.feType s.feOrder.toNat c t.val ψ → col t = ∫ z in cellSet c, f z.1 z.2 * ψ z := by
  obtain ⟨wt, xi, eta, n, x, w, hR, hten, hex, -, -, hcell⟩ := cell_rule h hr
  obtain ⟨-, -, T, hT, hTq⟩ := hcell k c hk hc hpar
  obtain ⟨-, hcol, -⟩ := C39_forcing ext mp cells bd s dict plot f S S' h hS
  obtain ⟨col, S'', hok, hcol⟩ := hcol k c hk
  refine ⟨col, S'', hok, fun t ψ hψ => ?_⟩
  obtain ⟨hi, hj, ht⟩ := index_split t
  rw [hcol _ T hR hT _ _ t hi hj ht, cellSet, cell_change hc]
  have e : ∫ p in refSquare, bilinDet c p.1 p.2 * (f (bmap c p).1 (bmap c p).2 * ψ (bmap c p))
      = ∫ p in refSquare, (bilinDet c p.1 p.2 * f (bmap c p).1 (bmap c p).2)
        * refTest s.feType (t.val / s.feOrder.toNat) (t.val % s.feOrder.toNat) p := by
    refine setIntegral_congr_fun refSquare_measurable fun p hp => ?_
    have := hψ p hp
    rw [← bmap_eq] at this
    simp only [this, refTest]
    ring
  rw [e, ← (ref_exact hten hex ((handled_isQ hf).mul (refTest_isQ s.feType hi hj)
    (by omega))).2]
  refine Finset.sum_congr rfl fun q _ => ?_
  simp only [(hTq q).1, (hTq q).2, refTest]
  ring

end

/-- The product `x y`. -/
lemma xy_polynomial {E : ℕ → ℕ → Prop} (h : E 1 1) : IsPolynomial E fun z : ℝ × ℝ => z.1 * z.2 :=
  ⟨[(1, 1, 1)], by simpa using h, by simp⟩

/-- The hypotheses of C68 hold for `x y` on a cell that is not a parallelogram, with the bilinear
transformation; also as a forcing function. -/
example : ∃ ext nq, ∃ S : Fespace2D (ℝ → ℝ → ℝ) ℝ (((3 : ℤ).toNat) ^ 2) nq, ∃ x w col S'',
    fespace2D ext [(0, 0), (1, 1)] demoCells demoBoundary (demoSettings "bilinear") demoDict
      (fun x y => x * y) false = .ok ⟨nq, S⟩ ∧
    S.getQuadratureActualCoordinates 1 = .ok x ∧ S.getQuadratureWeights 1 = .ok w ∧
    ∑ q, w q * ((x q).1 * (x q).2) = ∫ z in cellSet kiteCell, z.1 * z.2 ∧
    S.getForcingFunctionValues 1 = .ok (col, S'') ∧ ∀ t ψ,
      IsTestFunction "jacobi" 3 kiteCell t.val ψ → col t = ∫ z in cellSet kiteCell, z.1 * z.2 * ψ z := by
  obtain ⟨ext, h1, -⟩ := quadRoutines_exist
  have hr : RoutinesOK ext 5 "gauss-legendre" := ⟨fun _ => h1 _ (by decide), fun h => absurd h (by decide)⟩
  obtain ⟨nq, S, h⟩ := demo_fespace ext (fun x y : ℝ => x * y) "bilinear" (Or.inl rfl)
  obtain ⟨x, w, e1, e2, e3⟩ := C68_polynomials ext _ _ _ _ _ _ _ S h hr 1 kiteCell rfl kiteCell_convex
    (fun h => absurd h (by decide)) (fun z => z.1 * z.2)
    (Or.inl ⟨2, xy_polynomial (by decide), by decide⟩)
  obtain ⟨col, S'', e4, e5⟩ := C68_forcing ext _ _ _ _ _ _ _ S S h .refl hr 1 kiteCell rfl kiteCell_convex
    (fun h => absurd h (by decide)) 3 (Or.inl ⟨2, xy_polynomial (by decide), by decide⟩) (by decide)
  exact ⟨ext, nq, S, x, w, col, S'', h, e1, e2, e3, e4, e5⟩

/-- The hypotheses of `C68_internal` (whose proof goes through those of `C68_mesh`) hold for `x y` on a
mesh of six rectangles, with the affine transformation. -/
example (g : Geometry2D) : ∃ ext nq, ∃ S : Fespace2D Unit ℝ (((3 : ℤ).toNat) ^ 2) nq,
    ∃ pt w : Fin (3 * 2) → Fin nq → _,
    fespace2D ext [] (generateQuadMeshInternal g (0, 2) (-1, 1) 3 2 4 fun _ _ => 1 / 2).cells []
      (demoSettings "affine") ([] : List (ℤ × (ℝ → ℝ → ℝ))) () false = .ok ⟨nq, S⟩ ∧
    (∀ k : Fin (3 * 2),
        S.getQuadratureActualCoordinates k = .ok (pt k) ∧ S.getQuadratureWeights k = .ok (w k)) ∧
      ∑ k, ∑ q, w k q * ((pt k q).1 * (pt k q).2) = ∫ z in domain (0, 2) (-1, 1), z.1 * z.2 := by
  obtain ⟨ext, h1, -⟩ := quadRoutines_exist
  have hr : RoutinesOK ext 5 "gauss-legendre" := ⟨fun _ => h1 _ (by decide), fun h => absurd h (by decide)⟩
  have hx : ((0, 2) : ℝ × ℝ).1 < ((0, 2) : ℝ × ℝ).2 := by norm_num
  have hy : ((-1, 1) : ℝ × ℝ).1 < ((-1, 1) : ℝ × ℝ).2 := by norm_num
  have hlen := (C02_internal_cells g (0, 2) (-1, 1) hx hy 3 2 4 fun _ _ => 1 / 2).1
  obtain ⟨nq, S, h⟩ := (C63_constructor ext []
    (generateQuadMeshInternal g (0, 2) (-1, 1) 3 2 4 fun _ _ => 1 / 2).cells []
      (demoSettings "affine") ([] : List (ℤ × (ℝ → ℝ → ℝ))) ()).2 ⟨rfl, by
        refine List.ne_nil_of_length_pos ?_
        rw [hlen]
        norm_num, by decide, by simp [supportedFeType, demoSettings], by decide, Or.inl rfl, Or.inr ⟨rfl, by
        intro c hc
        obtain ⟨k, hk, rfl⟩ := List.mem_iff_getElem.1 hc
        obtain ⟨hi, hj, hkm⟩ := mem_internal_cells g (0, 2) (-1, 1) hx hy 3 2 4 (fun _ _ => 1 / 2) k (hlen ▸ hk)
        rw [List.getElem?_eq_getElem hk] at hkm
        rw [Option.some.inj hkm]
        have ht := (convexCCW_gridCell (nx := 3) (ny := 2) hx hy (k / 2) (k % 2) (by norm_num) (by norm_num)).turn0
        have hcyc : ∀ p q r : ℝ × ℝ, cross p q r = cross r p q := fun p q r => by simp only [cross]; ring
        rw [hcyc]
        exact ht.ne'⟩, by simp⟩
  obtain ⟨pt, w, e1, e2⟩ := C68_internal ext [] [] _ _ () false S g (0, 2) (-1, 1) hx hy 3 2 4 _ h hr
    (by norm_num) (by norm_num) (fun z => z.1 * z.2) 1 (by decide) (xy_polynomial (by decide))
  exact ⟨ext, nq, S, pt, w, h, e1, e2⟩

end FastVPINNs
