import Verif.Lemmas.Geometry

/-! # C01–C05: the geometry object and internally generated meshes -/

namespace FastVPINNs

open Spec

/-- **C01.**  The constructor succeeds exactly for the methods `internal`/`external` on
quadrilaterals; otherwise it raises `ValueError`, reporting the generation method first; the object
it returns carries the arguments. -/
theorem C01_constructor (mt gm : String) (nx ny : ℕ) (opt : Bool) :
    ((∃ g, geometry2D mt gm nx ny opt = .ok g) ↔
      (gm = "internal" ∨ gm = "external") ∧ mt = "quadrilateral") ∧
    (¬ (gm = "internal" ∨ gm = "external") →
      geometry2D mt gm nx ny opt = .error (.valueError, "mesh_generation_method")) ∧
    ((gm = "internal" ∨ gm = "external") → mt ≠ "quadrilateral" →
      geometry2D mt gm nx ny opt = .error (.valueError, "mesh_type")) ∧
    ∀ g, geometry2D mt gm nx ny opt = .ok g → g.meshType = mt ∧ g.meshGenerationMethod = gm ∧
      g.nTestPointsX = nx ∧ g.nTestPointsY = ny ∧ g.isOptimized = opt := by
  unfold geometry2D
  by_cases h1 : gm = "internal" ∨ gm = "external"
  · by_cases h2 : mt = "quadrilateral"
    · simp [h1, h2]
    · simp [h1, h2]
  · simp [h1]

/-- All four combinations of right and wrong arguments. -/
example : (∃ g, geometry2D "quadrilateral" "external" 10 20 false = .ok g) ∧
    geometry2D "triangle" "gmsh" 10 20 false = .error (.valueError, "mesh_generation_method") ∧
    geometry2D "triangle" "internal" 10 20 false = .error (.valueError, "mesh_type") :=
  ⟨(C01_constructor _ _ _ _ _).1.2 (by simp), (C01_constructor _ _ _ _ _).2.1 (by simp),
    (C01_constructor _ _ _ _ _).2.2.1 (by simp) (by simp)⟩

/-- The list of cells before sorting. -/
lemma internalCellsLoop_getElem? (x y : ℝ × ℝ) (nx ny i j : ℕ) (hi : i < nx) (hj : j < ny) :
    (internalCellsLoop x y nx ny)[i * ny + j]? = some (gridCell x y nx ny i j) := by
  have h := flatMap_getElem? (List.finRange nx) (List.finRange ny) (fun i j =>
    (![(linspace x.1 x.2 (nx + 1) i.castSucc, linspace y.1 y.2 (ny + 1) j.castSucc),
      (linspace x.1 x.2 (nx + 1) i.succ, linspace y.1 y.2 (ny + 1) j.castSucc),
      (linspace x.1 x.2 (nx + 1) i.succ, linspace y.1 y.2 (ny + 1) j.succ),
      (linspace x.1 x.2 (nx + 1) i.castSucc, linspace y.1 y.2 (ny + 1) j.succ)] : Quad)) i j
    (by simpa using hj)
  simp only [List.length_finRange] at h
  unfold internalCellsLoop
  rw [h]
  simp [hi, hj, linspace_eq_gridLine, gridCell, rectangle]

lemma internalCellsLoop_length (x y : ℝ × ℝ) (nx ny : ℕ) :
    (internalCellsLoop x y nx ny).length = nx * ny := by
  simp [internalCellsLoop]

/-- **C02.**  `generate_quad_mesh_internal` returns `nx * ny` cells; the one at position `i*ny+j` is
the grid rectangle in column `i` and row `j`, corners listed bottom-left, bottom-right, top-right,
top-left. -/
theorem C02_internal_cells (g : Geometry2D) (x y : ℝ × ℝ) (hx : x.1 < x.2) (hy : y.1 < y.2)
    (nx ny nb : ℕ) (s : Fin 4 → Fin (nb / 4) → ℝ) :
    (generateQuadMeshInternal g x y nx ny nb s).cells.length = nx * ny ∧
    ∀ i < nx, ∀ j < ny, (generateQuadMeshInternal g x y nx ny nb s).cells[i * ny + j]?
      = some (gridCell x y nx ny i j) := by
  refine ⟨by simp [generateQuadMeshInternal, internalCellsLoop_length], fun i hi j hj => ?_⟩
  simp only [generateQuadMeshInternal, List.getElem?_map,
    internalCellsLoop_getElem? x y nx ny i j hi hj, Option.map_some]
  rw [gridCell, sortCell_rectangle (gridLine_lt hx (by omega) (by omega))
    (gridLine_lt hy (by omega) (by omega))]

/-- A 3×2 mesh of `[0,3]×[0,2]`: cell number 3 is the middle one of the upper row. -/
example (g : Geometry2D) (s : Fin 4 → Fin (100 / 4) → ℝ) :
    (generateQuadMeshInternal g (0, 3) (0, 2) 3 2 100 s).cells[3]?
      = some ![(1, 1), (2, 1), (2, 2), (1, 2)] := by
  have := (C02_internal_cells g (0, 3) (0, 2) (by norm_num) (by norm_num) 3 2 100 s).2 1
    (by norm_num) 1 (by norm_num)
  rw [show 1 * 2 + 1 = 3 by norm_num] at this
  rw [this]
  norm_num [gridCell, rectangle, gridLine]

/-- Every cell of the list is a grid cell. -/
lemma mem_internal_cells (g : Geometry2D) (x y : ℝ × ℝ) (hx : x.1 < x.2) (hy : y.1 < y.2)
    (nx ny nb : ℕ) (s : Fin 4 → Fin (nb / 4) → ℝ) (k : ℕ) (hk : k < nx * ny) :
    k / ny < nx ∧ k % ny < ny ∧ (generateQuadMeshInternal g x y nx ny nb s).cells[k]?
      = some (gridCell x y nx ny (k / ny) (k % ny)) := by
  have hny : 0 < ny := by
    rcases Nat.eq_zero_or_pos ny with h | h
    · subst h; simp at hk
    · exact h
  have h1 : k / ny < nx := (Nat.div_lt_iff_lt_mul hny).2 hk
  have h2 : k % ny < ny := Nat.mod_lt _ hny
  refine ⟨h1, h2, ?_⟩
  have := (C02_internal_cells g x y hx hy nx ny nb s).2 _ h1 _ h2
  rwa [show k / ny * ny + k % ny = k by rw [mul_comm]; exact Nat.div_add_mod k ny] at this

/-- **C03.**  The cells tile the domain: a point is in the domain iff it is in (the convex hull of
the vertices of) some cell, and cells at different positions have disjoint interiors. -/
theorem C03_tiling (g : Geometry2D) (x y : ℝ × ℝ) (hx : x.1 < x.2) (hy : y.1 < y.2)
    (nx ny nb : ℕ) (hnx : 0 < nx) (hny : 0 < ny) (s : Fin 4 → Fin (nb / 4) → ℝ) :
    (∀ p : ℝ × ℝ, p ∈ domain x y ↔
      ∃ c ∈ (generateQuadMeshInternal g x y nx ny nb s).cells, p ∈ convexHull ℝ (Set.range c)) ∧
    ∀ (k l : ℕ) (c d : Quad), k ≠ l →
      (generateQuadMeshInternal g x y nx ny nb s).cells[k]? = some c →
      (generateQuadMeshInternal g x y nx ny nb s).cells[l]? = some d →
      Disjoint (interior (convexHull ℝ (Set.range c))) (interior (convexHull ℝ (Set.range d))) := by
  have hull : ∀ i j, convexHull ℝ (Set.range (gridCell x y nx ny i j))
      = Set.Icc (gridLine x.1 x.2 nx i) (gridLine x.1 x.2 nx (i + 1)) ×ˢ
        Set.Icc (gridLine y.1 y.2 ny j) (gridLine y.1 y.2 ny (j + 1)) := fun i j =>
    hull_rectangle (gridLine_mono hx.le (by omega)) (gridLine_mono hy.le (by omega))
  have hlen := (C02_internal_cells g x y hx hy nx ny nb s).1
  constructor
  · intro p
    constructor
    · rintro ⟨h1, h2⟩
      obtain ⟨i, hi, hpi⟩ := exists_grid_interval hnx h1
      obtain ⟨j, hj, hpj⟩ := exists_grid_interval hny h2
      refine ⟨gridCell x y nx ny i j, List.mem_of_getElem?
        ((C02_internal_cells g x y hx hy nx ny nb s).2 i hi j hj), ?_⟩
      rw [hull]
      exact ⟨hpi, hpj⟩
    · rintro ⟨c, hc, hp⟩
      obtain ⟨k, hk, rfl⟩ := List.getElem_of_mem hc
      obtain ⟨hi, hj, he⟩ := mem_internal_cells g x y hx hy nx ny nb s k (hlen ▸ hk)
      rw [List.getElem?_eq_getElem hk] at he
      rw [Option.some.inj he, hull] at hp
      obtain ⟨⟨h1, h2⟩, h3, h4⟩ := hp
      refine ⟨⟨le_trans ?_ h1, h2.trans ?_⟩, le_trans ?_ h3, h4.trans ?_⟩
      · exact (gridLine_zero x.1 x.2 nx).symm.le.trans (gridLine_mono hx.le (Nat.zero_le _))
      · exact (gridLine_mono hx.le (by omega)).trans (gridLine_last x.1 x.2 hnx).le
      · exact (gridLine_zero y.1 y.2 ny).symm.le.trans (gridLine_mono hy.le (Nat.zero_le _))
      · exact (gridLine_mono hy.le (by omega)).trans (gridLine_last y.1 y.2 hny).le
  · intro k l c d hkl hc hd
    obtain ⟨hk, -⟩ := List.getElem?_eq_some_iff.1 hc
    obtain ⟨hl, -⟩ := List.getElem?_eq_some_iff.1 hd
    obtain ⟨-, -, ec⟩ := mem_internal_cells g x y hx hy nx ny nb s k (hlen ▸ hk)
    obtain ⟨-, -, ed⟩ := mem_internal_cells g x y hx hy nx ny nb s l (hlen ▸ hl)
    have ec' := Option.some.inj (hc.symm.trans ec)
    have ed' := Option.some.inj (hd.symm.trans ed)
    rw [ec', ed', hull, hull, interior_prod_eq, interior_prod_eq, interior_Icc, interior_Icc,
      interior_Icc, interior_Icc, Set.disjoint_left]
    rintro p ⟨⟨p1, p2⟩, p3, p4⟩ ⟨⟨q1, q2⟩, q3, q4⟩
    have e1 : k / ny = l / ny := by
      by_contra hne
      rcases Nat.lt_or_gt_of_ne hne with h | h
      · have := gridLine_mono hx.le (n := nx) (show k / ny + 1 ≤ l / ny by omega)
        linarith
      · have := gridLine_mono hx.le (n := nx) (show l / ny + 1 ≤ k / ny by omega)
        linarith
    have e2 : k % ny = l % ny := by
      by_contra hne
      rcases Nat.lt_or_gt_of_ne hne with h | h
      · have := gridLine_mono hy.le (n := ny) (show k % ny + 1 ≤ l % ny by omega)
        linarith
      · have := gridLine_mono hy.le (n := ny) (show l % ny + 1 ≤ k % ny by omega)
        linarith
    exact hkl (by rw [← Nat.div_add_mod k ny, ← Nat.div_add_mod l ny, e1, e2])

/-- The hypotheses hold for a 3×2 mesh; its interiors are not empty. -/
example (g : Geometry2D) (s : Fin 4 → Fin (100 / 4) → ℝ) :
    (∃ c ∈ (generateQuadMeshInternal g (0, 3) (-1, 1) 3 2 100 s).cells,
      ((1.5, 0.25) : ℝ × ℝ) ∈ convexHull ℝ (Set.range c)) ∧
    (interior (convexHull ℝ (Set.range (gridCell (0, 3) (-1, 1) 3 2 0 0)))).Nonempty := by
  refine ⟨((C03_tiling g (0, 3) (-1, 1) (by norm_num) (by norm_num) 3 2 100 (by norm_num)
    (by norm_num) s).1 _).1 ?_, ⟨(0.5, -0.5), ?_⟩⟩
  · norm_num [domain]
  · rw [gridCell, hull_rectangle (by norm_num [gridLine]) (by norm_num [gridLine]),
      interior_prod_eq, interior_Icc, interior_Icc]
    norm_num [gridLine]

/-- **C04.**  The boundary dictionary has the keys 1000, 1001, 1002, 1003 in this order, each with
`⌊n/4⌋` points; for every outcome of the sampler in `[0,1]` they lie on the bottom, right, top and
left side; at most three of the `n` requested points are lost. -/
theorem C04_internal_boundary (g : Geometry2D) (x y : ℝ × ℝ) (hx : x.1 ≤ x.2) (hy : y.1 ≤ y.2)
    (nx ny nb : ℕ) (s : Fin 4 → Fin (nb / 4) → ℝ) (hs : ∀ a k, 0 ≤ s a k ∧ s a k ≤ 1) :
    ∃ bottom right top left : List (ℝ × ℝ),
      (generateQuadMeshInternal g x y nx ny nb s).bdDict
        = [(1000, bottom), (1001, right), (1002, top), (1003, left)] ∧
      (∀ l ∈ [bottom, right, top, left], l.length = nb / 4) ∧
      (∀ p ∈ bottom, p.2 = y.1 ∧ x.1 ≤ p.1 ∧ p.1 ≤ x.2) ∧
      (∀ p ∈ right, p.1 = x.2 ∧ y.1 ≤ p.2 ∧ p.2 ≤ y.2) ∧
      (∀ p ∈ top, p.2 = y.2 ∧ x.1 ≤ p.1 ∧ p.1 ≤ x.2) ∧
      (∀ p ∈ left, p.1 = x.1 ∧ y.1 ≤ p.2 ∧ p.2 ≤ y.2) ∧
      bottom.length + right.length + top.length + left.length ≤ nb ∧
      nb ≤ bottom.length + right.length + top.length + left.length + 3 := by
  have key : ∀ a b : ℝ, a ≤ b → ∀ (t : Fin (nb / 4) → ℝ), (∀ k, 0 ≤ t k ∧ t k ≤ 1) →
      ∀ k, a ≤ tempBdFunc t a b k ∧ tempBdFunc t a b k ≤ b := by
    intro a b hab t ht k
    simp only [tempBdFunc]
    have h1 := mul_nonneg (ht k).1 (sub_nonneg.2 hab)
    have h2 := mul_nonneg (sub_nonneg.2 (ht k).2) (sub_nonneg.2 hab)
    constructor <;> linarith
  refine ⟨_, _, _, _, rfl, ?_, ?_, ?_, ?_, ?_, ?_, ?_⟩
  · simp
  · intro p hp
    obtain ⟨k, rfl⟩ := List.mem_ofFn.1 hp
    exact ⟨rfl, key _ _ hx _ (hs 0) k⟩
  · intro p hp
    obtain ⟨k, rfl⟩ := List.mem_ofFn.1 hp
    exact ⟨rfl, key _ _ hy _ (hs 1) k⟩
  · intro p hp
    obtain ⟨k, rfl⟩ := List.mem_ofFn.1 hp
    exact ⟨rfl, key _ _ hx _ (hs 2) k⟩
  · intro p hp
    obtain ⟨k, rfl⟩ := List.mem_ofFn.1 hp
    exact ⟨rfl, key _ _ hy _ (hs 3) k⟩
  · simp only [List.length_ofFn]; omega
  · simp only [List.length_ofFn]; omega

/-- **C04** (position on the side).  Point number `k` of a side divides the side in the ratio of sample
number `k` drawn for that side: sample `0` is the first and sample `1` the second end point (sides taken
in the direction of increasing coordinate).  So the distribution along the side is the sampler's, and the
four sides use their own samples. -/
theorem C04_positions (g : Geometry2D) (x y : ℝ × ℝ) (nx ny nb : ℕ) (s : Fin 4 → Fin (nb / 4) → ℝ)
    (bottom right top left : List (ℝ × ℝ))
    (h : (generateQuadMeshInternal g x y nx ny nb s).bdDict
      = [(1000, bottom), (1001, right), (1002, top), (1003, left)]) (k : Fin (nb / 4)) :
    bottom[k.val]? = some (AffineMap.lineMap (x.1, y.1) (x.2, y.1) (s 0 k)) ∧
    right[k.val]? = some (AffineMap.lineMap (x.2, y.1) (x.2, y.2) (s 1 k)) ∧
    top[k.val]? = some (AffineMap.lineMap (x.1, y.2) (x.2, y.2) (s 2 k)) ∧
    left[k.val]? = some (AffineMap.lineMap (x.1, y.1) (x.1, y.2) (s 3 k)) := by
  simp only [generateQuadMeshInternal, internalBoundary, List.cons.injEq, Prod.mk.injEq, true_and,
    and_true] at h
  obtain ⟨rfl, rfl, rfl, rfl⟩ := h
  simp [AffineMap.lineMap_apply, tempBdFunc]

/-- 403 requested points give 4 × 100, for a sampler that always returns the mid-point. -/
example (g : Geometry2D) : ∃ bottom right top left : List (ℝ × ℝ),
    (generateQuadMeshInternal g (0, 1) (0, 1) 2 2 403 fun _ _ => 1 / 2).bdDict
        = [(1000, bottom), (1001, right), (1002, top), (1003, left)] ∧ top.length = 100 ∧
      ∀ p ∈ top, p.2 = 1 := by
  obtain ⟨b, r, t, l, h1, h2, -, -, h5, -⟩ := C04_internal_boundary g (0, 1) (0, 1) (by norm_num)
    (by norm_num) 2 2 403 (fun _ _ => 1 / 2) (fun _ _ => by norm_num)
  exact ⟨b, r, t, l, h1, h2 t (by simp), fun p hp => (h5 p hp).1⟩

/-- **C05.**  After `generate_quad_mesh_internal` on an `internal` geometry, `get_test_points` returns
`nx * ny` points; number `nx*j+i` is node `(i, j)` of the tensor grid of equidistant nodes including
the end points of the domain. -/
theorem C05_test_points (mt : String) (tx ty : ℕ) (opt : Bool) (g : Geometry2D)
    (hg : geometry2D mt "internal" tx ty opt = .ok g)
    (x y : ℝ × ℝ) (nx ny nb : ℕ) (s : Fin 4 → Fin (nb / 4) → ℝ)
    (vtk : Except PyErr (List (ℝ × ℝ × ℝ))) :
    ∃ pts, getTestPoints (generateQuadMeshInternal g x y nx ny nb s).geometry vtk = .ok pts ∧
      pts.length = tx * ty ∧
      (∀ i < tx, ∀ j < ty, pts[tx * j + i]?
        = some (gridLine x.1 x.2 (tx - 1) i, gridLine y.1 y.2 (ty - 1) j)) ∧
      (x.1 ≤ x.2 → y.1 ≤ y.2 → ∀ p ∈ pts, p ∈ domain x y) ∧
      (2 ≤ tx → 2 ≤ ty →
        (x.1, y.1) ∈ pts ∧ (x.2, y.1) ∈ pts ∧ (x.2, y.2) ∈ pts ∧ (x.1, y.2) ∈ pts) := by
  have hfield := (C01_constructor mt "internal" tx ty opt).2.2.2 g hg
  obtain ⟨-, hm, htx, hty, -⟩ := hfield
  subst htx; subst hty
  have hpts : ∃ pts, getTestPoints (generateQuadMeshInternal g x y nx ny nb s).geometry vtk
      = .ok pts ∧ pts = List.ofFn fun k : Fin (g.nTestPointsY * g.nTestPointsX) =>
        (linspace x.1 x.2 g.nTestPointsX k.modNat, linspace y.1 y.2 g.nTestPointsY k.divNat) := by
    refine ⟨_, ?_, rfl⟩
    simp only [getTestPoints, generateQuadMeshInternal, hm, if_true]
    rfl
  obtain ⟨pts, h1, h2⟩ := hpts
  have hlin : ∀ (a b : ℝ) (n : ℕ) (i : Fin n), linspace a b n i = gridLine a b (n - 1) i.val := by
    intro a b n i
    obtain ⟨m, rfl⟩ : ∃ m, n = m + 1 := ⟨n - 1, by have := i.isLt; omega⟩
    rw [linspace_eq_gridLine]; simp
  have hlen : pts.length = g.nTestPointsX * g.nTestPointsY := by
    rw [h2, List.length_ofFn, mul_comm]
  have hget : ∀ i < g.nTestPointsX, ∀ j < g.nTestPointsY, pts[g.nTestPointsX * j + i]?
        = some (gridLine x.1 x.2 (g.nTestPointsX - 1) i,
          gridLine y.1 y.2 (g.nTestPointsY - 1) j) := by
    intro i hi j hj
    have hk : g.nTestPointsX * j + i < g.nTestPointsY * g.nTestPointsX := by
      calc g.nTestPointsX * j + i < g.nTestPointsX * j + g.nTestPointsX := by omega
        _ = g.nTestPointsX * (j + 1) := by ring
        _ ≤ g.nTestPointsX * g.nTestPointsY := Nat.mul_le_mul_left _ hj
        _ = _ := mul_comm _ _
    rw [h2, List.getElem?_ofFn, dif_pos hk, hlin, hlin]
    have e1 : (g.nTestPointsX * j + i) % g.nTestPointsX = i := by
      rw [Nat.mul_add_mod, Nat.mod_eq_of_lt hi]
    have e2 : (g.nTestPointsX * j + i) / g.nTestPointsX = j := by
      rw [Nat.mul_add_div (by omega), Nat.div_eq_of_lt hi, add_zero]
    simp only [Fin.modNat, Fin.divNat, e1, e2]
  refine ⟨pts, h1, hlen, hget, ?_, ?_⟩
  · intro hx hy p hp
    rw [h2] at hp
    obtain ⟨k, rfl⟩ := List.mem_ofFn.1 hp
    have hX : ∀ (a b : ℝ) (n : ℕ) (i : Fin n), a ≤ b → linspace a b n i ∈ Set.Icc a b := by
      intro a b n i hab
      rw [hlin]
      refine ⟨(gridLine_zero a b _).symm.le.trans (gridLine_mono hab (by omega)), ?_⟩
      rcases Nat.eq_zero_or_pos (n - 1) with h0 | h0
      · have : i.val = 0 := by have := i.isLt; omega
        rw [this, gridLine_zero]; exact hab
      · exact (gridLine_mono hab (by have := i.isLt; omega)).trans (gridLine_last a b h0).le
    exact ⟨hX _ _ _ _ hx, hX _ _ _ _ hy⟩
  · intro hx hy
    have corner : ∀ i < g.nTestPointsX, ∀ j < g.nTestPointsY,
        (gridLine x.1 x.2 (g.nTestPointsX - 1) i, gridLine y.1 y.2 (g.nTestPointsY - 1) j) ∈ pts :=
      fun i hi j hj => List.mem_of_getElem? (hget i hi j hj)
    have a := gridLine_zero x.1 x.2 (g.nTestPointsX - 1)
    have b := gridLine_last x.1 x.2 (show 0 < g.nTestPointsX - 1 by omega)
    have c := gridLine_zero y.1 y.2 (g.nTestPointsY - 1)
    have d := gridLine_last y.1 y.2 (show 0 < g.nTestPointsY - 1 by omega)
    refine ⟨?_, ?_, ?_, ?_⟩
    · simpa only [a, c] using corner 0 (by omega) 0 (by omega)
    · simpa only [b, c] using corner (g.nTestPointsX - 1) (by omega) 0 (by omega)
    · simpa only [b, d] using corner (g.nTestPointsX - 1) (by omega) (g.nTestPointsY - 1) (by omega)
    · simpa only [a, d] using corner 0 (by omega) (g.nTestPointsY - 1) (by omega)

/-- **C05** (external geometries).  On an `external` geometry the test points are the first two
coordinates of the points of the VTK file, one per point and in the order of the file; an error in reading
that file is passed on.  On an `internal` geometry without mesh, `get_test_points` is a `TypeError`. -/
theorem C05_external_points (mt : String) (tx ty : ℕ) (opt : Bool) (g : Geometry2D)
    (vtk : Except PyErr (List (ℝ × ℝ × ℝ))) :
    (geometry2D mt "external" tx ty opt = .ok g →
      (∀ e, vtk = .error e → getTestPoints g vtk = .error e) ∧
      ∀ file, vtk = .ok file → ∃ pts, getTestPoints g vtk = .ok pts ∧ pts.length = file.length ∧
        ∀ (k : ℕ) (a b c : ℝ), file[k]? = some (a, b, c) → pts[k]? = some (a, b)) ∧
    (geometry2D mt "internal" tx ty opt = .ok g → getTestPoints g vtk = .error .typeError) := by
  refine ⟨fun hg => ?_, fun hg => ?_⟩
  · obtain ⟨-, hm, -⟩ := (C01_constructor mt "external" tx ty opt).2.2.2 g hg
    have hne : ¬ (g.meshGenerationMethod = "internal") := by rw [hm]; decide
    refine ⟨?_, ?_⟩
    · rintro e rfl
      simp [getTestPoints, hm]
    · rintro file rfl
      refine ⟨file.map fun p => (p.1, p.2.1), by simp [getTestPoints, hm], by simp, ?_⟩
      intro k a b c hk
      simp [hk]
  · simp only [geometry2D] at hg
    split_ifs at hg
    cases hg
    rfl

example : ∃ g, geometry2D "quadrilateral" "external" 10 20 true = .ok g ∧
    getTestPoints g (.ok [(0, 0, 0), (2, 3, 0)]) = .ok [(0, 0), (2, 3)] := by
  obtain ⟨g, hg⟩ := (C01_constructor "quadrilateral" "external" 10 20 true).1.2 (by simp)
  obtain ⟨pts, h1, h2, h3⟩ := ((C05_external_points _ _ _ _ g _).1 hg).2 _ rfl
  refine ⟨g, hg, h1.trans (congrArg _ ?_)⟩
  refine List.ext_getElem? fun k => ?_
  match k with
  | 0 => simpa using h3 0 0 0 0 rfl
  | 1 => simpa using h3 1 2 3 0 rfl
  | k + 2 => simp [h2]

/-- The hypothesis is met by every constructed internal geometry. -/
example : ∃ g, geometry2D "quadrilateral" "internal" 10 20 true = .ok g :=
  (C01_constructor _ _ _ _ _).1.2 (by simp)

end FastVPINNs
