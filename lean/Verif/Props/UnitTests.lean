import Verif.Spec.UnitTests
import Verif.Props.CellGeometry
import Verif.Props.DataHandler

/-! # C114: what the unit tests assert holds for all parameters -/

namespace FastVPINNs

open Spec

/-! ### The space of a test -/

lemma sidesDict_lookup {α : Type} (g : ℤ → α) {t : ℤ} (ht : t ∈ ([1000, 1001, 1002, 1003] : List ℤ)) :
    (sidesDict g).lookup t = some (g t) := by
  simp only [List.mem_cons, List.not_mem_nil, or_false] at ht
  rcases ht with rfl | rfl | rfl | rfl <;> rfl

lemma internal_keys {g : Geometry2D} {x y : ℝ × ℝ} {nx ny nb : ℕ} {smp : Fin 4 → Fin (nb / 4) → ℝ}
    {e : ℤ × List (ℝ × ℝ)} (he : e ∈ (generateQuadMeshInternal g x y nx ny nb smp).bdDict) :
    e.1 ∈ ([1000, 1001, 1002, 1003] : List ℤ) := by
  simp only [generateQuadMeshInternal, internalBoundary, List.mem_cons, List.not_mem_nil, or_false] at he
  rcases he with rfl | rfl | rfl | rfl <;> simp

/-- The space of a test with an internal mesh can be built. -/
lemma test_space {F V : Type} (ext : QuadRoutines) (g : Geometry2D) (hg : g.meshType = "quadrilateral")
    {x y : ℝ × ℝ} (hx : x.1 < x.2) (hy : y.1 < y.2) {nx ny : ℕ} (hnx : 0 < nx) (hny : 0 < ny) (nb : ℕ)
    (smp : Fin 4 → Fin (nb / 4) → ℝ) {p : TestSpace} (hp : Accepted p) (dict : List (ℤ × (ℝ → ℝ → V)))
    (hd : ∀ t ∈ ([1000, 1001, 1002, 1003] : List ℤ), ∃ h, dict.lookup t = some h) (f : F) :
    ∃ nq S, fespace2D ext (generateQuadMeshInternal g x y nx ny nb smp).meshPoints
      (generateQuadMeshInternal g x y nx ny nb smp).cells (generateQuadMeshInternal g x y nx ny nb smp).bdDict
      (p.settings g) dict f false = .ok ⟨nq, S⟩ := by
  refine (C63_constructor ext _ _ _ _ _ _).2 ⟨hg, ?_, hp.order, ?_, hp.points, hp.rule, ?_, ?_⟩
  · apply List.ne_nil_of_length_pos
    rw [(C02_internal_cells g x y hx hy nx ny nb smp).1]
    positivity
  · simpa [supportedFeType, TestSpace.settings] using hp.type
  · refine hp.map.imp id fun h => ⟨h, fun c hc => ?_⟩
    obtain ⟨k, hk⟩ := List.mem_iff_getElem?.1 hc
    obtain ⟨hk', -⟩ := List.getElem?_eq_some_iff.1 hk
    rw [(C02_internal_cells g x y hx hy nx ny nb smp).1] at hk'
    obtain ⟨-, -, hkm⟩ := mem_internal_cells g x y hx hy nx ny nb smp k hk'
    rw [hk] at hkm
    cases hkm
    have e1 := gridLine_lt hx hnx (Nat.lt_succ_self (k / ny))
    have e2 := gridLine_lt hy hny (Nat.lt_succ_self (k % ny))
    simp only [gridCell, rectangle, cross]
    simp only [Matrix.cons_val_zero, Matrix.cons_val_one, Matrix.cons_val, sub_self, zero_mul, sub_zero]
    exact (mul_pos (sub_pos.2 e1) (sub_pos.2 e2)).ne'
  · exact fun e he _ => hd e.1 (internal_keys he)

/-- A test with an internal mesh builds its space and goes on. -/
lemma withInternalSpace_eq {F V : Type} (ext : QuadRoutines) (tx ty : ℕ) {x y : ℝ × ℝ} (hx : x.1 < x.2)
    (hy : y.1 < y.2) {nx ny : ℕ} (hnx : 0 < nx) (hny : 0 < ny) (nb : ℕ) (smp : Fin 4 → Fin (nb / 4) → ℝ)
    {p : TestSpace} (hp : Accepted p) (dict : List (ℤ × (ℝ → ℝ → V)))
    (hd : ∀ t ∈ ([1000, 1001, 1002, 1003] : List ℤ), ∃ h, dict.lookup t = some h) (f : F) :
    ∃ g nq, geometry2D "quadrilateral" "internal" tx ty false = .ok g ∧
      ∃ S : Fespace2D F V ((p.settings g).feOrder.toNat ^ 2) nq,
      fespace2D ext (generateQuadMeshInternal g x y nx ny nb smp).meshPoints
        (generateQuadMeshInternal g x y nx ny nb smp).cells (generateQuadMeshInternal g x y nx ny nb smp).bdDict
        (p.settings g) dict f false = .ok ⟨nq, S⟩ ∧
      ∀ body : InternalMesh → (nt nq : ℕ) → Fespace2D F V nt nq → Except PyErr Bool,
        withInternalSpace ext tx ty x y nx ny nb smp p dict f body
          = body (generateQuadMeshInternal g x y nx ny nb smp) _ nq S := by
  obtain ⟨g, hg⟩ := (C01_constructor "quadrilateral" "internal" tx ty false).1.2 ⟨Or.inl rfl, rfl⟩
  have hm := ((C01_constructor "quadrilateral" "internal" tx ty false).2.2.2 g hg).1
  obtain ⟨nq, S, hS⟩ := test_space ext g hm hx hy hnx hny nb smp hp dict hd f
  refine ⟨g, nq, hg, S, hS, fun body => ?_⟩
  unfold withInternalSpace
  rw [hg]
  simp only [hS]

/-! ### Areas -/

lemma foldl_cells {F : Type} {nt nq : ℕ} (l : List (FE2DCell F nt nq)) (a : ℝ) :
    l.foldl (fun s c => s + ∑ q, c.mult q) a = a + (l.map fun c => ∑ q, c.mult q).sum := by
  induction l generalizing a with
  | nil => simp
  | cons c l ih => rw [List.foldl_cons, ih, List.map_cons, List.sum_cons]; ring

/-- `int_sum` of the tests from what the accessors report. -/
lemma intSum_eq {F V : Type} {nt nq n : ℕ} (S : Fespace2D F V nt nq) (hn : S.feCell.length = n)
    (w : Fin n → Fin nq → ℝ) (hw : ∀ k : Fin n, S.getQuadratureWeights k = .ok (w k)) :
    S.feCell.foldl (fun s c => s + ∑ q, c.mult q) 0 = ∑ k, ∑ q, w k q := by
  subst hn
  rw [foldl_cells, zero_add]
  conv_lhs => rw [← List.ofFn_getElem (xs := S.feCell), List.map_ofFn, List.sum_ofFn]
  refine Finset.sum_congr rfl fun k _ => ?_
  have h1 : S.cellAt k.val = .ok S.feCell[k] :=
    (cellAt_nat S k.val _).2 (List.getElem?_eq_getElem k.isLt)
  have h2 := hw k
  simp only [Fespace2D.getQuadratureWeights, h1, Except.ok.injEq] at h2
  rw [← h2]
  rfl

/-- **C114** (`test_quadrature_uniform`).  The test passes for every rectangle, every number of cells and boundary points,
every outcome of the sampler and all arguments that `Fespace2D` accepts, not only for those that it samples. -/
theorem C114_quadrature_uniform (ext : QuadRoutines) (x y : ℝ × ℝ) (hx : x.1 < x.2) (hy : y.1 < y.2) (nx ny : ℕ)
    (hnx : 0 < nx) (hny : 0 < ny) (nb : ℕ) (smp : Fin 4 → Fin (nb / 4) → ℝ) (p : TestSpace) (hp : Accepted p)
    (hr : RoutinesOK ext p.quadOrder p.quadType) :
    testQuadratureUniform ext x y nx ny nb smp p = .ok true := by
  unfold testQuadratureUniform
  obtain ⟨g, nq, -, S, hS, e⟩ := withInternalSpace_eq ext 10 10 hx hy hnx hny nb smp hp
    (sidesDict fun _ _ _ => (1 : ℝ)) (fun t ht => ⟨_, sidesDict_lookup _ ht⟩) (fun _ _ : ℝ => (1 : ℝ))
  rw [e]
  obtain ⟨w, hw, hs⟩ := C31_internal ext _ _ _ _ _ false S g x y hx hy nx ny nb smp hS hr
  have hlen : S.feCell.length = nx * ny :=
    (fespace_cell hS).1.trans (C02_internal_cells g x y hx hy nx ny nb smp).1
  have : NpIsclose (S.feCell.foldl (fun s c => s + ∑ q, c.mult q) 0) ((x.2 - x.1) * (y.2 - y.1)) 1e-4 1e-8 := by
    rw [intSum_eq S hlen w hw, hs, NpIsclose, sub_self, abs_zero]
    positivity
  simp [areaAssert, this]

/-- **C114** (`test_quadrature_complex`).  With `"bilinear"` and convex cells the test compares the total area of the cells
with the expected area; with `"affine"` it compares the total area of the parallelograms spanned by the sides at
vertex 0 of the cells. -/
theorem C114_quadrature_complex (ext : QuadRoutines) (mp : List (ℝ × ℝ)) (cells : List Quad) (hc : cells ≠ [])
    (bd : BdDict) (hbd : ∀ e ∈ bd, e.1 = 1000) (p : TestSpace) (hp : Accepted p)
    (hr : RoutinesOK ext p.quadOrder p.quadType) (area : ℝ) :
    (p.transformation = "bilinear" → (∀ c ∈ cells, ConvexCCW c) →
      ∃ b, testQuadratureComplex ext mp cells bd p area = .ok b ∧
        (b = true ↔ |(cells.map polygonArea).sum - area| ≤ 1e-8 + 1e-2 * |area|)) ∧
    (p.transformation = "affine" → (∀ c ∈ cells, cross (c 0) (c 1) (c 3) ≠ 0) →
      ∃ b, testQuadratureComplex ext mp cells bd p area = .ok b ∧
        (b = true ↔
          |(cells.map fun c => |cross (c 0) (c 1) (c 3)|).sum - area| ≤ 1e-8 + 1e-2 * |area|)) := by
  have key : ∀ (A : Quad → ℝ),
      (p.transformation = "bilinear" ∨ p.transformation = "affine" ∧ ∀ c ∈ cells, cross (c 0) (c 1) (c 3) ≠ 0) →
      (∀ {nq : ℕ} (S : Fespace2D (ℝ → ℝ → ℝ) ℝ (p.feOrder.toNat ^ 2) nq),
        fespace2D ext mp cells bd
          ⟨"quadrilateral", p.feOrder, p.feType, p.quadOrder, p.quadType, p.transformation⟩
          [(1000, fun _ _ => (1 : ℝ))] (fun _ _ : ℝ => (1 : ℝ)) false = .ok ⟨nq, S⟩ →
        ∀ (k : ℕ) (c : Quad), cells[k]? = some c → ∃ w, S.getQuadratureWeights k = .ok w ∧ ∑ q, w q = A c) →
      ∃ b, testQuadratureComplex ext mp cells bd p area = .ok b ∧
        (b = true ↔ |(cells.map A).sum - area| ≤ 1e-8 + 1e-2 * |area|) := by
    intro A htr hA
    obtain ⟨nq, S, hS⟩ := (C63_constructor ext mp cells bd
      ⟨"quadrilateral", p.feOrder, p.feType, p.quadOrder, p.quadType, p.transformation⟩
      [(1000, fun _ _ => (1 : ℝ))] (fun _ _ : ℝ => (1 : ℝ))).2
      ⟨rfl, hc, hp.order, by simpa [supportedFeType] using hp.type, hp.points, hp.rule, htr,
        fun e he _ => ⟨_, by rw [hbd e he]; rfl⟩⟩
    have h1 : ∀ k : Fin cells.length, ∃ w, S.getQuadratureWeights k = .ok w ∧ ∑ q, w q = A cells[k] := fun k =>
      hA S hS k _ (List.getElem?_eq_getElem k.isLt)
    choose w hw hs using h1
    have hsum : ∑ k, ∑ q, w k q = (cells.map A).sum := by
      rw [Finset.sum_congr rfl fun k _ => hs k]
      conv_rhs => rw [← List.ofFn_getElem (xs := cells), List.map_ofFn, List.sum_ofFn]
      rfl
    refine ⟨areaAssert S area 1e-2, ?_, ?_⟩
    · unfold testQuadratureComplex
      simp only [hS]
    · simp only [areaAssert, decide_eq_true_eq, intSum_eq S (fespace_cell hS).1 w hw, hsum, NpIsclose]
  refine ⟨fun hb hconv => key polygonArea (Or.inl hb) fun S hS k c hk => ?_,
    fun ha hdeg => key _ (Or.inr ⟨ha, hdeg⟩) fun S hS k c hk => ?_⟩
  · obtain ⟨w, h1, h2, -⟩ := C31_weights ext mp cells bd
      ⟨"quadrilateral", p.feOrder, p.feType, p.quadOrder, p.quadType, p.transformation⟩ _ _ false S hS hr k c hk
    exact ⟨w, h1, (h2 hb (hconv c (List.mem_of_getElem? hk))).2⟩
  · obtain ⟨w, h1, -, h2⟩ := C31_weights ext mp cells bd
      ⟨"quadrilateral", p.feOrder, p.feType, p.quadOrder, p.quadType, p.transformation⟩ _ _ false S hS hr k c hk
    exact ⟨w, h1, (h2 ha).2⟩

/-- **C114** (`test_quadrature_complex` with `"affine"`).  For a mesh whose cells are no parallelograms this test may fail
although the same test with `"bilinear"` passes: a trapezoid of area 3/2. -/
theorem C114_quadrature_affine (ext : QuadRoutines) (p : TestSpace) (hp : Accepted p)
    (hr : RoutinesOK ext p.quadOrder p.quadType) :
    testQuadratureComplex ext [] [![(0, 0), (2, 0), (1, 1), (0, 1)]] [] { p with transformation := "bilinear" }
        (3 / 2) = .ok true ∧
      testQuadratureComplex ext [] [![(0, 0), (2, 0), (1, 1), (0, 1)]] [] { p with transformation := "affine" }
        (3 / 2) = .ok false := by
  have h1 := (C114_quadrature_complex ext [] [![(0, 0), (2, 0), (1, 1), (0, 1)]] (by simp) [] (by simp)
    { p with transformation := "bilinear" } ⟨hp.order, hp.type, hp.points, hp.rule, Or.inl rfl⟩ hr (3 / 2)).1 rfl
  have h2 := (C114_quadrature_complex ext [] [![(0, 0), (2, 0), (1, 1), (0, 1)]] (by simp) [] (by simp)
    { p with transformation := "affine" } ⟨hp.order, hp.type, hp.points, hp.rule, Or.inr rfl⟩ hr (3 / 2)).2 rfl
  obtain ⟨b, hb, hiff⟩ := h1 (by
    intro c hc
    simp only [List.mem_cons, List.not_mem_nil, or_false] at hc
    subst hc
    constructor <;> simp [cross])
  obtain ⟨b', hb', hiff'⟩ := h2 (by
    intro c hc
    simp only [List.mem_cons, List.not_mem_nil, or_false] at hc
    subst hc
    simp [cross])
  refine ⟨?_, ?_⟩
  · rw [hb]
    congr 1
    rw [hiff]
    simp only [List.map_cons, List.map_nil, List.sum_cons, List.sum_nil, polygonArea, Fin.sum_univ_four,
      Fin.reduceAdd, zero_add]
    simp
    norm_num
  · rw [hb']
    congr 1
    rw [Bool.eq_false_iff, Ne, hiff']
    simp [cross]
    norm_num

/-! ### Boundary data -/

lemma npMean_const {l : List ℝ} {b : ℝ} (hl : l ≠ []) (h : ∀ v ∈ l, v = b) : npMean l = b := by
  rw [List.eq_replicate_of_mem h, npMean, List.sum_replicate, List.length_replicate, nsmul_eq_mul]
  have : (l.length : ℝ) ≠ 0 := by
    simpa using hl
  field_simp

lemma meanIsclose_const {l : List ℝ} {b rtol atol : ℝ} (h : ∀ v ∈ l, v = b) (h1 : 0 ≤ rtol) (h2 : 0 ≤ atol) :
    meanIsclose l b rtol atol = decide (l ≠ []) := by
  unfold meanIsclose
  by_cases hl : l = []
  · simp [hl]
  · rw [if_neg hl, npMean_const hl h]
    have : NpIsclose b b rtol atol := by
      rw [NpIsclose, sub_self, abs_zero]; positivity
    simp [this, hl]

/-- **C114** (`test_dirichlet_boundary_internal`).  The test passes for all four constants exactly when at least four
boundary points are asked for; with fewer there are none, and their mean is `nan`. -/
theorem C114_dirichlet_internal (nx ny nb : ℕ) (smp : Fin 4 → Fin (nb / 4) → ℝ) (value : ℤ → ℝ) :
    testDirichletInternal nx ny nb smp value = .ok (decide (4 ≤ nb)) := by
  unfold testDirichletInternal
  obtain ⟨g, hg⟩ := (C01_constructor "quadrilateral" "internal" 10 10 false).1.2 ⟨Or.inl rfl, rfl⟩
  rw [hg]
  have hd := @sidesDict_lookup _ (fun t (_ _ : ℝ) => 1 * value t)
  have hnb : nb / 4 = 0 ↔ ¬ 4 ≤ nb := by omega
  have hmean : ∀ (h : Fin (nb / 4) → ℝ × ℝ) (t : ℤ),
      meanIsclose ((List.ofFn h).map fun _ => 1 * value t) (value t) 1e-5 1e-8 = decide (4 ≤ nb) := by
    intro h t
    rw [meanIsclose_const (by simp) (by norm_num) (by norm_num)]
    simp [List.ofFn_eq_nil_iff, hnb]
  simp only [generateQuadMeshInternal, internalBoundary, boundaryMeans, dictGet]
  rw [@hd 1000 (by simp), @hd 1001 (by simp), @hd 1002 (by simp), @hd 1003 (by simp)]
  have l0 : ∀ a b c d : List (ℝ × ℝ), [((1000 : ℤ), a), (1001, b), (1002, c), (1003, d)].lookup 1000 = some a :=
    fun _ _ _ _ => rfl
  have l1 : ∀ a b c d : List (ℝ × ℝ), [((1000 : ℤ), a), (1001, b), (1002, c), (1003, d)].lookup 1001 = some b :=
    fun _ _ _ _ => rfl
  have l2 : ∀ a b c d : List (ℝ × ℝ), [((1000 : ℤ), a), (1001, b), (1002, c), (1003, d)].lookup 1002 = some c :=
    fun _ _ _ _ => rfl
  have l3 : ∀ a b c d : List (ℝ × ℝ), [((1000 : ℤ), a), (1001, b), (1002, c), (1003, d)].lookup 1003 = some d :=
    fun _ _ _ _ => rfl
  simp only [l0, l1, l2, l3, hmean]
  by_cases h4 : 4 ≤ nb
  · simp only [h4, decide_true, if_true]
  · simp only [h4, decide_false, Bool.false_eq_true, if_false]

/-- **C114** (`test_dirichlet_boundary_data_vector`).  The test passes for all constants, all numbers of cells and all
arguments that `Fespace2D` accepts, exactly when at least four boundary points are asked for. -/
theorem C114_boundary_vector (ext : QuadRoutines) (nx ny : ℕ) (hnx : 0 < nx) (hny : 0 < ny) (nb : ℕ)
    (smp : Fin 4 → Fin (nb / 4) → ℝ) (p : TestSpace) (hp : Accepted p) (b1 b2 : ℝ) :
    testBoundaryVector ext nx ny nb smp p b1 b2 = .ok (decide (4 ≤ nb)) := by
  unfold testBoundaryVector
  obtain ⟨g, nq, -, S, hS, e⟩ := withInternalSpace_eq ext 10 10 (x := (0, 1)) (y := (0, 1)) (by norm_num) (by norm_num)
    hnx hny nb smp hp (sidesDict fun _ _ _ => [1 * b1, 1 * b2]) (fun t ht => ⟨_, sidesDict_lookup _ ht⟩)
    (fun _ _ : ℝ => (1 : ℝ))
  rw [e]
  obtain ⟨-, -, -, -, -, hbd, hdict, -⟩ := fespace_ok hS
  simp only [hbd, hdict]
  have hv := C37_dirichlet_vector (bd := (generateQuadMeshInternal g (0, 1) (0, 1) nx ny nb smp).bdDict)
    (sidesDict fun _ _ _ => [1 * b1, 1 * b2]) 0 (by
      intro t h ht
      have : h = fun _ _ => [1 * b1, 1 * b2] := by
        have hmem := List.lookup_eq_some_iff.1 ht
        obtain ⟨l1, l2, he, -⟩ := hmem
        have : (t, h) ∈ sidesDict fun _ (_ _ : ℝ) => [1 * b1, 1 * b2] := by rw [he]; simp
        simp only [sidesDict, List.mem_cons, Prod.mk.injEq, List.not_mem_nil, or_false] at this
        tauto
      subst this
      simp)
  have hmap : ((sidesDict fun _ (_ _ : ℝ) => [1 * b1, 1 * b2]).map
      fun e => (e.1, fun a b => (e.2 a b).getD 0 0)) = sidesDict fun _ _ _ => b1 := by
    simp [sidesDict]
  rw [Nat.cast_zero] at hv
  rw [hv, hmap]
  obtain ⟨X, Y, h1, h2, h3⟩ := (C37_dirichlet_data ext [] [] (generateQuadMeshInternal g (0, 1) (0, 1) nx ny nb smp).bdDict
    (p.settings g) (sidesDict fun _ (_ _ : ℝ) => b1) () false).1
    (fun e he _ => ⟨_, sidesDict_lookup _ (internal_keys he)⟩)
  rw [h1]
  have hlen : X.length = Y.length := by rw [h2, List.length_map, h3.length_eq]
  have hY : ∀ v ∈ Y, v = b1 := by
    intro v hv
    obtain ⟨i, hi, rfl⟩ := List.getElem_of_mem hv
    have h4 := (List.forall₂_iff_get.1 h3).2 i (by rw [h3.length_eq]; exact hi) hi
    obtain ⟨k, hk, hv⟩ := h4
    rw [sidesDict_lookup] at hk
    · simp only [List.get_eq_getElem] at hv
      rw [hv, ← Option.some.inj hk]
    · have hm := List.getElem_mem (l := taggedPoints (generateQuadMeshInternal g (0, 1) (0, 1) nx ny nb smp).bdDict)
        (n := i) (by rw [h3.length_eq]; exact hi)
      simp only [taggedPoints, List.mem_flatMap, List.mem_map] at hm
      obtain ⟨a, ha, q, -, hq⟩ := hm
      simp only [List.get_eq_getElem]
      unfold taggedPoints
      rw [← hq]
      exact internal_keys ha
  simp only [hlen, if_true]
  rw [meanIsclose_const hY (by norm_num) (by norm_num)]
  congr 1
  rw [decide_eq_decide, ← List.length_pos_iff, ← h3.length_eq]
  simp only [taggedPoints, generateQuadMeshInternal, internalBoundary]
  simp

/-! ### Accessors -/

/-- **C114** (`pytest.raises`).  A block with several calls is decided by the first call that raises: the calls after it
are not made; if none raises, the assertion fails.  In `test_valid_cell_number` this is the first of five, so that the
checks of the other four accessors are not tested. -/
theorem C114_raises (before after : List (Except PyErr Unit)) (hb : ∀ r ∈ before, r = .ok ()) (e : PyErr) :
    raisesValueError (before ++ .error e :: after) = (if e = .valueError then .ok true else .error e) ∧
      raisesValueError before = .ok false := by
  induction before with
  | nil => exact ⟨by cases e <;> rfl, rfl⟩
  | cons r l ih =>
    rw [hb r (by simp)]
    exact ih fun r hr => hb r (by simp [hr])

lemma runAll_ok {l : List (Except PyErr Unit)} (h : ∀ r ∈ l, r = .ok ()) : runAll l = .ok () := by
  induction l with
  | nil => rfl
  | cons r l ih =>
    rw [h r (by simp)]
    exact ih fun r hr => h r (by simp [hr])

/-- **C114** (`test_valid_cell_number`).  The test passes for all numbers of cells, all arguments that `Fespace2D` accepts
and all cell numbers that may be drawn; and each of the five accessors on its own raises `ValueError` for the two
numbers of the `pytest.raises` blocks. -/
theorem C114_valid_cell_number (ext : QuadRoutines) (nx ny : ℕ) (hnx : 0 < nx) (hny : 0 < ny) (nb : ℕ)
    (smp : Fin 4 → Fin (nb / 4) → ℝ) (p : TestSpace) (hp : Accepted p) (drawn : Fin 5 → ℤ)
    (hdr : ∀ i, 0 ≤ drawn i ∧ drawn i < nx * ny) :
    testValidCellNumber ext nx ny nb smp p drawn = .ok true ∧
      withInternalSpace ext 10 10 (0, 1) (0, 1) nx ny nb smp p (sidesDict fun _ _ _ => (1 : ℝ))
        (fun _ _ : ℝ => (1 : ℝ)) (fun _ _ _ S => .ok (decide (∀ i ∈ [(-1 : ℤ), (nx * ny : ℕ)],
          ∀ r ∈ accessorCalls S i, raisesValueError [r] = .ok true))) = .ok true := by
  have hfacts : ∀ {g : Geometry2D} {nq : ℕ}
      {S : Fespace2D (ℝ → ℝ → ℝ) ℝ ((p.settings g).feOrder.toNat ^ 2) nq},
      fespace2D ext (generateQuadMeshInternal g (0, 1) (0, 1) nx ny nb smp).meshPoints
        (generateQuadMeshInternal g (0, 1) (0, 1) nx ny nb smp).cells
        (generateQuadMeshInternal g (0, 1) (0, 1) nx ny nb smp).bdDict
        (p.settings g) (sidesDict fun _ _ _ => (1 : ℝ)) (fun _ _ : ℝ => (1 : ℝ)) false = .ok ⟨nq, S⟩ →
      S.nCells = nx * ny ∧
      (∀ i : ℤ, i < 0 ∨ (nx * ny : ℤ) ≤ i → accessorCalls S i = List.replicate 5 (.error .valueError)) ∧
      ∀ i : ℤ, 0 ≤ i → i < nx * ny → ∀ r ∈ accessorCalls S i, r = .ok () := by
    intro g nq S hS
    have hlen := (C02_internal_cells g (0, 1) (0, 1) (by norm_num) (by norm_num) nx ny nb smp).1
    obtain ⟨a1, a2⟩ := C34_accessors _ _ _ _ _ _ _ _ S hS
    refine ⟨by rw [(fespace_ok hS).2.2.2.2.1, hlen], fun i hi => ?_, fun i h0 h1 => ?_⟩
    · obtain ⟨b1, b2, b3, b4, b5, -⟩ := a1 i (by rw [hlen]; push_cast; exact hi)
      simp [accessorCalls, forgetValue, b1, b2, b3, b4, b5, List.replicate]
    · obtain ⟨k, rfl⟩ := Int.eq_ofNat_of_zero_le h0
      have hk : k < (generateQuadMeshInternal g (0, 1) (0, 1) nx ny nb smp).cells.length := by
        rw [hlen]; exact_mod_cast h1
      obtain ⟨fc, -, b1, b2, b3, b4, b5, -⟩ := a2 k _ (List.getElem?_eq_getElem hk)
      simp [accessorCalls, forgetValue, b1, b2, b3, b4, b5]
  constructor
  · unfold testValidCellNumber
    obtain ⟨g, nq, -, S, hS, e⟩ := withInternalSpace_eq ext 10 10 (x := (0, 1)) (y := (0, 1)) (by norm_num)
      (by norm_num) hnx hny nb smp hp (sidesDict fun _ _ _ => (1 : ℝ)) (fun t ht => ⟨_, sidesDict_lookup _ ht⟩)
      (fun _ _ : ℝ => (1 : ℝ))
    rw [e]
    obtain ⟨h1, h2, h3⟩ := hfacts hS
    have hrun : runAll ((List.ofFn drawn).flatMap (accessorCalls S)) = .ok () := by
      apply runAll_ok
      intro r hr
      simp only [List.mem_flatMap, List.mem_ofFn] at hr
      obtain ⟨_, ⟨i, rfl⟩, hr⟩ := hr
      exact h3 _ (hdr i).1 (hdr i).2 r hr
    rw [if_pos h1, hrun, h2 (-1) (Or.inl (by norm_num)), h2 (nx * ny : ℕ) (Or.inr (by push_cast; rfl))]
    rfl
  · obtain ⟨g, nq, -, S, hS, e⟩ := withInternalSpace_eq ext 10 10 (x := (0, 1)) (y := (0, 1)) (by norm_num)
      (by norm_num) hnx hny nb smp hp (sidesDict fun _ _ _ => (1 : ℝ)) (fun t ht => ⟨_, sidesDict_lookup _ ht⟩)
      (fun _ _ : ℝ => (1 : ℝ))
    rw [e]
    obtain ⟨h1, h2, h3⟩ := hfacts hS
    simp only [Except.ok.injEq, decide_eq_true_eq]
    intro i hi r hr
    have hi : i < 0 ∨ (nx * ny : ℤ) ≤ i := by
      simp only [List.mem_cons, List.not_mem_nil, or_false] at hi
      rcases hi with rfl | rfl
      · exact Or.inl (by norm_num)
      · exact Or.inr (by push_cast; rfl)
    rw [h2 i hi] at hr
    rw [(List.mem_replicate.1 hr).2]
    rfl

/-! ### Shapes -/

lemma order_sq {p : TestSpace} (hp : Accepted p) (g : Geometry2D) :
    (((p.settings g).feOrder.toNat ^ 2 : ℕ) : ℤ) = p.feOrder ^ 2 := by
  have := hp.order
  rw [show (p.settings g).feOrder = p.feOrder from rfl]
  push_cast
  rw [Int.toNat_of_nonneg (by omega)]

/-- **C114** (`test_rhs_vector`).  The test passes for all constants, all numbers of cells and boundary points and all
arguments that `Fespace2D` accepts. -/
theorem C114_rhs_vector (ext : QuadRoutines) (nx ny : ℕ) (hnx : 0 < nx) (hny : 0 < ny) (nb : ℕ)
    (smp : Fin 4 → Fin (nb / 4) → ℝ) (p : TestSpace) (hp : Accepted p) (b1 b2 f1 f2 : ℝ) :
    testRhsVector ext nx ny nb smp p b1 b2 f1 f2 = .ok true := by
  unfold testRhsVector
  obtain ⟨g, nq, -, S, hS, e⟩ := withInternalSpace_eq ext 10 10 (x := (0, 1)) (y := (0, 1)) (by norm_num) (by norm_num)
    hnx hny nb smp hp (sidesDict fun _ _ _ => [1 * b1, 1 * b2]) (fun t ht => ⟨_, sidesDict_lookup _ ht⟩)
    [fun _ _ : ℝ => 1 * f1, fun _ _ => 1 * f2]
  rw [e]
  have hlen := (C02_internal_cells g (0, 1) (0, 1) (by norm_num) (by norm_num) nx ny nb smp).1
  obtain ⟨hfl, B, wt, xi, eta, -, -, hcell⟩ := fespace_cell hS
  have hpos : 0 < nx * ny := Nat.mul_pos hnx hny
  obtain ⟨T, fc, -, hfc, -, facts⟩ := hcell 0 _ (List.getElem?_eq_getElem (by rw [hlen]; exact hpos))
  have ho : (((p.settings g).feOrder.toNat ^ 2 : ℕ) : ℤ) = p.feOrder ^ 2 := order_sq hp g
  have hcol : ∀ (S' : Fespace2D (List (ℝ → ℝ → ℝ)) (List ℝ) ((p.settings g).feOrder.toNat ^ 2) nq)
      (c : FE2DCell (List (ℝ → ℝ → ℝ)) ((p.settings g).feOrder.toNat ^ 2) nq) (j : ℤ), S'.feCell[0]? = some c →
      c.forcingFunction = [fun _ _ : ℝ => 1 * f1, fun _ _ => 1 * f2] → j = 0 ∨ j = 1 →
      ∃ col, S'.getForcingFunctionValuesVector 0 j = .ok (col, S'.setForcing 0 c col) := by
    intro S' c j hc hf hj
    have hat := (cellAt_nat S' 0 c).2 hc
    rw [Nat.cast_zero] at hat
    unfold Fespace2D.getForcingFunctionValuesVector
    rw [hat]
    simp only [hf]
    rcases hj with rfl | rfl <;> exact ⟨_, rfl⟩
  obtain ⟨col, h1⟩ := hcol S fc 0 hfc facts.forcing (Or.inl rfl)
  have h0 : 0 < S.feCell.length := by rw [hfl, hlen]; exact hpos
  obtain ⟨col', h2⟩ := hcol (S.setForcing 0 fc col) { fc with forcingAtQuad := col } 1
    (by simp [Fespace2D.setForcing, h0]) facts.forcing (Or.inr rfl)
  simp only [h1, h2, ho, if_true, decide_true]

/-- **C114** (`test_data_functions.py`).  The assertions on shapes hold for all numbers of cells, test and boundary points,
all boundary functions, all forcing functions and all arguments that `Fespace2D` accepts. -/
theorem C114_data_shapes (ext : QuadRoutines) (tx ty nx ny : ℕ) (hnx : 0 < nx) (hny : 0 < ny) (nb : ℕ)
    (smp : Fin 4 → Fin (nb / 4) → ℝ) (p : TestSpace) (hp : Accepted p) (dict : List (ℤ × (ℝ → ℝ → ℝ)))
    (hd : ∀ t ∈ ([1000, 1001, 1002, 1003] : List ℤ), ∃ h, dict.lookup t = some h) (f : ℝ → ℝ → ℝ) :
    testDataShapes ext tx ty nx ny nb smp p dict f = .ok true := by
  unfold testDataShapes
  obtain ⟨g, nq, hg, S, hS, e⟩ := withInternalSpace_eq ext tx ty (x := (0, 1)) (y := (0, 1)) (by norm_num)
    (by norm_num) hnx hny nb smp hp dict hd f
  rw [e]
  have hlen := (C02_internal_cells g (0, 1) (0, 1) (by norm_num) (by norm_num) nx ny nb smp).1
  obtain ⟨D, S', hD, hn, -⟩ := (C41_layout ext _ _ _ _ _ _ _ S hS).2
  obtain ⟨-, -, -, -, hb1, hb2⟩ := reachable_forall₂ (dataHandler_reachable ext _ _ _ _ _ _ _ hS hD)
  obtain ⟨-, -, -, -, -, hbd, hdict, -⟩ := fespace_ok hS
  obtain ⟨X, Y, h1, h2, h3⟩ := (C37_dirichlet_data ext [] []
    (generateQuadMeshInternal g (0, 1) (0, 1) nx ny nb smp).bdDict (p.settings g) dict () false).1
    (fun e he _ => hd e.1 (internal_keys he))
  have hXY : X.length = Y.length := by rw [h2, List.length_map, h3.length_eq]
  have hin : getDirichletInput S' = .ok (X, Y) := by
    unfold getDirichletInput
    rw [hb1, hb2, hbd, hdict, h1]
  obtain ⟨pts, h4, h5, -⟩ := C05_test_points "quadrilateral" tx ty false g hg (0, 1) (0, 1) nx ny nb smp
    (.error .typeError)
  have hnq : (nq : ℤ) = p.quadOrder ^ 2 := ((C36_total_dofs _ _ _ _ _ _ _ _).1 nq S hS).1
  rw [hlen] at hn
  have hn' : (D.nCells : ℤ) = nx * ny := by rw [hn]; push_cast; rfl
  simp only [hD, hin, h4]
  rw [Except.ok.injEq, decide_eq_true_eq]
  refine ⟨?_, hXY, ?_, ?_, h5⟩
  · push_cast
    rw [hn', hnq]
  · rw [hn', hnq, order_sq hp g]
  · rw [hn', order_sq hp g]

/-- **C114** (`test_numtest_points_internal`).  The test passes for all numbers. -/
theorem C114_num_points (tx ty nx ny nb : ℕ) (smp : Fin 4 → Fin (nb / 4) → ℝ) :
    testNumPoints tx ty nx ny nb smp = .ok true := by
  unfold testNumPoints
  obtain ⟨g, hg⟩ := (C01_constructor "quadrilateral" "internal" tx ty false).1.2 ⟨Or.inl rfl, rfl⟩
  obtain ⟨pts, h1, h2, -⟩ := C05_test_points "quadrilateral" tx ty false g hg (0, 1) (0, 1) nx ny nb smp
    (.error .typeError)
  rw [hg]
  simp only [h1, h2, decide_true]

/-- C114 on the first parameters of `test_quadrature_uniform` that are not the unit square, and on those of
`test_rhs_vector` with the smallest orders: the hypotheses can be met. -/
example (smp : Fin 4 → Fin (100 / 4) → ℝ) : ∃ ext,
    Accepted ⟨7, "jacobi", 9, "gauss-jacobi", "affine"⟩ ∧ RoutinesOK ext 9 "gauss-jacobi" ∧
    testQuadratureUniform ext (-3, 4) (-2, 5) 4 4 100 smp ⟨7, "jacobi", 9, "gauss-jacobi", "affine"⟩ = .ok true := by
  obtain ⟨ext, h1, h2⟩ := quadRoutines_exist
  have hp : Accepted ⟨7, "jacobi", 9, "gauss-jacobi", "affine"⟩ :=
    ⟨by norm_num, by simp, by norm_num, Or.inr rfl, Or.inr rfl⟩
  have hr : RoutinesOK ext 9 "gauss-jacobi" := ⟨fun h => absurd h (by decide), fun _ => h2 _⟩
  exact ⟨ext, hp, hr, C114_quadrature_uniform ext _ _ (by norm_num) (by norm_num) 4 4 (by norm_num) (by norm_num) 100
    smp _ hp hr⟩

/-- C114 on a mesh of two cells, the unit square and a kite, with `"bilinear"`: the test decides whether their total area
is close to the expected one. -/
example : ∃ ext, RoutinesOK ext 3 "gauss-legendre" ∧
    testQuadratureComplex ext [] demoCells [(1000, [(0, 0)])] ⟨2, "jacobi", 3, "gauss-legendre", "bilinear"⟩
      (demoCells.map polygonArea).sum = .ok true := by
  obtain ⟨ext, h1, h2⟩ := quadRoutines_exist
  have hr : RoutinesOK ext 3 "gauss-legendre" := ⟨fun _ => h1 _ (by norm_num), fun h => absurd h (by decide)⟩
  obtain ⟨b, hb, hiff⟩ := (C114_quadrature_complex ext [] demoCells (by simp [demoCells]) [(1000, [(0, 0)])] (by simp)
    ⟨2, "jacobi", 3, "gauss-legendre", "bilinear"⟩
    ⟨by norm_num, by simp, by norm_num, Or.inl rfl, Or.inl rfl⟩ hr (demoCells.map polygonArea).sum).1 rfl
    fun c hc => (demo_cells_ok c hc).1
  refine ⟨ext, hr, ?_⟩
  rw [hb, hiff.2 (by rw [sub_self, abs_zero]; positivity)]

/-- C114: ten boundary points as in `test_dirichlet_boundary_data_vector` are enough, three are not. -/
example (ext : QuadRoutines) (smp : Fin 4 → Fin (10 / 4) → ℝ) (smp' : Fin 4 → Fin (3 / 4) → ℝ) (b1 b2 : ℝ) :
    testBoundaryVector ext 2 2 10 smp ⟨2, "legendre", 3, "gauss-legendre", "affine"⟩ b1 b2 = .ok true ∧
    testBoundaryVector ext 2 2 3 smp' ⟨2, "legendre", 3, "gauss-legendre", "affine"⟩ b1 b2 = .ok false := by
  have hp : Accepted ⟨2, "legendre", 3, "gauss-legendre", "affine"⟩ :=
    ⟨by norm_num, by simp, by norm_num, Or.inl rfl, Or.inr rfl⟩
  exact ⟨C114_boundary_vector ext 2 2 (by norm_num) (by norm_num) 10 smp _ hp b1 b2,
    C114_boundary_vector ext 2 2 (by norm_num) (by norm_num) 3 smp' _ hp b1 b2⟩

/-- C114: a block like that of `test_valid_cell_number` passes although four of its five calls return. -/
example : raisesValueError [.error .valueError, .ok (), .ok (), .ok (), .ok ()] = .ok true :=
  (C114_raises [] _ (by simp) .valueError).1

/-- C114: cell numbers that may be drawn for a mesh of 2 × 3 cells. -/
example (ext : QuadRoutines) (smp : Fin 4 → Fin (10 / 4) → ℝ) :
    testValidCellNumber ext 2 3 10 smp ⟨7, "legendre", 9, "gauss-legendre", "affine"⟩ (fun i => i.val + 1)
      = .ok true :=
  (C114_valid_cell_number ext 2 3 (by norm_num) (by norm_num) 10 smp _
    ⟨by norm_num, by simp, by norm_num, Or.inl rfl, Or.inr rfl⟩ _ fun i => ⟨by omega, by have := i.isLt; push_cast; omega⟩).1

end FastVPINNs
