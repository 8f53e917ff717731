import Verif.Lemmas.ReadMesh
import Mathlib.Analysis.Convex.Segment

/-! # C06–C10: reading an external mesh -/

namespace FastVPINNs

open Spec

/-! ## C06 -/

/-- **C06.**  The cells returned by `read_mesh` are, in file order, the quadrilaterals of the mesh with
their vertices permuted; whatever the order in the file, a strictly convex quadrilateral comes out
listed anticlockwise. -/
theorem C06_anticlockwise (read : String → Except PyErr MeshioMesh) (file : String) (level : ℕ)
    (method : String) (lhs : ℕ → Fin (2 ^ level + 1) → ℝ × ℝ) (cells : List Quad)
    (d : List (ℤ × List (List ℝ))) (m : MeshioMesh) (hm : read file = .ok m)
    (h : readMesh read file level method lhs = .ok (cells, d)) :
    cells.length = (cellsOfType m "quad").length ∧
    ∀ k c, cells[k]? = some c → ∃ v, IsQuad m k v ∧ (∃ τ : Equiv.Perm (Fin 4), c = v ∘ τ) ∧
      ((∃ σ : Equiv.Perm (Fin 4), ConvexCCW (v ∘ σ)) → ConvexCCW c) := by
  obtain ⟨-, m', edges, tags, rest, d0, hm', hcells, -⟩ := readMesh_ok h
  obtain rfl : m = m' := Except.ok.inj (hm.symm.trans hm')
  obtain ⟨h1, h2⟩ := readCells_spec hcells
  refine ⟨h1, fun k c hk => ?_⟩
  obtain ⟨v, hv, rfl⟩ := h2 k c hk
  exact ⟨v, hv, sortCell_perm v, fun ⟨σ, hσ⟩ => sortCell_convex σ hσ⟩

/-- All 24 listings of a kite with vertices `(0,0), (2,-1), (3,2), (-1,1)` satisfy the convexity
hypothesis. -/
example (ρ : Equiv.Perm (Fin 4)) :
    ∃ σ : Equiv.Perm (Fin 4),
      ConvexCCW ((![(0, 0), (2, -1), (3, 2), (-1, 1)] : Quad) ∘ ρ ∘ σ) := by
  refine ⟨ρ⁻¹, ?_⟩
  have : (![(0, 0), (2, -1), (3, 2), (-1, 1)] : Quad) ∘ ρ ∘ (ρ⁻¹ : Equiv.Perm (Fin 4))
      = ![(0, 0), (2, -1), (3, 2), (-1, 1)] := by
    funext k; simp
  rw [this]
  constructor <;> simp [cross] <;> norm_num

/-! ## C08 -/

/-- What is sampled on an edge, by sampling method. -/
def Spec.IsEdgeSample {extra : ℕ} (method : String) (level : ℕ)
    (lhs : Fin (2 ^ level + 1) → ℝ × ℝ) (p q : Fin (2 + extra) → ℝ) (r : List ℝ) : Prop :=
  (method = "uniform" ∧ IsUniformSample p q (2 ^ level) r) ∨
  (method = "lhs" ∧ ∃ k, r = [p ⟨0, by omega⟩ + (lhs k).1 * (q ⟨0, by omega⟩ - p ⟨0, by omega⟩),
    p ⟨1, by omega⟩ + (lhs k).2 * (q ⟨1, by omega⟩ - p ⟨1, by omega⟩)])

lemma sampleEdge_spec {extra : ℕ} {method : String} {level : ℕ}
    {lhs : Fin (2 ^ level + 1) → ℝ × ℝ} {p q : Fin (2 + extra) → ℝ} {rows : List (List ℝ)}
    (h : sampleEdge method level lhs p q = .ok rows) (r : List ℝ) :
    r ∈ rows ↔ IsEdgeSample method level lhs p q r := by
  unfold sampleEdge at h
  split_ifs at h with h1 h2
  · simp only [Except.ok.injEq] at h
    subst h
    simp only [IsEdgeSample, h1, true_and, linspaceRows, List.mem_ofFn, IsUniformSample,
      String.reduceEq, false_and, or_false]
    constructor
    · rintro ⟨j, rfl⟩
      refine ⟨j.val, by have := j.isLt; omega, ?_⟩
      congr 1
      funext a
      simp only [linspace]
      push_cast
      ring
    · rintro ⟨j, hj, rfl⟩
      refine ⟨⟨j, by omega⟩, ?_⟩
      congr 1
      funext a
      simp only [linspace]
      push_cast
      ring
  · simp only [Except.ok.injEq] at h
    subst h
    simp only [IsEdgeSample, h2, true_and, lhsRows, List.mem_ofFn, String.reduceEq, false_and,
      false_or]
    constructor
    · rintro ⟨k, rfl⟩
      exact ⟨k, by congr 1; ring; congr 1; ring⟩
    · rintro ⟨k, rfl⟩
      exact ⟨k, by congr 1; ring; congr 1; ring⟩

/-- **C08.**  The keys of the boundary dictionary are the tags of the boundary edges in order of first
occurrence (each once); under a tag the points are strictly sorted, and they are exactly the points
sampled on the edges carrying that tag.  The tag of edge `k` is entry `k` of the references of the
first block of the file. -/
theorem C08_grouping (read : String → Except PyErr MeshioMesh) (file : String) (level : ℕ)
    (method : String) (lhs : ℕ → Fin (2 ^ level + 1) → ℝ × ℝ) (cells : List Quad)
    (d : List (ℤ × List (List ℝ))) (m : MeshioMesh) (hm : read file = .ok m)
    (h : readMesh read file level method lhs = .ok (cells, d)) :
    (∃ tags, m.refs.head? = some tags ∧
      d.map Prod.fst = firstOccurrences (tags.take (cellsOfType m "line").length)) ∧
    (d.map Prod.fst).Nodup ∧
    (∀ t, t ∈ d.map Prod.fst ↔ ∃ k p q, IsEdge m k p q ∧ FirstBlockRef m k t) ∧
    ∀ t pts, (t, pts) ∈ d → pts.Pairwise (· < ·) ∧
      ∀ r, r ∈ pts ↔ ∃ k p q, IsEdge m k p q ∧ FirstBlockRef m k t ∧
        IsEdgeSample method level (lhs k) p q r := by
  obtain ⟨-, m', edges, tags, rest, d0, hm', -, hedges, hrefs, hloop, rfl⟩ := readMesh_ok h
  obtain rfl : m = m' := Except.ok.inj (hm.symm.trans hm')
  obtain ⟨hlen, hedge⟩ := readEdges_spec hedges
  obtain ⟨h1, h2, h3⟩ := boundaryLoop_spec edges 0 [] d0 hloop (by simp [firstOccurrences])
    (Nat.zero_le _)
  simp only [zero_add, List.lookup_nil, Option.getD_none, List.not_mem_nil, false_or] at h1 h2 h3
  have hhead : m.refs.head? = some tags := by rw [hrefs]; rfl
  have hkeys : (d0.map fun e => (e.1, npUnique e.2)).map Prod.fst
      = firstOccurrences (tags.take edges.length) := by
    rw [List.map_map, ← h2]; rfl
  have hnodup : ((d0.map fun e => (e.1, npUnique e.2)).map Prod.fst).Nodup := by
    rw [hkeys, firstOccurrences, List.nodup_reverse]
    exact List.nodup_dedup _
  have href : ∀ k t, FirstBlockRef m k t ↔ tags[k]? = some t := by
    intro k t
    simp [FirstBlockRef, hhead]
  refine ⟨⟨tags, hhead, by rw [hkeys, hlen]⟩, hnodup, ?_, ?_⟩
  · intro t
    rw [hkeys, firstOccurrences, List.mem_reverse, List.mem_dedup, List.mem_reverse,
      List.mem_take_iff_getElem]
    constructor
    · rintro ⟨k, hk, rfl⟩
      have hk' : k < edges.length := by omega
      exact ⟨k, _, _, (hedge k _ _).1 (List.getElem?_eq_getElem hk'), (href k _).2
        (List.getElem?_eq_getElem _)⟩
    · rintro ⟨k, p, q, hpq, ht⟩
      obtain ⟨hk, -⟩ := List.getElem?_eq_some_iff.1 ((hedge k p q).2 hpq)
      obtain ⟨hk', he⟩ := List.getElem?_eq_some_iff.1 ((href k t).1 ht)
      exact ⟨k, by omega, he⟩
  · intro t pts hpts
    obtain ⟨⟨t', rows⟩, hmem, heq⟩ := List.mem_map.1 hpts
    simp only [Prod.mk.injEq] at heq
    obtain ⟨rfl, rfl⟩ := heq
    refine ⟨npUnique_sorted _, fun r => ?_⟩
    have hnd : (d0.map Prod.fst).Nodup := by rw [List.map_map] at hnodup; exact hnodup
    have hlook : d0.lookup t' = some rows := by
      clear * - hmem hnd
      induction d0 with
      | nil => simp at hmem
      | cons e d0 ih =>
        obtain ⟨k, l⟩ := e
        simp only [List.map_cons, List.nodup_cons] at hnd
        rcases List.mem_cons.1 hmem with h | h
        · simp only [Prod.mk.injEq] at h
          obtain ⟨rfl, rfl⟩ := h
          simp
        · have hne : t' ≠ k := by
            rintro rfl
            exact hnd.1 (List.mem_map.2 ⟨_, h, rfl⟩)
          simp only [List.lookup_cons, beq_eq_decide, hne, decide_false]
          exact ih h hnd.2
    have h4 := h3 t' r
    rw [hlook] at h4
    simp only [Option.getD_some] at h4
    rw [mem_npUnique, h4]
    constructor
    · rintro ⟨k, e, rows', hk, ht, hs, hr⟩
      exact ⟨k, e.1, e.2, (hedge k _ _).1 hk, (href k _).2 ht, (sampleEdge_spec hs r).1 hr⟩
    · rintro ⟨k, p, q, hpq, ht, hs⟩
      have hok : ∃ rows', sampleEdge method level (lhs k) p q = .ok rows' := by
        unfold sampleEdge
        rcases hs with ⟨hu, -⟩ | ⟨hu, -⟩ <;> simp [hu]
      obtain ⟨rows', hrows'⟩ := hok
      exact ⟨k, (p, q), rows', (hedge k p q).2 hpq, (href k _).1 ht, hrows',
        (sampleEdge_spec hrows' r).2 hs⟩

/-! ## C07 -/

/-- **C07.**  With `uniform` sampling, for every boundary edge from `p` to `q` with tag `t` and every
level there are `2^level + 1` points: the first is `p`, the last is `q`, consecutive ones differ by
`(q - p) / 2^level`, all are on the segment, and all are returned under `t`. -/
theorem C07_uniform (read : String → Except PyErr MeshioMesh) (file : String) (level : ℕ)
    (lhs : ℕ → Fin (2 ^ level + 1) → ℝ × ℝ) (cells : List Quad)
    (d : List (ℤ × List (List ℝ))) (m : MeshioMesh) (hm : read file = .ok m)
    (h : readMesh read file level "uniform" lhs = .ok (cells, d))
    (k : ℕ) (p q : Fin (2 + m.extra) → ℝ) (t : ℤ) (hpq : IsEdge m k p q)
    (ht : FirstBlockRef m k t) :
    ∃ pts, (t, pts) ∈ d ∧ ∃ P : Fin (2 ^ level + 1) → Fin (2 + m.extra) → ℝ,
      P 0 = p ∧ P (Fin.last _) = q ∧
      (∀ j : Fin (2 ^ level), P j.succ - P j.castSucc = (1 / 2 ^ level : ℝ) • (q - p)) ∧
      ∀ j, P j ∈ segment ℝ p q ∧ List.ofFn (P j) ∈ pts := by
  obtain ⟨-, -, h3, h4⟩ := C08_grouping read file level _ lhs cells d m hm h
  obtain ⟨⟨t', pts⟩, hmem, rfl⟩ := List.mem_map.1 ((h3 t).2 ⟨k, p, q, hpq, ht⟩)
  obtain ⟨-, h5⟩ := h4 _ _ hmem
  have hN : ((2 : ℝ) ^ level) ≠ 0 := by positivity
  refine ⟨pts, hmem, fun j a => p a + ((j.val : ℕ) / (2 ^ level : ℕ) : ℝ) * (q a - p a), ?_, ?_, ?_,
    ?_⟩
  · funext a; simp
  · funext a; simp
  · intro j
    funext a
    simp only [Fin.val_succ, Fin.val_castSucc, Pi.sub_apply, Pi.smul_apply, smul_eq_mul]
    push_cast
    field_simp
    ring
  · intro j
    refine ⟨?_, (h5 _).2 ⟨k, p, q, hpq, ht, Or.inl ⟨rfl, j.val, by omega, rfl⟩⟩⟩
    rw [segment_eq_image']
    refine ⟨((j.val : ℕ) / (2 ^ level : ℕ) : ℝ), ⟨by positivity, ?_⟩, ?_⟩
    · rw [div_le_one (by positivity)]
      exact_mod_cast (by omega : j.val ≤ 2 ^ level)
    · funext a; simp

/-! ## C09 -/

lemma latinHypercube_mem {n : ℕ} {s : Fin n → ℝ × ℝ} (h : IsLatinHypercube s) (k : Fin n) :
    (0 ≤ (s k).1 ∧ (s k).1 ≤ 1) ∧ 0 ≤ (s k).2 ∧ (s k).2 ≤ 1 := by
  obtain ⟨π, ρ, h⟩ := h
  obtain ⟨⟨h1, h2⟩, h3, h4⟩ := h k
  have hn : (0 : ℝ) < n := by exact_mod_cast k.pos
  have key : ∀ i : Fin n, (0 : ℝ) ≤ (i : ℝ) / n ∧ ((i : ℝ) + 1) / n ≤ 1 := by
    intro i
    refine ⟨by positivity, ?_⟩
    rw [div_le_one hn]
    exact_mod_cast i.isLt
  exact ⟨⟨(key _).1.trans h1, h2.le.trans (key _).2⟩, (key _).1.trans h3, h4.le.trans (key _).2⟩

/-- **C09** (what holds).  With `lhs` sampling every returned point belongs to a boundary edge with
its tag such that it lies in the bounding rectangle of the edge; if the edge is parallel to an axis
the point lies on the edge. -/
theorem C09_lhs_bounding_box (read : String → Except PyErr MeshioMesh) (file : String) (level : ℕ)
    (lhs : ℕ → Fin (2 ^ level + 1) → ℝ × ℝ) (hlhs : ∀ k, IsLatinHypercube (lhs k))
    (cells : List Quad) (d : List (ℤ × List (List ℝ))) (m : MeshioMesh) (hm : read file = .ok m)
    (h : readMesh read file level "lhs" lhs = .ok (cells, d)) (t : ℤ) (pts : List (List ℝ))
    (hpts : (t, pts) ∈ d) (r : List ℝ) (hr : r ∈ pts) :
    ∃ k p q, IsEdge m k p q ∧ FirstBlockRef m k t ∧ ∃ x y : ℝ, r = [x, y] ∧
      x ∈ segment ℝ (p ⟨0, by omega⟩) (q ⟨0, by omega⟩) ∧
      y ∈ segment ℝ (p ⟨1, by omega⟩) (q ⟨1, by omega⟩) ∧
      (p ⟨0, by omega⟩ = q ⟨0, by omega⟩ ∨ p ⟨1, by omega⟩ = q ⟨1, by omega⟩ →
        (x, y) ∈ segment ℝ (p ⟨0, by omega⟩, p ⟨1, by omega⟩)
          (q ⟨0, by omega⟩, q ⟨1, by omega⟩)) := by
  obtain ⟨-, -, -, h4⟩ := C08_grouping read file level _ lhs cells d m hm h
  obtain ⟨k, p, q, hpq, ht, hs⟩ := ((h4 _ _ hpts).2 r).1 hr
  simp only [IsEdgeSample, String.reduceEq, false_and, true_and, false_or] at hs
  obtain ⟨j, rfl⟩ := hs
  obtain ⟨h1, h2⟩ := latinHypercube_mem (hlhs k) j
  refine ⟨k, p, q, hpq, ht, _, _, rfl, ?_, ?_, ?_⟩
  · rw [segment_eq_image']
    exact ⟨_, h1, by simp⟩
  · rw [segment_eq_image']
    exact ⟨_, h2, by simp⟩
  · rw [segment_eq_image']
    rintro (he | he)
    · exact ⟨_, h2, by simp only [he, sub_self, Prod.mk_sub_mk, Prod.smul_mk, smul_eq_mul, mul_zero,
        Prod.mk_add_mk, add_zero]⟩
    · exact ⟨_, h1, by simp only [he, sub_self, Prod.mk_sub_mk, Prod.smul_mk, smul_eq_mul, mul_zero,
        Prod.mk_add_mk, add_zero]⟩

/-- **C09** (what does not hold).  If some boundary edge is slanted then, at every level, there is an
outcome of the Latin hypercube sampler for which a point sampled on that edge, and returned under
its tag, is not on the edge.  (The success of `read_mesh` does not depend on the outcome.) -/
theorem C09_lhs_off_edge (read : String → Except PyErr MeshioMesh) (file : String) (level : ℕ)
    (lhs : ℕ → Fin (2 ^ level + 1) → ℝ × ℝ) (cells : List Quad)
    (d : List (ℤ × List (List ℝ))) (m : MeshioMesh) (hm : read file = .ok m)
    (h : readMesh read file level "lhs" lhs = .ok (cells, d))
    (k : ℕ) (p q : Fin (2 + m.extra) → ℝ) (t : ℤ) (hpq : IsEdge m k p q)
    (ht : FirstBlockRef m k t) (hx : p ⟨0, by omega⟩ ≠ q ⟨0, by omega⟩)
    (hy : p ⟨1, by omega⟩ ≠ q ⟨1, by omega⟩) :
    ∃ lhs' : ℕ → Fin (2 ^ level + 1) → ℝ × ℝ, (∀ k, IsLatinHypercube (lhs' k)) ∧
      ∃ d', readMesh read file level "lhs" lhs' = .ok (cells, d') ∧
        ∃ pts, (t, pts) ∈ d' ∧ ∃ x y, [x, y] ∈ pts ∧
          (x, y) ∉ segment ℝ (p ⟨0, by omega⟩, p ⟨1, by omega⟩)
            (q ⟨0, by omega⟩, q ⟨1, by omega⟩) := by
  obtain ⟨n, hn⟩ : ∃ n, n = 2 ^ level + 1 := ⟨_, rfl⟩
  have hn2 : 2 ≤ n := by have := Nat.one_le_two_pow (n := level); omega
  have hnpos : (0 : ℝ) < (2 ^ level + 1 : ℕ) := by positivity
  -- first coordinate increasing, second decreasing
  let s : Fin (2 ^ level + 1) → ℝ × ℝ := fun j =>
    ((j.val : ℝ) / (2 ^ level + 1 : ℕ), ((Fin.rev j).val : ℝ) / (2 ^ level + 1 : ℕ))
  have hs : IsLatinHypercube s := by
    refine ⟨1, Fin.revPerm, fun j => ⟨⟨le_rfl, ?_⟩, le_rfl, ?_⟩⟩
    · simp only [s, Equiv.Perm.coe_one, id]
      exact div_lt_div_of_pos_right (by linarith) hnpos
    · simp only [s, Fin.revPerm_apply]
      exact div_lt_div_of_pos_right (by linarith) hnpos
  -- the loop succeeds for every outcome
  have hloop : ∀ (tags : List ℤ)
      (es : List ((Fin (2 + m.extra) → ℝ) × (Fin (2 + m.extra) → ℝ))) (i : ℕ)
      (d1 d2 d1' : List (ℤ × List (List ℝ))),
      boundaryLoop "lhs" level lhs tags es i d1 = .ok d1' →
      ∃ d2', boundaryLoop "lhs" level (fun _ => s) tags es i d2 = .ok d2' := by
    intro tags es
    induction es with
    | nil => intro i d1 d2 d1' _; exact ⟨d2, rfl⟩
    | cons e es ih =>
      intro i d1 d2 d1' hh
      simp only [boundaryLoop, sampleEdge, String.reduceEq, if_true, if_false] at hh ⊢
      cases htag : tags[i]? with
      | none => rw [htag] at hh; cases hh
      | some tag =>
        rw [htag] at hh
        exact ih _ _ _ _ hh
  have hread : ∃ d', readMesh read file level "lhs" (fun _ => s) = .ok (cells, d') := by
    obtain ⟨hsuf, m', edges, tags, rest, d0, hm', hcells, hedges, hrefs, hl, -⟩ := readMesh_ok h
    obtain rfl : m = m' := Except.ok.inj (hm.symm.trans hm')
    obtain ⟨d2, hd2⟩ := hloop tags edges 0 [] [] d0 hl
    have h3 : ¬ (edges.length * 2 * (2 + m.extra)) % 3 ≠ 0 := by
      intro hne
      unfold readMesh at h
      rw [if_neg (by rw [hsuf]; simp), hm] at h
      simp only [hcells, hedges] at h
      rw [if_pos hne] at h
      cases h
    refine ⟨d2.map fun e => (e.1, npUnique e.2), ?_⟩
    unfold readMesh
    rw [if_neg (by rw [hsuf]; simp), hm]
    simp only [hcells, hedges]
    rw [if_neg h3]
    simp only [hrefs, hd2]
  obtain ⟨d', hd'⟩ := hread
  refine ⟨fun _ => s, fun _ => hs, d', hd', ?_⟩
  obtain ⟨-, -, h3, h4⟩ := C08_grouping read file level _ _ cells d' m hm hd'
  obtain ⟨⟨t', pts⟩, hmem, rfl⟩ := List.mem_map.1 ((h3 t).2 ⟨k, p, q, hpq, ht⟩)
  refine ⟨pts, hmem, _, _, ((h4 _ _ hmem).2 _).2 ⟨k, p, q, hpq, ht, Or.inr ⟨rfl, 0, rfl⟩⟩, ?_⟩
  rw [segment_eq_image']
  rintro ⟨θ, -, hθ⟩
  simp only [Prod.mk_sub_mk, Prod.smul_mk, smul_eq_mul, Prod.mk_add_mk, Prod.mk.injEq,
    add_right_inj, s] at hθ
  obtain ⟨e1, e2⟩ := hθ
  have f1 := mul_right_cancel₀ (sub_ne_zero.2 hx.symm) e1
  have f2 := mul_right_cancel₀ (sub_ne_zero.2 hy.symm) e2
  rw [f1] at f2
  have f3 := (div_left_inj' hnpos.ne').1 f2
  simp only [Fin.val_zero, Fin.rev_zero, Fin.val_last, Nat.cast_zero] at f3
  have : (0 : ℝ) < (2 ^ level : ℕ) := by positivity
  linarith

/-! ## C10 -/

lemma pathSuffix_mesh (file : String) :
    pathSuffix file.toList = ".mesh".toList ↔ HasMeshExtension file := by
  unfold pathSuffix HasMeshExtension pathName
  generalize ((file.toList.splitOn '/').filter fun c => decide (c ≠ [] ∧ c ≠ ['.'])).getLast? = o
  have hm : ".mesh".toList = ['.', 'm', 'e', 's', 'h'] := by decide
  rw [hm]
  constructor
  · intro h
    simp only at h
    split_ifs at h with h1
    · push Not at h1
      obtain ⟨h1, -⟩ := h1
      set name := o.getD [] with hname
      have hext : (name.reverse.takeWhile (· ≠ '.')).reverse = ['m', 'e', 's', 'h'] := by
        simpa using h
      have htw : name.reverse.takeWhile (· ≠ '.') = ['h', 's', 'e', 'm'] := by
        rw [← List.reverse_reverse (List.takeWhile _ _), hext]; rfl
      have hsplit := List.takeWhile_append_dropWhile (p := fun c => decide (c ≠ '.'))
        (l := name.reverse)
      rw [hext] at h1
      have hlen : 5 < name.length := by
        by_contra hle
        apply h1
        rw [List.take_eq_nil_iff]
        left
        simp only [List.length_cons, List.length_nil]
        omega
      rw [htw] at hsplit
      have hdrop : ∃ rest, name.reverse.dropWhile (fun c => decide (c ≠ '.')) = '.' :: rest := by
        cases hdw : name.reverse.dropWhile (fun c => decide (c ≠ '.')) with
        | nil =>
          rw [hdw] at hsplit
          have := congrArg List.length hsplit
          simp at this
          omega
        | cons a rest =>
          have := List.head?_dropWhile_not (fun c => decide (c ≠ '.')) name.reverse
          rw [hdw] at this
          simp at this
          exact ⟨rest, by rw [this]⟩
      obtain ⟨rest, hrest⟩ := hdrop
      rw [hrest] at hsplit
      have hnm : name = rest.reverse ++ ['.', 'm', 'e', 's', 'h'] := by
        rw [← List.reverse_reverse name, ← hsplit]
        simp
      refine ⟨rest.reverse, ?_, ?_⟩
      · intro h0
        rw [h0] at hnm
        rw [hnm] at hlen
        simp at hlen
      · rw [← hnm, hname]
        cases o with
        | none => simp [hname] at hlen
        | some n => rfl
  · rintro ⟨stem, hstem, rfl⟩
    simp only [Option.getD_some]
    have htw : (stem ++ ['.', 'm', 'e', 's', 'h']).reverse.takeWhile (· ≠ '.')
        = ['h', 's', 'e', 'm'] := by
      simp [List.takeWhile]
    rw [htw]
    rw [if_neg]
    · rfl
    · simp [hstem]

/-- **C10** (extension).  A file whose name is not `….mesh` is rejected with `ValueError`, whatever
reading it would do. -/
theorem C10_extension (read : String → Except PyErr MeshioMesh) (file : String) (level : ℕ)
    (method : String) (lhs : ℕ → Fin (2 ^ level + 1) → ℝ × ℝ) (h : ¬ HasMeshExtension file) :
    readMesh read file level method lhs = .error .valueError := by
  unfold readMesh
  rw [if_pos (fun hh => h ((pathSuffix_mesh file).1 hh))]

lemma boundaryLoop_exists {extra : ℕ} {method : String} (hmeth : method = "uniform" ∨ method = "lhs")
    {level : ℕ} {lhs : ℕ → Fin (2 ^ level + 1) → ℝ × ℝ} {tags : List ℤ}
    (es : List ((Fin (2 + extra) → ℝ) × (Fin (2 + extra) → ℝ))) (i : ℕ)
    (d : List (ℤ × List (List ℝ))) (hi : i + es.length ≤ tags.length) :
    ∃ d', boundaryLoop method level lhs tags es i d = .ok d' := by
  induction es generalizing i d with
  | nil => exact ⟨d, rfl⟩
  | cons e es ih =>
    simp only [List.length_cons] at hi
    have hs : ∃ rows, sampleEdge method level (lhs i) e.1 e.2 = .ok rows := by
      unfold sampleEdge
      rcases hmeth with rfl | rfl <;> simp
    obtain ⟨rows, hrows⟩ := hs
    have ht : tags[i]? = some (tags[i]'(by omega)) := List.getElem?_eq_getElem _
    simp only [boundaryLoop, hrows, ht]
    exact ih _ _ (by omega)

/-- **C10** (sampling method).  For a readable well-formed `.mesh` file: with at least one boundary
edge `read_mesh` succeeds exactly for `uniform` and `lhs` and raises `ValueError` for anything else;
without boundary edges any method is accepted. -/
theorem C10_sampling_method (read : String → Except PyErr MeshioMesh) (file : String) (level : ℕ)
    (method : String) (lhs : ℕ → Fin (2 ^ level + 1) → ℝ × ℝ) (m : MeshioMesh)
    (hf : HasMeshExtension file) (hm : read file = .ok m) (hw : WellFormed m) :
    (cellsOfType m "line" ≠ [] →
      ((∃ r, readMesh read file level method lhs = .ok r) ↔ method = "uniform" ∨ method = "lhs") ∧
      (¬ (method = "uniform" ∨ method = "lhs") →
        readMesh read file level method lhs = .error .valueError)) ∧
    (cellsOfType m "line" = [] → ∃ r, readMesh read file level method lhs = .ok r) := by
  obtain ⟨hdim, hquad, hline, hquads, hlines, tags, rest, hrefs, hle⟩ := hw
  have hpt : ∀ a, a < m.points.length → ∃ p, m.point a = .ok p := fun a ha =>
    ⟨_, point_ok.2 (List.getElem?_eq_getElem ha)⟩
  have hedges : ∃ edges, readEdges m = .ok edges := by
    unfold readEdges
    rw [cellsDict_ok.2 ⟨hline, rfl⟩]
    refine mapE_exists fun l hl => ?_
    obtain ⟨h2, h3⟩ := hlines l hl
    obtain ⟨ps, hps⟩ := mapE_exists (f := m.point) (l := l) fun a ha => hpt a (h3 a ha)
    have := mapE_length hps
    rw [h2] at this
    obtain ⟨a, b, rfl⟩ := List.length_eq_two.1 this
    exact ⟨(a, b), by simp only [hps]⟩
  have hcells : ∃ cells, readCells m = .ok cells := by
    unfold readCells
    rw [cellsDict_ok.2 ⟨hquad, rfl⟩]
    refine mapE_exists fun l hl => ?_
    obtain ⟨h2, h3⟩ := hquads l hl
    obtain ⟨ps, hps⟩ := mapE_exists (f := m.point) (l := l) fun a ha => hpt a (h3 a ha)
    have := mapE_length hps
    rw [h2] at this
    match ps, this with
    | [a, b, c, d], _ => exact ⟨_, by simp only [hps]; rfl⟩
  obtain ⟨edges, hedges⟩ := hedges
  obtain ⟨cells, hcells⟩ := hcells
  obtain ⟨hlen, -⟩ := readEdges_spec hedges
  have hrun : readMesh read file level method lhs
      = match boundaryLoop method level lhs tags edges 0 [] with
        | .error e => .error e
        | .ok d => .ok (cells, d.map fun e => (e.1, npUnique e.2)) := by
    unfold readMesh
    rw [if_neg (by rw [(pathSuffix_mesh file).2 hf]; simp), hm]
    simp only [hcells, hedges]
    have h3 : ∀ e n : ℕ, e = 1 → (n * 2 * (2 + e)) % 3 = 0 := by rintro e n rfl; omega
    rw [if_neg (not_not.2 (h3 _ _ hdim))]
    simp only [hrefs]
    cases boundaryLoop method level lhs tags edges 0 [] <;> rfl
  have hok : method = "uniform" ∨ method = "lhs" →
      ∃ r, readMesh read file level method lhs = .ok r := by
    intro hmeth
    obtain ⟨d', hd'⟩ := boundaryLoop_exists hmeth (lhs := lhs) (tags := tags) edges 0 [] (by omega)
    rw [hrun, hd']
    exact ⟨_, rfl⟩
  refine ⟨fun hne => ?_, fun he => ?_⟩
  · have hbad : ¬ (method = "uniform" ∨ method = "lhs") →
        readMesh read file level method lhs = .error .valueError := by
      intro hmeth
      push Not at hmeth
      have hpos : edges ≠ [] := by
        rintro rfl
        simp only [List.length_nil] at hlen
        exact hne (List.length_eq_zero_iff.1 hlen.symm)
      obtain ⟨e, es, rfl⟩ := List.exists_cons_of_ne_nil hpos
      rw [hrun]
      simp [boundaryLoop, sampleEdge, hmeth.1, hmeth.2]
    refine ⟨⟨fun ⟨r, hr⟩ => ?_, hok⟩, hbad⟩
    by_contra hmeth
    rw [hbad hmeth] at hr
    cases hr
  · rw [he] at hlen
    simp only [List.length_nil] at hlen
    rw [List.length_eq_zero_iff.1 hlen] at hrun
    rw [hrun]
    exact ⟨_, rfl⟩

/-! ## A concrete mesh -/

/-- The unit square cut off at a corner: one quadrilateral listed crosswise, four boundary edges, one
of them slanted, tags 7, 7, 5, 7. -/
def demoMesh : MeshioMesh where
  extra := 1
  points := [![0, 0, 0], ![1, 0, 0], ![2, 1, 0], ![0, 1, 0]]
  blocks := [("line", [[0, 1], [1, 2], [2, 3], [3, 0]]), ("quad", [[0, 2, 1, 3]])]
  refs := [[7, 7, 5, 7], [1]]

lemma demoMesh_wellFormed : WellFormed demoMesh where
  dim := rfl
  hasQuad := ⟨("quad", [[0, 2, 1, 3]]), by simp [demoMesh], rfl⟩
  hasLine := ⟨("line", [[0, 1], [1, 2], [2, 3], [3, 0]]), by simp [demoMesh], rfl⟩
  quads := by
    intro q hq
    simp [demoMesh, cellsOfType] at hq
    subst hq
    simp [demoMesh]
  lines := by
    intro l hl
    simp [demoMesh, cellsOfType] at hl
    rcases hl with rfl | rfl | rfl | rfl <;> simp [demoMesh]
  refs := ⟨[7, 7, 5, 7], [[1]], rfl, by simp [demoMesh, cellsOfType]⟩

lemma demo_extension : HasMeshExtension "meshes/demo.v2.mesh" := by
  refine ⟨"demo.v2".toList, by decide, ?_⟩
  decide

/-- The hypotheses of C06–C10 are met by a concrete mesh: it is read, for both methods and every level
and outcome, with keys `7, 5`; edge 1 is slanted; and `demo.vtk` is rejected. -/
example (level : ℕ) (lhs : ℕ → Fin (2 ^ level + 1) → ℝ × ℝ) :
    (∃ cells d, readMesh (fun _ => .ok demoMesh) "meshes/demo.v2.mesh" level "uniform" lhs
      = .ok (cells, d) ∧ d.map Prod.fst = [7, 5]) ∧
    (∃ cells d, readMesh (fun _ => .ok demoMesh) "meshes/demo.v2.mesh" level "lhs" lhs
      = .ok (cells, d)) ∧
    IsEdge demoMesh 1 ![1, 0, 0] ![2, 1, 0] ∧ FirstBlockRef demoMesh 1 7 ∧
    ¬ HasMeshExtension "demo.vtk" := by
  have h := fun meth => C10_sampling_method (fun _ => .ok demoMesh) "meshes/demo.v2.mesh" level
    meth lhs demoMesh demo_extension rfl demoMesh_wellFormed
  have hne : cellsOfType demoMesh "line" ≠ [] := by simp [cellsOfType, demoMesh]
  refine ⟨?_, ?_, ?_, ?_, ?_⟩
  · obtain ⟨⟨cells, d⟩, hd⟩ := ((h "uniform").1 hne).1.2 (Or.inl rfl)
    refine ⟨cells, d, hd, ?_⟩
    obtain ⟨⟨tags, ht, hk⟩, -⟩ := C08_grouping _ _ level _ lhs cells d demoMesh rfl hd
    simp only [demoMesh, List.head?_cons, Option.some.injEq] at ht
    rw [hk, ← ht]
    simp [demoMesh, cellsOfType]
    decide
  · obtain ⟨⟨cells, d⟩, hd⟩ := ((h "lhs").1 hne).1.2 (Or.inr rfl)
    exact ⟨cells, d, hd⟩
  · exact ⟨1, 2, by simp [cellsOfType, demoMesh], rfl, rfl⟩
  · exact ⟨_, rfl, rfl⟩
  · rw [← pathSuffix_mesh]
    decide

/-! ## C62 -/

/-- **C62** (partial).  If the edges come first in the file (first block `line`, no other `line` block),
the points are grouped by the reference the file gives to the edge.  Missing: files in which another
block comes first, for which this is false, see `C62_first_block_wrong`. -/
theorem C62_line_references_partial (read : String → Except PyErr MeshioMesh) (file : String)
    (level : ℕ) (method : String) (lhs : ℕ → Fin (2 ^ level + 1) → ℝ × ℝ) (cells : List Quad)
    (d : List (ℤ × List (List ℝ))) (m : MeshioMesh) (hm : read file = .ok m)
    (h : readMesh read file level method lhs = .ok (cells, d)) (hr : RefsMatch m)
    (ls : List (List ℕ)) (bs : List (String × List (List ℕ))) (hb : m.blocks = ("line", ls) :: bs)
    (hbs : ∀ b ∈ bs, b.1 ≠ "line") :
    (∀ t, t ∈ d.map Prod.fst ↔ ∃ k p q, IsEdge m k p q ∧ LineRef m k t) ∧
    ∀ t pts, (t, pts) ∈ d → ∀ r, r ∈ pts ↔ ∃ k p q, IsEdge m k p q ∧ LineRef m k t ∧
        IsEdgeSample method level (lhs k) p q r := by
  obtain ⟨-, -, h3, h4⟩ := C08_grouping read file level method lhs cells d m hm h
  have key : ∀ k t, LineRef m k t ↔ FirstBlockRef m k t := by
    intro k t
    unfold LineRef FirstBlockRef
    unfold RefsMatch at hr
    rw [hb] at hr
    cases hrefs : m.refs with
    | nil => rw [hrefs] at hr; cases hr
    | cons r rs =>
      have hz : ((bs.zip rs).flatMap fun b => if b.1.1 = "line" then b.2 else []) = [] := by
        rw [List.flatMap_eq_nil_iff]
        rintro ⟨b, r'⟩ hbr
        rw [if_neg (hbs b (List.of_mem_zip hbr).1)]
      rw [hb]
      simp [hz]
  refine ⟨fun t => ?_, fun t pts ht r => ?_⟩
  · simp only [key]; exact h3 t
  · simp only [key]; exact (h4 t pts ht).2 r

/-- **C62** (what does not hold).  If another block comes first in the file, the points are filed under
the references of *that* block: there is a well-formed mesh whose only boundary edge has reference 9
and whose only quadrilateral has reference 1, and `read_mesh` files the edge under 1. -/
theorem C62_first_block_wrong (level : ℕ) (lhs : ℕ → Fin (2 ^ level + 1) → ℝ × ℝ) :
    ∃ m : MeshioMesh, WellFormed m ∧ RefsMatch m ∧
      (∃ p q, IsEdge m 0 p q ∧ ∀ t, LineRef m 0 t ↔ t = 9) ∧
      ∃ cells d, readMesh (fun _ => .ok m) "a.mesh" level "uniform" lhs = .ok (cells, d) ∧
        d.map Prod.fst = [1] := by
  let m : MeshioMesh :=
    { extra := 1
      points := [![0, 0, 0], ![1, 0, 0], ![2, 1, 0], ![0, 1, 0]]
      blocks := [("quad", [[0, 1, 2, 3]]), ("line", [[0, 1]])]
      refs := [[1], [9]] }
  have hw : WellFormed m :=
    { dim := rfl
      hasQuad := ⟨("quad", [[0, 1, 2, 3]]), by simp [m], rfl⟩
      hasLine := ⟨("line", [[0, 1]]), by simp [m], rfl⟩
      quads := by
        intro q hq
        simp [m, cellsOfType] at hq
        subst hq
        simp [m]
      lines := by
        intro l hl
        simp [m, cellsOfType] at hl
        subst hl
        simp [m]
      refs := ⟨[1], [[9]], rfl, by simp [m, cellsOfType]⟩ }
  have hext : HasMeshExtension "a.mesh" := ⟨"a".toList, by decide, by decide⟩
  have hne : cellsOfType m "line" ≠ [] := by simp [cellsOfType, m]
  obtain ⟨⟨cells, d⟩, hd⟩ := ((C10_sampling_method (fun _ => .ok m) "a.mesh" level "uniform" lhs m
    hext rfl hw).1 hne).1.2 (Or.inl rfl)
  refine ⟨m, hw, ?_, ⟨![0, 0, 0], ![1, 0, 0], ⟨0, 1, by simp [cellsOfType, m], rfl, rfl⟩, ?_⟩, cells,
    d, hd, ?_⟩
  · simp [RefsMatch, m]
  · intro t; simp [LineRef, m, eq_comm]
  · obtain ⟨⟨tags, ht, hk⟩, -⟩ := C08_grouping _ _ level _ lhs cells d m rfl hd
    simp only [m, List.head?_cons, Option.some.injEq] at ht
    rw [hk, ← ht]
    simp [m, cellsOfType]
    decide

/-- The demonstration mesh meets the hypotheses of `C62_line_references_partial`. -/
example : RefsMatch demoMesh ∧ ∃ ls bs, demoMesh.blocks = ("line", ls) :: bs ∧ ∀ b ∈ bs, b.1 ≠ "line" :=
  ⟨by simp [RefsMatch, demoMesh], _, _, rfl, by simp⟩

end FastVPINNs
