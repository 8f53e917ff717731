import Verif.Props.Forcing
import Mathlib.Algebra.Order.Floor.Semifield

/-! # C40, C41: sensor data and the tensors of the data handler -/

namespace FastVPINNs

open Spec

/-! ## C40 -/

/-- `p` lies in the smallest axis-parallel rectangle containing the points `mp`. -/
def Spec.InBoundingBox (mp : List (ℝ × ℝ)) (p : ℝ × ℝ) : Prop :=
  (∃ a ∈ mp, a.1 ≤ p.1) ∧ (∃ a ∈ mp, p.1 ≤ a.1) ∧ (∃ a ∈ mp, a.2 ≤ p.2) ∧ ∃ a ∈ mp, p.2 ≤ a.2

lemma floor_nine_tenths (n : ℕ) : ⌊(n : ℝ) * 0.9⌋₊ = 9 * n / 10 := by
  have h : (n : ℝ) * 0.9 = ((9 * n : ℕ) : ℝ) / ((10 : ℕ) : ℝ) := by push_cast; ring
  rw [h, Nat.floor_div_eq_div]

section
variable {F V : Type} {nt nq : ℕ} (S : Fespace2D F V nt nq) (exact : ℝ → ℝ → ℝ) (n : ℕ)
  (lhs : (k : ℕ) → Fin k → ℝ × ℝ) (file : Option (List (ℝ × ℝ × ℝ))) (randint : ℕ → Fin n → ℤ)

/-- **C40** (`internal`).  For every sampler outcome in the unit square, `⌊0.9 n⌋` points of the bounding
box of the mesh are returned, paired with the exact solution at the same points; without mesh points a
`ValueError` is raised. -/
theorem C40_internal (hlhs : ∀ k i, (lhs k i).1 ∈ Set.Icc (0 : ℝ) 1 ∧ (lhs k i).2 ∈ Set.Icc (0 : ℝ) 1) :
    (S.meshPoints ≠ [] → ∃ pts vals, getSensorData S exact n "internal" lhs file randint = .ok (pts, vals) ∧
      pts.length = 9 * n / 10 ∧ (∀ p ∈ pts, InBoundingBox S.meshPoints p) ∧
      vals = pts.map fun p => exact p.1 p.2) ∧
    (S.meshPoints = [] → getSensorData S exact n "internal" lhs file randint = .error .valueError) := by
  constructor
  · intro hne
    have h1 : S.meshPoints.map Prod.fst ≠ [] := by simpa using hne
    have h2 : S.meshPoints.map Prod.snd ≠ [] := by simpa using hne
    obtain ⟨x0, hx0⟩ : ∃ x, (S.meshPoints.map Prod.fst).min? = some x :=
      Option.ne_none_iff_exists'.1 (by simpa using hne)
    obtain ⟨x1, hx1⟩ : ∃ x, (S.meshPoints.map Prod.fst).max? = some x :=
      Option.ne_none_iff_exists'.1 (by simpa using hne)
    obtain ⟨y0, hy0⟩ : ∃ x, (S.meshPoints.map Prod.snd).min? = some x :=
      Option.ne_none_iff_exists'.1 (by simpa using hne)
    obtain ⟨y1, hy1⟩ : ∃ x, (S.meshPoints.map Prod.snd).max? = some x :=
      Option.ne_none_iff_exists'.1 (by simpa using hne)
    refine ⟨List.ofFn fun k : Fin ⌊(n : ℝ) * 0.9⌋₊ =>
        (x0 + (x1 - x0) * (lhs ⌊(n : ℝ) * 0.9⌋₊ k).1, y0 + (y1 - y0) * (lhs ⌊(n : ℝ) * 0.9⌋₊ k).2),
      _, ?_, ?_, ?_, rfl⟩
    · simp only [getSensorData, if_true, Fespace2D.getSensorData, hx0, hx1, hy0, hy1]
    · rw [List.length_ofFn, floor_nine_tenths]
    · intro p hp
      obtain ⟨k, rfl⟩ := List.mem_ofFn.1 hp
      obtain ⟨⟨u0, u1⟩, ⟨v0, v1⟩⟩ := hlhs _ k
      obtain ⟨mx0, lx0⟩ := List.min?_eq_some_iff.1 hx0
      obtain ⟨mx1, lx1⟩ := List.max?_eq_some_iff.1 hx1
      obtain ⟨my0, ly0⟩ := List.min?_eq_some_iff.1 hy0
      obtain ⟨my1, ly1⟩ := List.max?_eq_some_iff.1 hy1
      have hx : x0 ≤ x1 := lx0 x1 mx1
      have hy : y0 ≤ y1 := ly0 y1 my1
      obtain ⟨a, ha, rfl⟩ := List.mem_map.1 mx0
      obtain ⟨b, hb, rfl⟩ := List.mem_map.1 mx1
      obtain ⟨c, hc, rfl⟩ := List.mem_map.1 my0
      obtain ⟨d, hd, rfl⟩ := List.mem_map.1 my1
      refine ⟨⟨a, ha, ?_⟩, ⟨b, hb, ?_⟩, ⟨c, hc, ?_⟩, ⟨d, hd, ?_⟩⟩
      · exact le_add_of_nonneg_right (mul_nonneg (sub_nonneg.2 hx) u0)
      · have := mul_le_of_le_one_right (sub_nonneg.2 hx) u1
        linarith
      · exact le_add_of_nonneg_right (mul_nonneg (sub_nonneg.2 hy) v0)
      · have := mul_le_of_le_one_right (sub_nonneg.2 hy) v1
        linarith
  · intro h
    simp [getSensorData, Fespace2D.getSensorData, h]

/-- **C40** (`external`).  For every outcome of the random indices, `n` rows are returned, each with the
coordinates and the value of one and the same line of the file other than the first (which is taken for the
names of the columns); the exact solution passed in is not used; a file without a second line, and no file, are a
`ValueError`. -/
theorem C40_external (hr : ∀ m i, 0 < m → 0 ≤ randint m i ∧ randint m i < m) :
    (∀ first df, file = some (first :: df) → df ≠ [] → ∃ pts vals, (∀ (exact' : ℝ → ℝ → ℝ) (first' : ℝ × ℝ × ℝ),
        getSensorData S exact' n "external" lhs (some (first' :: df)) randint = .ok (pts, vals)) ∧
      pts.length = n ∧ vals.length = n ∧
      ∀ i : Fin n, ∃ r, df[(randint df.length i).toNat]? = some r ∧
        pts[i.val]? = some (r.1, r.2.1) ∧ vals[i.val]? = some r.2.2) ∧
    ((∀ lines, file = some lines → lines.length ≤ 1) →
      getSensorData S exact n "external" lhs file randint = .error .valueError) := by
  constructor
  · intro first df _ hne
    have hpos : 0 < df.length := List.length_pos_of_ne_nil hne
    have hget : ∀ i : Fin n, ∃ r, df[(randint df.length i).toNat]? = some r := fun i =>
      ⟨_, List.getElem?_eq_getElem (by have := hr df.length i hpos; omega)⟩
    choose r hrow using hget
    have hidx : ∀ {α : Type} (g : ℝ × ℝ × ℝ → α),
        mapE (pyIndex (df.map g)) (List.ofFn (randint df.length)) = .ok (List.ofFn fun i => g (r i)) := by
      intro α g
      rw [mapE_ok_iff, List.forall₂_iff_get]
      refine ⟨by simp, fun k hk hk' => ?_⟩
      simp only [List.length_ofFn] at hk
      rw [List.get_eq_getElem, List.get_eq_getElem, List.getElem_ofFn, List.getElem_ofFn,
        pyIndex_nonneg _ (hr _ _ hpos).1, List.getElem?_map, hrow ⟨k, hk⟩]
      rfl
    refine ⟨(List.ofFn fun i => (r i).1).zip (List.ofFn fun i => (r i).2.1),
      List.ofFn fun i => (r i).2.2, fun exact' _ => ?_, by simp, by simp, fun i => ⟨r i, hrow i, ?_, ?_⟩⟩
    · have hlen : ¬ (df.map fun r => r.1).length = 0 := by simpa using hne
      simp only [getSensorData, String.reduceEq, if_false, if_true, getSensorDataExternal, hlen]
      rw [List.length_map, hidx fun r => r.1, hidx fun r => r.2.1, hidx fun r => r.2.2]
    · simp
    · simp
  · intro h
    rcases file with _ | _ | ⟨a, _ | ⟨b, l⟩⟩
    · simp [getSensorData, getSensorDataExternal]
    · simp [getSensorData, getSensorDataExternal]
    · simp [getSensorData, getSensorDataExternal]
    · simpa using h _ rfl

/-- **C40** (a finding).  No sensor is ever placed at the first line of the file, although the shipped file has
no line with names: changing this line changes nothing. -/
theorem C40_first_line_unused (first first' : ℝ × ℝ × ℝ) (df : List (ℝ × ℝ × ℝ)) :
    getSensorData S exact n "external" lhs (some (first :: df)) randint
      = getSensorData S exact n "external" lhs (some (first' :: df)) randint := rfl

/-- **C40** (other mesh types).  `points` is never assigned. -/
theorem C40_other (t : String) (h1 : t ≠ "internal") (h2 : t ≠ "external") :
    getSensorData S exact n t lhs file randint = .error .unboundLocalError := by
  simp [getSensorData, h1, h2]

end

/-- C40 on the demo space with 25 requested points: 22 are returned. -/
example (ext : QuadRoutines) (exact : ℝ → ℝ → ℝ) (file : Option (List (ℝ × ℝ × ℝ))) (randint : ℕ → Fin 25 → ℤ) :
    ∃ nq S, fespace2D ext [(0, 0), (1, 1)] demoCells demoBoundary (demoSettings "bilinear") demoDict
      exact false = .ok ⟨nq, S⟩ ∧ ∃ pts vals,
      getSensorData S exact 25 "internal" (fun k i => ((i + 1) / k, 1 / 2)) file randint = .ok (pts, vals) ∧
        pts.length = 22 := by
  obtain ⟨nq, S, h⟩ := demo_fespace ext exact "bilinear" (Or.inl rfl)
  have hmp := (fespace_ok h).2.2.2.1
  obtain ⟨pts, vals, h1, h2, -⟩ := (C40_internal S exact 25 (fun k i => ((i + 1) / k, 1 / 2)) file randint
    (fun k i => ⟨⟨by positivity, by
      rw [div_le_one (by have := i.pos; positivity)]; exact_mod_cast i.isLt⟩, by norm_num, by norm_num⟩)).1
    (by rw [hmp]; simp)
  exact ⟨nq, S, h, pts, vals, h1, h2⟩

/-- C40 (`external`) with three draws from a file of two lines. -/
example {F V : Type} {nt nq : ℕ} (S : Fespace2D F V nt nq) (exact : ℝ → ℝ → ℝ) (lhs) :
    ∃ pts vals, getSensorData S exact 3 "external" lhs (some [(1, 2, 3), (4, 5, 6)])
      (fun m _ => (m - 1 : ℤ)) = .ok (pts, vals) ∧ pts[2]? = some (4, 5) ∧ vals[2]? = some 6 := by
  obtain ⟨pts, vals, h, -, -, h3⟩ := (C40_external S exact 3 lhs (some [(1, 2, 3), (4, 5, 6)])
    (fun m _ => (m - 1 : ℤ)) (fun m _ hm => by omega)).1 _ _ rfl (by simp)
  obtain ⟨r, hr, h4, h5⟩ := h3 2
  simp at hr
  subst hr
  exact ⟨pts, vals, h exact _, h4, h5⟩

/-! ## C41 -/

/-- The tensors of a cell are those the accessors report for the space `S`. -/
def TensorsOf {V : Type} {nt nq : ℕ} (S : Fespace2D (ℝ → ℝ → ℝ) V nt nq) (k : ℕ)
    (t : CellTensors nt nq) : Prop :=
  S.getShapeFunctionVal k = .ok t.shapeVal ∧ S.getShapeFunctionGradX k = .ok t.gradX ∧
  S.getShapeFunctionGradY k = .ok t.gradY ∧ S.getQuadratureActualCoordinates k = .ok t.xPde ∧
  ∃ S', S.getForcingFunctionValues k = .ok (t.forcing, S')

section
variable {V : Type} (ext : QuadRoutines) (mp : List (ℝ × ℝ)) (cells : List Quad) (bd : BdDict)
  (s : FESettings) (dict : List (ℤ × (ℝ → ℝ → V))) (f : ℝ → ℝ → ℝ) (plot : Bool)

/-- The forcing accessor returns the same after any history. -/
lemma forcing_reachable {nt nq : ℕ} {S S' : Fespace2D (ℝ → ℝ → ℝ) V nt nq} (h : Reachable S S') (i : ℤ)
    {col : Fin nt → ℝ} {S₁ : Fespace2D (ℝ → ℝ → ℝ) V nt nq}
    (h1 : S'.getForcingFunctionValues i = .ok (col, S₁)) :
    ∃ S₂, S.getForcingFunctionValues i = .ok (col, S₂) := by
  rcases reachable_cellAt h i with ⟨-, h2⟩ | ⟨a, b, ha, hb, hab⟩
  · simp [Fespace2D.getForcingFunctionValues, h2] at h1
  · obtain ⟨e1, -, -, -, -, e2, -, e3⟩ := hab.fields
    simp only [Fespace2D.getForcingFunctionValues, hb, Except.ok.injEq, Prod.mk.injEq, e1, e2, e3] at h1
    obtain ⟨rfl, -⟩ := h1
    exact ⟨_, by simp only [Fespace2D.getForcingFunctionValues, ha]; rfl⟩

lemma dataLoop_spec {nq : ℕ} (S : Fespace2D (ℝ → ℝ → ℝ) V (s.feOrder.toNat ^ 2) nq)
    (h : fespace2D ext mp cells bd s dict f plot = .ok ⟨nq, S⟩) (is : List ℕ)
    (his : ∀ i ∈ is, i < cells.length) (S₁ : Fespace2D (ℝ → ℝ → ℝ) V (s.feOrder.toNat ^ 2) nq)
    (hS₁ : Reachable S S₁) (out : List (CellTensors (s.feOrder.toNat ^ 2) nq)) :
    ∃ ts S₂, dataLoop is S₁ out = .ok (out ++ ts, S₂) ∧ Reachable S S₂ ∧
      List.Forall₂ (TensorsOf S) is ts := by
  induction is generalizing S₁ out with
  | nil => exact ⟨[], S₁, by simp [dataLoop], hS₁, .nil⟩
  | cons i is ih =>
    have hc := List.getElem?_eq_getElem (his i (by simp))
    obtain ⟨-, h2, h3⟩ := C39_forcing ext mp cells bd s dict plot f S S₁ h hS₁
    obtain ⟨col, S₂, hcol, -⟩ := h2 i _ hc
    obtain ⟨fc, -, a1, a2, a3, -, -, a6, -⟩ := (C34_accessors ext mp cells bd s dict f plot S h).2 i _ hc
    obtain ⟨b1, b2, b3, -, -, b6, -⟩ := h3 i
    have hS₂ : Reachable S S₂ := .step i hS₁ hcol
    obtain ⟨ts, S₃, e, r, ff⟩ := ih (fun j hj => his j (by simp [hj])) S₂ hS₂
      (out ++ [⟨fc.basisAtQuad, fc.basisGradxAtQuad, fc.basisGradyAtQuad, fc.quadActualCoordinates, col⟩])
    refine ⟨⟨fc.basisAtQuad, fc.basisGradxAtQuad, fc.basisGradyAtQuad, fc.quadActualCoordinates, col⟩ :: ts,
      S₃, ?_, r, .cons ⟨a1, a2, a3, a6, forcing_reachable hS₁ i hcol⟩ ff⟩
    have : cellTensors S₁ (i : ℤ) = .ok (⟨fc.basisAtQuad, fc.basisGradxAtQuad, fc.basisGradyAtQuad,
        fc.quadActualCoordinates, col⟩, S₂) := by
      unfold cellTensors
      rw [← b1, ← b2, ← b3, ← b6, a1, a2, a3, a6, hcol]
    simp only [dataLoop, this, e]
    simp

/-- The space a data handler leaves behind differs from the given one only by stored forcing vectors. -/
lemma dataHandler_reachable {nq : ℕ} {S S' : Fespace2D (ℝ → ℝ → ℝ) V (s.feOrder.toNat ^ 2) nq}
    {D : DataHandler2D (s.feOrder.toNat ^ 2) nq}
    (h : fespace2D ext mp cells bd s dict f plot = .ok ⟨nq, S⟩) (hD : dataHandler2D S true = .ok (D, S')) :
    Reachable S S' := by
  have hn : S.nCells = cells.length := (fespace_ok h).2.2.2.2.1
  obtain ⟨ts, S₂, e, r, -⟩ := dataLoop_spec ext mp cells bd s dict f plot S h (List.range S.nCells)
    (fun i hi => by simpa [hn] using hi) S .refl []
  simp only [dataHandler2D, if_true, e, Except.ok.injEq, Prod.mk.injEq] at hD
  rw [← hD.2]
  exact r

/-- **C41.**  The data handler built from a space holds, for each cell `c`, the arrays the accessors
report for cell `c`; row `c * n_quad + q` of the input tensor is quadrature point `q` of cell `c`;
column `c` of the forcing matrix is the forcing vector of cell `c`.  Building it leaves the tables of
the space unchanged.  A `dtype` that is not a TensorFlow type is a `TypeError`. -/
theorem C41_layout {nq : ℕ} (S : Fespace2D (ℝ → ℝ → ℝ) V (s.feOrder.toNat ^ 2) nq)
    (h : fespace2D ext mp cells bd s dict f plot = .ok ⟨nq, S⟩) :
    dataHandler2D S false = .error .typeError ∧
    ∃ D S', dataHandler2D S true = .ok (D, S') ∧ D.nCells = cells.length ∧ SameTables S S' ∧
      ∀ c : Fin D.nCells,
        S.getShapeFunctionVal c = .ok (D.shapeValMat c) ∧
        S.getShapeFunctionGradX c = .ok (D.gradXMat c) ∧
        S.getShapeFunctionGradY c = .ok (D.gradYMat c) ∧
        (∃ x, S.getQuadratureActualCoordinates c = .ok x ∧
          ∀ (q : Fin nq) (r : Fin (D.nCells * nq)), r.val = c.val * nq + q.val → D.xPde r = x q) ∧
        ∃ col S'', S.getForcingFunctionValues c = .ok (col, S'') ∧ ∀ t, D.forcing t c = col t := by
  have hn : S.nCells = cells.length := (fespace_ok h).2.2.2.2.1
  obtain ⟨ts, S', e, r, ff⟩ := dataLoop_spec ext mp cells bd s dict f plot S h (List.range S.nCells)
    (fun i hi => by simpa [hn] using hi) S .refl []
  refine ⟨by simp [dataHandler2D], stackTensors ts, S', ?_, ?_, ?_, ?_⟩
  · simp only [dataHandler2D, if_true, e, List.nil_append]
  · exact ff.length_eq.symm.trans (by simp [hn])
  · exact (C39_forcing ext mp cells bd s dict plot f S S' h r).2.2
  · intro c
    have hc : c.val < ts.length := c.isLt
    have hT : TensorsOf S c.val (ts.get c) := by
      have := (List.forall₂_iff_get.1 ff).2 c.val (by rw [ff.length_eq]; exact hc) hc
      simp only [List.get_eq_getElem, List.getElem_range] at this
      exact this
    obtain ⟨t1, t2, t3, t4, S'', t5⟩ := hT
    refine ⟨t1, t2, t3, ⟨_, t4, fun q r hr => ?_⟩, _, S'', t5, fun t => rfl⟩
    have h1 : r.divNat = c := Fin.ext (by
      rw [Fin.coe_divNat, hr, Nat.mul_comm, Nat.mul_add_div (q.pos), Nat.div_eq_of_lt q.isLt, add_zero])
    have h2 : r.modNat = q := Fin.ext (by
      rw [Fin.coe_modNat, hr, Nat.mul_comm, Nat.mul_add_mod, Nat.mod_eq_of_lt q.isLt])
    show (ts.get r.divNat).xPde r.modNat = (ts.get c).xPde q
    rw [h1, h2]

end

/-- C41 on the demo space: row 27 is point 2 of the kite (25 points per cell). -/
example (ext : QuadRoutines) (f : ℝ → ℝ → ℝ) : ∃ nq S,
    fespace2D ext [(0, 0), (1, 1)] demoCells demoBoundary (demoSettings "affine") demoDict
      f false = .ok ⟨nq, S⟩ ∧ ∃ D S' x, dataHandler2D S true = .ok (D, S') ∧
      S.getQuadratureActualCoordinates 1 = .ok x ∧ ∀ (q : Fin nq) (r : Fin (D.nCells * nq)),
        q.val = 2 → r.val = 27 → D.xPde r = x q := by
  obtain ⟨nq, S, h⟩ := demo_fespace ext f "affine" (Or.inr rfl)
  have hnq : (nq : ℤ) = 25 := by rw [((C36_total_dofs _ _ _ _ _ _ _ _).1 nq S h).1]; rfl
  obtain ⟨D, S', e, hn, -, hD⟩ := (C41_layout _ _ _ _ _ _ _ _ S h).2
  have hn : D.nCells = 2 := hn
  obtain ⟨-, -, -, ⟨x, hx, hr⟩, -⟩ := hD ⟨1, by omega⟩
  exact ⟨nq, S, h, D, S', x, e, hx, fun q r hq hr' => hr q r (by
    have : nq = 25 := by exact_mod_cast hnq
    simp only; omega)⟩

end FastVPINNs
